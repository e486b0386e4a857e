import Verif.Model.Syntax
import Verif.Model.Arith

/-!
Model of `src/spec.c`: coding of the quantised spectrum, LSB and residual stages, bit
consumption, noise level, noise filling.

Spectral coefficients are `float` in the code. On the coding side, only two functions of a coefficient
`x` are used by `compute_nbits`, `put_quantized` and `put_lsb`: the integer
`(uint32_t)(fabsf(x) + xq_off)` and the condition `x < 0`. A coefficient is thus the pair
`(magnitude, negative)` here, obtained from any implementation of `float` by `quantCoef`.
On the decoding side, the coefficients set by `get_quantized` and `get_lsb` are integers of
magnitude at most `2^24`, exactly represented by a `float`: they are integers here.
-/

namespace LC3

/-- Magnitude and sign of a coefficient, as seen by the coding functions. -/
abbrev Coef := Nat × Bool

/-- The integer coded by a coefficient. -/
def Coef.val (c : Coef) : Int := if c.2 then -(c.1 : Int) else c.1

/-- The computation `fabsf(x) + xq_off` converted to `uint32_t` and `x < 0`, src/spec.c:346-348, 435-437,
471-472, 642-644. The conversion is undefined in C out of the range of `uint32_t`, this is not
modelled here: the value is unbounded. -/
def quantCoef {R : Type} (A : Arith R) (hr : Bool) (x : R) : Coef :=
  ((A.trunc (A.add (A.abs x) (A.ofRat (if hr then 1/2 else 6/16)))).toNat, A.lt x (A.ofRat 0))

/-- `resolve_modes`, src/spec.c:304-312: the return value. -/
def highRate (sr : Srate) (nbytes : Nat) : Bool :=
  let srInd := if sr.hr then 4 + (sr.idx - 5) else sr.idx
  decide (nbytes > 20 * (1 + srInd)) && decide (sr.idx < 6)

/-- `resolve_modes`, src/spec.c:304-312: the value `*p_lsb_mode`. -/
def lsbAllowed (sr : Srate) (nbytes : Nat) : Bool :=
  let srInd := if sr.hr then 4 + (sr.idx - 5) else sr.idx
  decide (nbytes ≥ 20 * (3 + srInd)) && decide (sr.idx < 6)

/-- `lc3_spectrum_lookup`, src/tables.c:4917, indexed by rate and half of the spectrum. -/
def spectrumLookup (hrate : Bool) (h : Nat) : List (List Nat) :=
  match hrate, h with
  | false, 0 => spectrumLookup00
  | false, _ => spectrumLookup01
  | true, 0 => spectrumLookup10
  | true, _ => spectrumLookup11

/-- The row of `lc3_spectrum_lookup` used by the pair at index `i`: the loops on `h` and `i`, for instance
src/spec.c:430-433, go on the same `i` over the two halves, the first one until `(ne + 2) >> 1`. -/
def lutOf (hrate : Bool) (ne i state : Nat) : List Nat :=
  (spectrumLookup hrate (if i < (ne + 2) >>> 1 then 0 else 1)).getD state []

/-- `lc3_spectrum_models + lut[k]`. -/
def specModel (lut : List Nat) (k : Nat) : AcModel := spectrumModels.getD (lut.getD k 64) []

/-- The update of the context (`uint8_t`), src/spec.c:394, 483, 560. -/
def nextState (state k a b : Nat) : Nat :=
  ((state <<< 4) + (if k > 1 then 12 + k else 1 + (a + b) * (k + 1))) % 256

/-! ### Writing -/

/-- The loop of escapes of `put_quantized`, src/spec.c:455-460. Returns the final `k`. `m` is an
`uint32_t`: 32 iterations are enough. -/
def putEsc (lut : List Nat) (a c : Nat) : Nat → Nat → Nat → Bits → Bits × Nat
  | 0, _, k, b => (b, k)
  | f + 1, m, k, b =>
    if m = 0 then (b, k) else
    let b := putBit b ((a >>> k) &&& 1)
    let b := putBit b ((c >>> k) &&& 1)
    let b := putSymbol b (specModel lut (min k 3)) 16
    putEsc lut a c f (m >>> 1) (k + 1) b

/-- The large values of a pair, src/spec.c:449-467: the bitstream, then `k`, `shr`, `a` and `b`. -/
def putLarge (lut : List Nat) (lsb : Bool) (a c : Nat) (b : Bits) : Bits × Nat × Nat × Nat × Nat :=
  let b := if lsb then putSymbol b (specModel lut 0) 16 else b
  let q := putEsc lut a c 32 (((a ||| c) >>> 2) >>> b2n lsb) (b2n lsb) b
  (q.1, min q.2 3, q.2 - b2n lsb, a >>> b2n lsb, c >>> b2n lsb)

/-- Coding of a pair, src/spec.c:446-483: the bitstream, then `k`, `a` and `b`. -/
def putPair (lut : List Nat) (lsb : Bool) (p q : Coef) (b : Bits) : Bits × Nat × Nat × Nat :=
  let w := if (p.1 ||| q.1) >>> 2 ≠ 0 then putLarge lut lsb p.1 q.1 b else (b, 0, 0, p.1, q.1)
  let b := w.1
  let b := if w.2.2.2.1 ≠ 0 then putBit b (b2n p.2) else b
  let b := if w.2.2.2.2 ≠ 0 then putBit b (b2n q.2) else b
  let a := w.2.2.2.1 >>> w.2.2.1
  let c := w.2.2.2.2 >>> w.2.2.1
  (putSymbol b (specModel lut w.2.1) (a + 4 * c), w.2.1, a, c)

/-- `put_quantized`, src/spec.c:419-486, from the index `i`, on the coefficients of index lower than
`nq` (an even number). -/
def putQuantized (hrate lsb : Bool) (ne : Nat) : Nat → Nat → List Coef → Bits → Bits
  | i, state, p :: q :: l, b =>
    let w := putPair (lutOf hrate ne i state) lsb p q b
    putQuantized hrate lsb ne (i + 2) (nextState state w.2.1 w.2.2.1 w.2.2.2) l w.1
  | _, _, _, b => b

/-- The withheld bit and sign of a value in `put_lsb`, src/spec.c:649-653 and 655-659: the
remaining number of bits and the bitstream. -/
def putLsb1 (p : Coef) (nbits : Int) (b : Bits) : Int × Bits :=
  let b := if nbits > 0 then putBit b (p.1 &&& 1) else b
  let nbits := nbits - 1
  if p.1 = 1 then (nbits - 1, if nbits > 0 then putBit b (b2n p.2) else b) else (nbits, b)

/-- `put_lsb`, src/spec.c:637-661. -/
def putLsb : Int → List Coef → Bits → Bits
  | nbits, p :: q :: l, b =>
    if nbits ≤ 0 then b else
    if (p.1 ||| q.1) >>> 2 = 0 then putLsb nbits l b else
    let w := putLsb1 p nbits b
    let w := putLsb1 q w.1 w.2
    putLsb w.1 l w.2
  | _, _, b => b

/-! ### Reading -/

/-- State of the decoding of a pair: `s`, `k`, `shl`, `u`, `v`, src/spec.c:523-526. -/
structure PairSt where
  s : Nat
  k : Nat
  shl : Nat
  u : Nat
  v : Nat
  deriving DecidableEq, Repr, Inhabited

/-- The loop of escapes of `get_quantized`, src/spec.c:533-539. -/
def getEsc (lut : List Nat) (maxShl : Nat) : Nat → PairSt → Bits → PairSt × Bits
  | 0, q, r => (q, r)
  | f + 1, q, r =>
    if q.s ≥ 16 ∧ q.shl < maxShl then
      let (x, r) := getBit r
      let (y, r) := getBit r
      let k := q.k + b2n (decide (q.k < 3))
      let (s, r) := getSymbol r (specModel lut k)
      getEsc lut maxShl f ⟨s, k, q.shl + 1, q.u ||| (x <<< q.shl), q.v ||| (y <<< q.shl)⟩ r
    else (q, r)

/-- The first symbols of a pair, src/spec.c:523-531. -/
def getFirst (lut : List Nat) (lsb : Bool) (r : Bits) : PairSt × Bits :=
  let (s, r) := getSymbol r (specModel lut 0)
  if lsb ∧ s ≥ 16 then
    let (s, r) := getSymbol r (specModel lut 1)
    (⟨s, 1, 1, 0, 0⟩, r)
  else (⟨s, 0, 0, 0, 0⟩, r)

/-- The sign of a value, src/spec.c:552-553. -/
def getSign (u : Nat) (r : Bits) : Int × Bits :=
  if u = 0 then (0, r) else
  let (x, r) := getBit r
  (if x ≠ 0 then -(u : Int) else u, r)

/-- The end of the decoding of a pair, src/spec.c:541-553: the two values, then the state with the
most significant bits of the values in `u` and `v`, or `none` on invalid data. -/
def getMsb (q : PairSt) (r : Bits) : Option (Int × Int × PairSt) × Bits :=
  if q.s ≥ 16 then (none, r) else
  let x := getSign (q.u ||| ((q.s % 4) <<< q.shl)) r
  let y := getSign (q.v ||| ((q.s / 4) <<< q.shl)) x.2
  (some (x.1, y.1, { q with u := q.s % 4, v := q.s / 4 }), y.2)

/-- Decoding of a pair, src/spec.c:515-560. -/
def getPair (lut : List Nat) (lsb : Bool) (maxShl : Nat) (r : Bits) :
    Option (Int × Int × PairSt) × Bits :=
  let w := getFirst lut lsb r
  let w := getEsc lut maxShl maxShl w.1 w.2
  getMsb w.1 w.2

/-- The update of the noise seed, src/spec.c:555-556. -/
def seedAdd (seed i : Nat) (x y : Int) : Nat :=
  (seed + (x.natAbs &&& 0x7fff) * i + (y.natAbs &&& 0x7fff) * (i + 1)) &&& 0xffff

/-- `max_shl`, src/spec.c:516. -/
def maxShl (hr : Bool) : Nat := if hr then 22 else 14

/-- `get_quantized`, src/spec.c:497-565, from the index `i`, with `n` pairs to read: the coefficients
and the seed, or `none` on invalid data. -/
def getQuantized (hrate lsb : Bool) (hr : Bool) (ne : Nat) :
    Nat → Nat → Nat → Nat → Bits → Option (List Int × Nat) × Bits
  | 0, _, _, seed, r => (some ([], seed), r)
  | n + 1, i, state, seed, r =>
    match getPair (lutOf hrate ne i state) lsb (maxShl hr) r with
    | (none, r) => (none, r)
    | (some (x, y, q), r) =>
      match getQuantized hrate lsb hr ne n (i + 2) (nextState state q.k q.u q.v)
        (seedAdd seed i x y) r with
      | (none, r) => (none, r)
      | (some (l, seed), r) => (some (x :: y :: l, seed), r)

/-- The bits of a value in `get_lsb`, src/spec.c:680-688 and 690-698: `i` is the index of the coefficient. -/
def getLsb1 (i : Nat) (x : Int) (nbits : Int) (seed : Nat) (r : Bits) : Int × Int × Nat × Bits :=
  if nbits > 0 then
    let (c, r) := getBit r
    let nbits := nbits - 1
    if c ≠ 0 then
      if x ≠ 0 then (nbits, if x < 0 then x - 1 else x + 1, (seed + i) &&& 0xffff, r)
      else if nbits > 0 then
        let (s, r) := getBit r
        (nbits - 1, if s ≠ 0 then -1 else 1, (seed + i) &&& 0xffff, r)
      else (nbits - 1, x, seed, r)
    else (nbits, x, seed, r)
  else (nbits - 1, x, seed, r)

/-- `get_lsb`, src/spec.c:670-700, from the index `i`. -/
def getLsb : Nat → Int → List Int → Nat → Bits → List Int × Nat × Bits
  | i, nbits, x :: y :: l, seed, r =>
    if nbits ≤ 0 then (x :: y :: l, seed, r) else
    if max x.natAbs y.natAbs < 4 then
      let (l, seed, r) := getLsb (i + 2) nbits l seed r
      (x :: y :: l, seed, r)
    else
      let (nbits, x, seed, r) := getLsb1 i x nbits seed r
      let (nbits, y, seed, r) := getLsb1 (i + 1) y nbits seed r
      let (l, seed, r) := getLsb (i + 2) nbits l seed r
      (x :: y :: l, seed, r)
  | _, _, l, seed, r => (l, seed, r)

/-! ### Residual -/

/-- Writing of the residual bit of a coefficient, src/spec.c:583-591: `none` when there is no bit. -/
def residualBit {R : Type} (A : Arith R) (lim off : R) (x : R) : Option (Nat × R) :=
  let xr := A.abs x
  if A.lt xr lim then none else
  let b := (A.lt (A.sub xr (A.ofInt (A.trunc xr))) lim).xor (A.lt x (A.ofRat 0))
  some (b2n b, A.add x (if b then A.sub (A.ofRat 0) off else off))

/-- The loop on coefficients of `put_residual`, src/spec.c:581-592: the remaining number of bits,
the updated coefficients and the bitstream. -/
def putResidualPass {R : Type} (A : Arith R) (lim off : R) :
    Nat → List R → Bits → Nat × List R × Bits
  | 0, l, b => (0, l, b)
  | n + 1, x :: l, b =>
    match residualBit A lim off x with
    | none =>
      let w := putResidualPass A lim off (n + 1) l b
      (w.1, x :: w.2.1, w.2.2)
    | some (v, x) =>
      let w := putResidualPass A lim off n l (putBit b v)
      (w.1, x :: w.2.1, w.2.2)
  | n + 1, [], b => (n + 1, [], b)

/-- The loop on `iter` of `put_residual`, src/spec.c:580-595. -/
def putResidualIter {R : Type} (A : Arith R) (lim : R) : Nat → R → Nat → List R → Bits → Bits
  | 0, _, _, _, b => b
  | f + 1, off, n, l, b =>
    if n = 0 then b else
    let w := putResidualPass A lim off n l b
    putResidualIter A lim f (A.mul off lim) w.1 w.2.1 w.2.2

/-- `put_residual`, src/spec.c:574-596. -/
def putResidual {R : Type} (A : Arith R) (hr : Bool) (nbits : Nat) (l : List R) (b : Bits) : Bits :=
  let lim := A.ofRat (if hr then 1/2 else 10/16)
  putResidualIter A lim (if hr then 20 else 1) (A.div lim (A.ofRat 2)) nbits l b

/-- `x == 0`. -/
def Arith.isZero {R : Type} (A : Arith R) (x : R) : Bool :=
  A.le x (A.ofRat 0) && A.le (A.ofRat 0) x

/-- The update of a coefficient according to its residual bit, src/spec.c:617-620. -/
def residualMove {R : Type} (A : Arith R) (off1 off2 : R) (x : R) (v : Nat) : R :=
  if v = 0 then A.sub x (if A.lt x (A.ofRat 0) then off1 else off2)
  else A.add x (if A.lt (A.ofRat 0) x then off1 else off2)

/-- The loop on coefficients of `get_residual`, src/spec.c:612-623. -/
def getResidualPass {R : Type} (A : Arith R) (off1 off2 : R) :
    Nat → List R → Bits → Nat × List R × Bits
  | 0, l, r => (0, l, r)
  | n + 1, x :: l, r =>
    if A.isZero x then
      let w := getResidualPass A off1 off2 (n + 1) l r
      (w.1, x :: w.2.1, w.2.2)
    else
      let (v, r) := getBit r
      let w := getResidualPass A off1 off2 n l r
      (w.1, residualMove A off1 off2 x v :: w.2.1, w.2.2)
  | n + 1, [], r => (n + 1, [], r)

/-- The loop on `iter` of `get_residual`, src/spec.c:611-627. -/
def getResidualIter {R : Type} (A : Arith R) : Nat → R → R → Nat → List R → Bits → List R × Bits
  | 0, _, _, _, l, r => (l, r)
  | f + 1, off1, off2, n, l, r =>
    if n = 0 then (l, r) else
    let w := getResidualPass A off1 off2 n l r
    getResidualIter A f (A.mul off1 (A.ofRat (1/2))) (A.mul off2 (A.ofRat (1/2))) w.1 w.2.1 w.2.2

/-- `get_residual`, src/spec.c:605-628. -/
def getResidual {R : Type} (A : Arith R) (hr : Bool) (nbits : Nat) (l : List R) (r : Bits) :
    List R × Bits :=
  getResidualIter A (if hr then 20 else 1) (A.ofRat (if hr then 1/4 else 5/16))
    (A.ofRat (if hr then 1/4 else 3/16)) nbits l r

end LC3
