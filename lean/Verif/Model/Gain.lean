import Verif.Model.Rate

/-!
Model of the rate control of `src/spec.c`: gain estimation and adjustment, quantisation, `lc3_spec_analyze`, with the integer
logarithm of `src/fastmath.h`.

The functions return `none` on an undefined behaviour of C: overflow of `int`, conversion of a `float` out of the range of `int`.
-/

namespace LC3

/-- The mathematical functions used by the gain estimation, beside the operations of `Arith`. -/
structure GainMath (R : Type) where
  /-- `sqrtf` -/
  sqrt : R → R
  /-- `fminf` -/
  min : R → R → R
  /-- `lc3_ldexpf`, src/fastmath.h:45-52 -/
  ldexp : R → Int → R
  /-- `lc3_exp2f`, src/fastmath.h:77-120 -/
  exp2 : R → R
  /-- `roundf`, as an unbounded integer -/
  round : R → Int
  /-- `lc3_db_q16`, src/fastmath.h:168-216 -/
  db : R → Int

/-! ### Logarithm -/

/-- The table of `lc3_db_q16`, src/fastmath.h:172-191. -/
def dbTable : List (Nat × Nat) :=
  [(0, 4379), (4379, 4248), (8627, 4125), (12753, 4009), (16762, 3899), (20661, 3795), (24456, 3697), (28153, 3603),
   (31755, 3514), (35269, 3429), (38699, 3349), (42047, 3272), (45319, 3198), (48517, 3128), (51645, 3061), (54705, 2996),
   (8381, 2934), (11315, 2875), (14190, 2818), (17008, 2763), (19772, 2711), (22482, 2660), (25142, 2611), (27754, 2564),
   (30318, 2519), (32837, 2475), (35312, 2433), (37744, 2392), (40136, 2352), (42489, 2314), (44803, 2277), (47080, 2241)]

/-- `lc3_db_q16`, src/fastmath.h:209-215, from the representation `u` of the `float` `x*x`. -/
def dbQ16 (u : Nat) : Int :=
  let e2 : Int := ((u >>> 22 : Nat) : Int) - 254
  let t := dbTable.getD ((u >>> 18) % 32) (0, 0)
  let lo := (u >>> 2) % 65536
  e2 * 49321 + t.1 + ((t.2 * lo) >>> 16 : Nat)

/-! ### Gain estimation -/

/-- `reg_c`, src/spec.c:96-100 (indexed by `sr - LC3_SRATE_48K_HR`, the value at 7.5 ms is the default one). -/
def regC (dt : Dt) (sr : Srate) : Int :=
  match dt with
  | .m2_5 => -6
  | .m5 => 0
  | .m7_5 => 0
  | .m10 => if sr.idx ≥ 6 then 5 else 2

/-- `reg_bits`, src/spec.c:102-103. -/
def regBits (dt : Dt) (sr : Srate) (nbytes : Nat) : Int :=
  let r : Int := ((8 * nbytes * 4) / (125 * (1 + dt.idx)) : Nat) + regC dt sr
  min (max r 6) 23

/-- The loop of src/spec.c:107-112: `m0`, `m1` and `k`. -/
def slopeSums {R : Type} (A : Arith R) : List R → R × R × R → R × R × R
  | [], s => s
  | x :: l, (m0, m1, k) =>
    slopeSums A l (A.add m0 (A.abs x), A.add m1 (A.mul (A.abs x) k), A.add k (A.ofRat 1))

/-- `low_bits`, src/spec.c:105-115: the conversion to `int` and the subtraction may overflow. -/
def lowBits {R : Type} (A : Arith R) (G : GainMath R) (dt : Dt) (x : List R) : Option Int :=
  let s := slopeSums A x (A.ofRat (1/100000), A.ofRat (1/100000), A.ofRat 0)
  (i32 (G.round (A.div (A.mul (A.ofRat (16/10)) s.1) (A.mul (A.ofInt (1 + dt.idx)) s.2.1)))).bind fun m =>
  i32 (8 - min m 8)

/-- Greatest square and energies by blocks of 4, src/spec.c:120-134. -/
def gainBlocks {R : Type} (A : Arith R) : List R → R → R × List R
  | x0 :: x1 :: x2 :: x3 :: l, m =>
    let y0 := A.mul x0 x0
    let y1 := A.mul x1 x1
    let y2 := A.mul x2 x2
    let y3 := A.mul x3 x3
    let r := gainBlocks A l (A.max (A.max (A.max (A.max m y0) y1) y2) y3)
    (r.1, A.add (A.add (A.add y0 y1) y2) y3 :: r.2)
  | _, m => (m, [])

/-- The noise floor `nf`, src/spec.c:137-138. -/
def noiseFloor {R : Type} (A : Arith R) (G : GainMath R) (dt : Dt) (sr : Srate) (nbytes : Nat) (x : List R) (xMax : R) : Option R :=
  if sr.hr then
    (lowBits A G dt x).map fun low =>
      A.mul (G.ldexp xMax (-(regBits dt sr nbytes))) (G.exp2 (A.ofInt (-low)))
  else some (A.ofRat 0)

/-- The term added to `v`, src/spec.c:159-163. -/
def gainTerm (e gn : Int) : Option Int :=
  (i32 (e - gn)).bind fun d =>
  if d < 0 then some 176947
  else if d < 2818048 then i32 (d + 458752)
  else (i32 (2 * d)).bind fun d2 => i32 (d2 - 2359296)

/-- The loop of src/spec.c:158-164 on the blocks of index `j`, from the highest. -/
def gainCost (gn : Int) : Int → List Int → Option Int
  | v, [] => some v
  | v, e :: l => (gainTerm e gn).bind fun t => (i32 (v + t)).bind fun v => gainCost gn v l

/-- The loop of src/spec.c:152-170, for the steps `i`, on the blocks not above `j0`, from the highest. -/
def gainSearch (nbits : Int) : List Nat → Int → List Int → Option Int
  | [], g, _ => some g
  | i :: is, g, l =>
    (i32 ((g - i) * 46811)).bind fun gn =>
    let l1 := l.dropWhile fun e => decide (e < gn)
    (gainCost gn 0 l1).bind fun v =>
    (i32 (nbits * 91750)).bind fun lim =>
    if v > lim then gainSearch nbits is g l1 else gainSearch nbits is (g - i) l

/-- The steps of the searches. -/
def gainSteps : List Nat := [128, 64, 32, 16, 8, 4, 2, 1]

/-- The search of the lower bound, src/spec.c:176-179. -/
def gainMin {R : Type} (A : Arith R) (lim xMax : R) : List Nat → Int → Option Int
  | [], g => some g
  | i :: is, g =>
    (unquantizeGain A (g - i)).bind fun u =>
    gainMin A lim xMax is (if A.lt xMax (A.mul lim u) then g - i else g)

/-- `x_lim`, src/spec.c:174. -/
def xLim (sr : Srate) : Rat := if sr.hr then 32767 * 256 else 32767

/-- Result of `estimate_gain`. -/
structure GainEst where
  gInt : Int
  reset : Bool
  gMin : Int
  deriving DecidableEq, Repr, Inhabited

/-- `estimate_gain`, src/spec.c:82-186. -/
def estimateGain {R : Type} (A : Arith R) (G : GainMath R) (dt : Dt) (sr : Srate) (x : List R) (nbytes : Nat) (budget : Int)
    (off : R) (gOff : Nat) : Option GainEst :=
  let b := gainBlocks A x (A.ofRat 0)
  let xMax := G.sqrt b.1
  (noiseFloor A G dt sr nbytes x xMax).bind fun nf =>
  let e := b.2.map fun v => G.db (A.max (A.add v nf) (A.ofRat (1/10000000000)))
  (i32 (A.trunc (A.add (A.add (A.ofInt budget) off) (A.ofRat (1/2))))).bind fun nbits =>
  (gainSearch nbits gainSteps (255 - gOff) e.reverse).bind fun g =>
  (gainMin A (A.ofRat (xLim sr)) xMax gainSteps (255 - gOff)).map fun gMin =>
  let reset := decide (g < gMin) || A.isZero xMax
  ⟨if reset then gMin else g, reset, gMin⟩

/-! ### Gain adjustment -/

/-- The table of thresholds, src/spec.c:203-207. -/
def adjTable : Srate → Int × Int × Int
  | .k8 => (80, 500, 850)
  | .k16 => (230, 1025, 1700)
  | .k24 => (380, 1550, 2550)
  | .k32 => (530, 2075, 3400)
  | .k48 => (680, 2600, 4250)
  | .k48hr => (680, 2600, 4250)
  | .k96hr => (830, 3125, 5100)

/-- `delta`, src/spec.c:209-223. -/
def adjDelta (sr : Srate) (nbits : Int) : Int :=
  let t := adjTable sr
  if nbits < t.1 then (3 * (nbits + 48) + 48 / 2).tdiv 48
  else if nbits < t.2.1 then
    let n0 := 3 * (t.1 + 48)
    let range := t.2.1 - t.1
    (n0 * range + (nbits - t.1) * (t.2.1 - n0) + (48 * range) / 2).tdiv (48 * range)
  else (min nbits t.2.2 + 48 / 2).tdiv 48

/-- `adjust_gain`, src/spec.c:197-242. The computations are in the range of `int`, and the divisor is not zero: `C47_adjust`. -/
def adjustGain (dt : Dt) (sr : Srate) (gIdx nbits budget gMin : Int) : Int :=
  let delta := adjDelta sr nbits
  if sr.hr ∧ nbits > budget then
    let factor : Int := 1 + b2n (decide (dt.idx ≤ 1)) + b2n (decide (dt.idx ≤ 0)) * (1 + b2n (decide (nbits ≥ 520)))
    let incr := factor + (factor * (nbits - budget)).tdiv delta
    min (gIdx + incr) 255 - gIdx
  else if sr.hr = false ∧ nbits < budget - (delta + 2) then -(b2n (decide (gIdx > gMin)) : Int)
  else if sr.hr = false ∧ nbits > budget then
    b2n (decide (gIdx < 255)) + b2n (decide (gIdx < 254 ∧ nbits ≥ budget + delta))
  else 0

/-! ### Quantisation -/

/-- `xq_min`, src/spec.c:260. -/
def xqMin (sr : Srate) : Rat := if sr.hr then 1/2 else 10/16

/-- The count of significant coefficients, src/spec.c:257-267, on the scaled coefficients. -/
def quantCount {R : Type} (A : Arith R) (sr : Srate) (ne : Nat) : List R → Int → Int
  | a :: b :: l, n =>
    quantCount A sr ne l
      (if A.le (A.ofRat (xqMin sr)) (A.abs a) || A.le (A.ofRat (xqMin sr)) (A.abs b) then ne else n - 2)
  | _, n => n

/-- `quantize`, src/spec.c:251-268: the scaled spectrum and the count `*n`. -/
def quantize {R : Type} (A : Arith R) (dt : Dt) (sr : Srate) (g : Int) (x : List R) : Option (List R × Int) :=
  (unquantizeGain A (-g)).map fun gInv =>
  let y := x.map fun v => A.mul v gInv
  (y, quantCount A sr (ne dt sr) y (ne dt sr))

/-! ### Analysis -/

/-- `struct lc3_spec_analysis`, include/lc3_private.h:110-113. -/
structure SpecSt (R : Type) where
  off : R
  spare : Int

/-- The conversions to `uint32_t` of `compute_nbits`, src/spec.c:345-348: undefined out of the range. All those of the
coefficients of index lower than `n` are checked, though the loop may stop before. -/
def magnitudes {R : Type} (A : Arith R) (sr : Srate) (n : Nat) (x : List R) : Option (List Nat) :=
  let l := (x.take n).map fun v => (quantCoef A sr.hr v).1
  if l.all (fun m => decide (m < 4294967296)) then some l else none

/-- The smoothed offset, src/spec.c:839-841. -/
def nbitsOffset {R : Type} (A : Arith R) (G : GainMath R) (st : SpecSt R) : R :=
  let o := A.add st.off (A.ofInt st.spare)
  let o := G.min (A.max o (A.ofInt (-40))) (A.ofInt 40)
  A.add (A.mul (A.ofRat (8/10)) st.off) (A.mul (A.ofRat (2/10)) o)

/-- `lc3_spec_analyze`, src/spec.c:820-868: the state, the spectrum in quantisation steps and the side information. A count
`side->nq` that would not be an index of the spectrum is `none`. -/
def specAnalyze {R : Type} (A : Arith R) (G : GainMath R) (dt : Dt) (sr : Srate) (nbytes : Nat) (pitch : Bool) (tns : TnsData)
    (st : SpecSt R) (x : List R) : Option (SpecSt R × List R × SpecSide) :=
  let budget := specBudget dt sr nbytes pitch tns
  let off := nbitsOffset A G st
  let gOff := gainOffset sr nbytes
  (estimateGain A G dt sr x nbytes budget off gOff).bind fun est =>
  (quantize A dt sr est.gInt x).bind fun q =>
  if q.2 < 0 ∨ q.2 > x.length then none else
  (magnitudes A sr q.2.toNat q.1).bind fun mags =>
  let r := computeNbits dt sr nbytes mags 0
  let st : SpecSt R := if est.reset then ⟨A.ofRat 0, 0⟩ else ⟨off, budget - r.nbits⟩
  let adj := adjustGain dt sr (gOff + est.gInt) r.nbits budget (gOff + est.gMin)
  (if adj ≠ 0 then quantize A dt sr adj q.1 else some (q.1, (r.n : Int))).bind fun q =>
  if q.2 < 0 ∨ q.2 > x.length then none else
  (magnitudes A sr q.2.toNat q.1).bind fun mags =>
  let r := computeNbits dt sr nbytes mags budget
  let gIdx := est.gInt + adj + gOff
  if gIdx < 0 then none else
  some (st, q.1, ⟨gIdx.toNat, r.n, r.lsbMode⟩)

/-! ### An implementation of the mathematical functions -/

/-- Integer square root of `n < 4^f`, bit by bit. -/
def isqrt : Nat → Nat → Nat → Nat
  | 0, _, s => s
  | f + 1, n, s => isqrt f n (if (s + 2 ^ f) * (s + 2 ^ f) ≤ n then s + 2 ^ f else s)

/-- Exponent `e` such that `2^e ≤ x < 2^(e+1)`, for a positive `x`. -/
def expOf (x : Rat) : Int :=
  let e0 : Int := (Nat.log2 x.num.toNat : Int) - (Nat.log2 x.den : Int)
  if x < pow2 e0 then e0 - 1 else e0

/-- Square root, rounded to the nearest `float` (the square root of a `float` is not halfway of two `float`). -/
def sqrt24 (x : Rat) : Rat :=
  if x ≤ 0 then 0 else
  let k := 24 - (expOf x).fdiv 2
  let s := isqrt 25 (Rat.floor (x * pow2 (2 * k))).toNat 0
  (((if s % 2 = 0 then s else s + 1 : Nat) : Int) : Rat) * pow2 (-k)

/-- The representation in binary32 of a positive `x` with 24 significant bits, in the range of the normal numbers. -/
def floatBits (x : Rat) : Nat :=
  let e := expOf x
  (e + 127).toNat * 2 ^ 23 + ((Rat.floor (x * pow2 (23 - e))).toNat - 2 ^ 23)

/-- The functions of binary32 on rational numbers, regardless of the limits of the exponents. The result of `lc3_exp2f` is exact on
integers, its only use. -/
def floatMath : GainMath Rat where
  sqrt := sqrt24
  min := fun a b => if a ≤ b then a else b
  ldexp := fun x e => x * pow2 e
  exp2 := fun x => pow2 (Rat.floor x)
  round := fun x => if x < 0 then -(Rat.floor (1/2 - x)) else Rat.floor (x + 1/2)
  db := fun x => dbQ16 (floatBits (rne24 (x * x)))

end LC3
