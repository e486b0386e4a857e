import Verif.Model.Noise

/-!
Model of a complete frame: gain of the spectrum, encoding and decoding of the spectrum (`src/spec.c`), functions `encode`
and `decode` of `src/lc3.c`.

The number of bytes is the length of the buffer. A function that may do something undefined returns an
`Option`, `none` is the undefined behaviour.
-/

namespace LC3

/-! ### Gain -/

/-- `sr_ind`, src/spec.c:35, 306. -/
def srInd (sr : Srate) : Nat := if sr.hr then 4 + (sr.idx - 5) else sr.idx

/-- `resolve_gain_offset`, src/spec.c:33-40. -/
def gainOffset (sr : Srate) (nbytes : Nat) : Nat :=
  let gOff := (nbytes * 8) / (10 * (1 + srInd sr))
  min (if sr.idx ≥ 6 then 181 else 255) (105 + 5 * (1 + srInd sr) + min gOff 115)

/-- `iq_table`, src/spec.c:52-60. -/
def iqTable : List Rat :=
  [1, 1.08571112, 1.17876863, 1.27980221, 1.38949549, 1.50859071, 1.63789371, 1.77827941,
   1.93069773, 2.09617999, 2.27584593, 2.47091123, 2.68269580, 2.91263265, 3.16227766, 3.43332002,
   3.72759372, 4.04708995, 4.39397056, 4.77058270, 5.17947468, 5.62341325, 6.10540230, 6.62870316,
   7.19685673, 7.81370738, 8.48342898, 9.21055318]

/-- First loop of `unquantize_gain`, src/spec.c:64. `fuel` bounds the number of iterations. -/
def gainDown {R : Type} (A : Arith R) : Nat → Int → R → Int × R
  | 0, i, g => (i, g)
  | f + 1, i, g => if i < 0 then gainDown A f (i + 28) (A.mul g (A.ofRat (1/10))) else (i, g)

/-- Second loop of `unquantize_gain`, src/spec.c:65. -/
def gainUp {R : Type} (A : Arith R) : Nat → Int → R → Int × R
  | 0, i, g => (i, g)
  | f + 1, i, g => if i ≥ 28 then gainUp A f (i - 28) (A.mul g (A.ofRat 10)) else (i, g)

/-- `unquantize_gain`, src/spec.c:47-68. -/
def unquantizeGain {R : Type} (A : Arith R) (gInt : Int) : Option R :=
  let q := gainDown A gInt.natAbs gInt (A.ofRat 1)
  let q := gainUp A gInt.natAbs q.1 q.2
  if q.1 < 0 then none else (iqTable[q.1.toNat]?).map fun v => A.mul q.2 (A.ofRat v)

/-- `unquantize`, src/spec.c:278-291: the spectrum `x` holds `nq` values, the result `ne`. -/
def unquantize {R : Type} (A : Arith R) (ne : Nat) (g : R) (x : List R) : List R :=
  x.map (fun v => A.mul v g) ++ List.replicate (ne - x.length) (A.ofRat 0)

/-! ### Spectrum -/

/-- What is decoded from a frame. -/
structure SpecData (R : Type) where
  /-- noise factor -/
  nf : Nat
  /-- integer spectrum, after the LSB stage -/
  quant : List Int
  /-- seed of the noise -/
  seed : Nat
  /-- spectrum, in quantisation steps, after the residual stage -/
  xq : List R
  /-- final spectrum -/
  x : List R

/-- Outcome of a decoding. -/
inductive Outcome (α : Type) where
  /-- undefined behaviour -/
  | ub
  /-- the frame is refused -/
  | refused
  | ok (a : α)

/-- `lc3_spec_encode`, src/spec.c:887-906. `x` is the spectrum, of `ne` coefficients, in quantisation steps. -/
def specEncode {R : Type} (A : Arith R) (dt : Dt) (sr : Srate) (bw nbytes : Nat) (side : SpecSide) (x : List R)
    (b : Bits) : Option Bits :=
  (estimateNoise A dt bw sr.hr x side.nq).map fun nf =>
  let b := putBits b nf 3
  let c := (x.take side.nq).map (quantCoef A sr.hr)
  let b := putQuantized (highRate sr nbytes) side.lsbMode (ne dt sr) 0 0 c b
  let nbitsLeft := getBitsLeft b
  if side.lsbMode then putLsb nbitsLeft c b
  else putResidual A sr.hr nbitsLeft.toNat (x.take side.nq) b

/-- The end of `lc3_spec_decode`, src/spec.c:953-959. -/
def specFinish {R : Type} (A : Arith R) (dt : Dt) (sr : Srate) (bw nbytes : Nat) (side : SpecSide) (nf seed : Nat)
    (xq : List R) : Option (List R) :=
  (unquantizeGain A ((side.gIdx : Int) - gainOffset sr nbytes)).bind fun g =>
  let x := unquantize A (ne dt sr) g xq
  (x[0]?).bind fun x0 => (x[1]?).bind fun x1 =>
  if side.nq > 2 ∨ A.isZero x0 = false ∨ A.isZero x1 = false ∨ side.gIdx > 0 ∨ nf < 7 then
    fillNoise A dt bw nf seed g side.nq x
  else some x

/-- `lc3_spec_decode`, src/spec.c:930-962. -/
def specDecode {R : Type} (A : Arith R) (dt : Dt) (sr : Srate) (bw nbytes : Nat) (side : SpecSide) (r : Bits) :
    Outcome (SpecData R) × Bits :=
  let (nf, r) := getBits r 3
  match getQuantized (highRate sr nbytes) side.lsbMode sr.hr (ne dt sr) (side.nq / 2) 0 0 0 r with
  | (none, r) => (.refused, r)
  | (some (l, seed), r) =>
    let nbitsLeft := getBitsLeft r
    let (l, seed, xq, r) :=
      if side.lsbMode then
        let (l, seed, r) := getLsb 0 nbitsLeft l seed r
        (l, seed, l.map A.ofInt, r)
      else
        let (xq, r) := getResidual A sr.hr nbitsLeft.toNat (l.map A.ofInt) r
        (l, seed, xq, r)
    match specFinish A dt sr bw nbytes side nf seed xq with
    | none => (.ub, r)
    | some x => (.ok ⟨nf, l, seed, xq, x⟩, r)

/-! ### Frame -/

/-- `encode`, src/lc3.c:337-364, in the buffer `data`: the bitstream before the flush. -/
def encodeBits {R : Type} (A : Arith R) (dt : Dt) (sr : Srate) (data : List Nat) (side : SideData) (x : List R) :
    Option Bits :=
  specEncode A dt sr side.bw data.length side.spec x (putSideData (setupWrite data) dt sr side)

/-- `encode`, src/lc3.c:337-364: the content of the buffer. -/
def encodeFrame {R : Type} (A : Arith R) (dt : Dt) (sr : Srate) (data : List Nat) (side : SideData) (x : List R) :
    Option (List Nat) :=
  (encodeBits A dt sr data side x).map fun b => (flushBits b).buf.data

/-- `decode`, src/lc3.c:571-610: the side information and the decoded spectrum. `sh32` and `junk` are the values of
undetermined quantities, see `setupRead` and `getSideData`. The final bitstream is also returned. -/
def decodeFrame {R : Type} (A : Arith R) (dt : Dt) (sr : Srate) (sh32 : Nat → Nat) (junk : LtpfData)
    (data : List Nat) : Outcome (SideData × SpecData R) × Bits :=
  match getSideData (setupRead sh32 data) dt sr data.length junk with
  | (none, r) => (.refused, r)
  | (some side, r) =>
    match specDecode A dt sr side.bw data.length side.spec r with
    | (.ub, r) => (.ub, r)
    | (.refused, r) => (.refused, r)
    | (.ok s, r) => (if checkBits r then .ok (side, s) else .refused, r)

/-- The spectrum given to the synthesis: `memset` of src/lc3.c:607. -/
def padSpectrum {R : Type} (A : Arith R) (dt : Dt) (sr : Srate) (x : List R) : List R :=
  x.take (ne dt sr) ++ List.replicate (ns dt sr - ne dt sr) (A.ofRat 0)

end LC3
