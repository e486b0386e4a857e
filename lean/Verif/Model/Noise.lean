import Verif.Model.Spec

/-!
Model of `src/spec.c`: noise level and noise filling, and of the pseudo-random generators.

The arrays are lists, a read or a write out of the list is the outcome `none`.
-/

namespace LC3

/-- The sampling rate of same numerical value as the bandwidth, `(enum lc3_srate)LC3_MIN(bw, LC3_BANDWIDTH_FB)`,
src/spec.c:717, 749. -/
def srateOfBw (bw : Nat) : Srate :=
  if bw = 0 then .k8 else if bw = 1 then .k16 else if bw = 2 then .k24 else if bw = 3 then .k32 else .k48

/-- `bw_stop`, src/spec.c:717, 749. -/
def bwStop (dt : Dt) (bw : Nat) : Nat := ne dt (srateOfBw bw)

/-- `w`, src/spec.c:718, 750. -/
def noiseW (dt : Dt) : Nat := 1 + b2n (decide (dt.idx ≥ 2)) + b2n (decide (dt.idx ≥ 3))

/-- `6 * (1 + dt) - w`, src/spec.c:724, 755. -/
def noiseStart (dt : Dt) : Nat := 6 * (1 + dt.idx) - noiseW dt

/-- The generator of the noise filling, src/spec.c:758, 765. -/
def noiseLcg (seed : Nat) : Nat := (13849 + seed * 31821) &&& 0xffff

/-- The write of `fill_noise`, src/spec.c:757-760, 764-767, for the count `z` of zero values:
the seed and the spectrum. -/
def fillStep {R : Type} (A : Arith R) (s : R) (w z i : Nat) (q : Nat × List R) : Option (Nat × List R) :=
  if z > 2 * w then
    let seed := noiseLcg q.1
    if w ≤ i ∧ i - w < q.2.length then
      some (seed, q.2.set (i - w) (if seed &&& 0x8000 ≠ 0 then A.sub (A.ofRat 0) s else s))
    else none
  else some q

/-- First loop of `fill_noise`, src/spec.c:755-761, `n` iterations from `i`: also returns `z`. -/
def fillLoop1 {R : Type} (A : Arith R) (s : R) (w : Nat) : Nat → Nat → Nat → Nat × List R → Option (Nat × Nat × List R)
  | 0, _, z, q => some (z, q)
  | n + 1, i, z, q =>
    (q.2[i]?).bind fun x =>
    let z := if A.isZero x then z + 1 else 0
    (fillStep A s w z i q).bind fun q => fillLoop1 A s w n (i + 1) z q

/-- Second loop of `fill_noise`, src/spec.c:763-767, `n` iterations from `i`. -/
def fillLoop2 {R : Type} (A : Arith R) (s : R) (w : Nat) : Nat → Nat → Nat → Nat × List R → Option (Nat × List R)
  | 0, _, _, q => some q
  | n + 1, i, z, q =>
    (fillStep A s w (z + 1) i q).bind fun q => fillLoop2 A s w n (i + 1) (z + 1) q

/-- `fill_noise`, src/spec.c:746-768, on the spectrum `x`. -/
def fillNoise {R : Type} (A : Arith R) (dt : Dt) (bw nf seed : Nat) (g : R) (nq : Nat) (x : List R) :
    Option (List R) :=
  let w := noiseW dt
  let i0 := noiseStart dt
  let s := A.div (A.mul g (A.ofInt (8 - (nf : Int)))) (A.ofRat 16)
  let i1 := max i0 (min nq (bwStop dt bw))
  (fillLoop1 A s w (i1 - i0) i0 0 (seed, x)).bind fun q =>
  (fillLoop2 A s w (bwStop dt bw + w - i1) i1 q.1 q.2).map fun q => q.2

/-- The accumulation of `estimate_noise`, src/spec.c:726-727, 731-732: the sum and the count `ns`. -/
def noiseStep {R : Type} (A : Arith R) (x : List R) (w z i : Nat) (q : R × Nat) : Option (R × Nat) :=
  if z > 2 * w then
    if w ≤ i then (x[i - w]?).map fun v => (A.add q.1 (A.abs v), q.2 + 1) else none
  else some q

/-- First loop of `estimate_noise`, src/spec.c:724-728. -/
def noiseLoop1 {R : Type} (A : Arith R) (lim : R) (x : List R) (w : Nat) : Nat → Nat → Nat → R × Nat →
    Option (Nat × R × Nat)
  | 0, _, z, q => some (z, q)
  | n + 1, i, z, q =>
    (x[i]?).bind fun v =>
    let z := if A.lt (A.abs v) lim then z + 1 else 0
    (noiseStep A x w z i q).bind fun q => noiseLoop1 A lim x w n (i + 1) z q

/-- Second loop of `estimate_noise`, src/spec.c:730-732. -/
def noiseLoop2 {R : Type} (A : Arith R) (x : List R) (w : Nat) : Nat → Nat → Nat → R × Nat → Option (R × Nat)
  | 0, _, _, q => some q
  | n + 1, i, z, q =>
    (noiseStep A x w (z + 1) i q).bind fun q => noiseLoop2 A x w n (i + 1) (z + 1) q

/-- `estimate_noise`, src/spec.c:714-737: the noise factor, 0 to 7. The conversion to `int` of the mean is supposed
in range. -/
def estimateNoise {R : Type} (A : Arith R) (dt : Dt) (bw : Nat) (hr : Bool) (x : List R) (n : Nat) : Option Nat :=
  let w := noiseW dt
  let i0 := noiseStart dt
  let i1 := max i0 (min n (bwStop dt bw))
  (noiseLoop1 A (A.ofRat (if hr then 1/2 else 10/16)) x w (i1 - i0) i0 0 (A.ofRat 0, 0)).bind fun q =>
  (noiseLoop2 A x w (bwStop dt bw + w - i1) i1 q.1 q.2).map fun q =>
  let nf : Int := if q.2 ≠ 0 then
      8 - A.trunc (A.add (A.div (A.mul (A.ofRat 16) q.1) (A.ofInt q.2)) (A.ofRat (1/2)))
    else 8
  (if nf < 0 then 0 else if nf > 7 then 7 else nf).toNat

end LC3
