import Verif.Model.Tables
import Verif.Model.Arith

/-!
Model of `src/energy.c` and of the detection of `src/bwdet.c`: energy of the bands, flag of the energy near Nyquist, and bandwidth.

Floating point operations are an arbitrary implementation `A : Arith R`; `none` is an access out of a buffer.
-/

namespace LC3

variable {R : Type}

/-! ### Energy -/

/-- The loop `for (i++; i < ie; i++)  sx2 += x[i] * x[i]`, src/energy.c:44-45: `k` values from `i`. -/
def sumSquares (A : Arith R) (x : List R) : Nat → Nat → R → Option R
  | 0, _, s => some s
  | k + 1, i, s => (x[i]?).bind fun v => sumSquares A x k (i + 1) (A.add s (A.mul v v))

/-- The loop on the bands, src/energy.c:39-49: the list is the upper limits of the next bands, `iband` and `i` the position,
`s` the sums `e_sum`. -/
def energyLoop (A : Arith R) (x : List R) (ibandH : Int) : List Nat → Nat → Nat → R × R → Option (List R × (R × R))
  | [], _, _, s => some ([], s)
  | ie :: lim, iband, i, s =>
    (x[i]?).bind fun v => (sumSquares A x (ie - (i + 1)) (i + 1) (A.mul v v)).bind fun sx2 =>
    let e := A.div sx2 (A.ofInt ((ie : Int) - i))
    let s := if (iband : Int) ≥ ibandH then (s.1, A.add s.2 e) else (A.add s.1 e, s.2)
    (energyLoop A x ibandH lim (iband + 1) (max ie (i + 1)) s).bind fun r => some (e :: r.1, r.2)

/-- The number of bands near Nyquist, src/energy.c:35-37. -/
def nyquistBands : Dt → Int
  | .m2_5 => 2
  | .m5 => 3
  | .m7_5 => 4
  | .m10 => 2

/-- `lc3_energy_compute`, src/energy.c:26-54: the energy of the bands, and the near Nyquist flag. -/
def energyCompute (A : Arith R) (dt : Dt) (sr : Srate) (x : List R) : Option (List R × Bool) :=
  match bandLim dt sr with
  | [] => none
  | l0 :: lim =>
    (energyLoop A x ((numBands dt sr : Int) - nyquistBands dt) lim 0 l0 (A.ofInt 0, A.ofInt 0)).bind fun r =>
    some (r.1, A.lt (A.mul (A.ofInt 30) r.2.1) r.2.2)

/-! ### Bandwidth -/

/-- The regions `{ is, ie }`, src/bwdet.c:34-62, by duration and index of the samplerate minus one. -/
def bwRegions : Dt → Nat → List (Nat × Nat)
  | .m2_5, 0 => [(24, 34 + 1)]
  | .m2_5, 1 => [(24, 32 + 1), (35, 39 + 1)]
  | .m2_5, 2 => [(24, 31 + 1), (33, 38 + 1), (39, 42 + 1)]
  | .m2_5, 3 => [(22, 29 + 1), (31, 35 + 1), (37, 40 + 1), (41, 43 + 1)]
  | .m5, 0 => [(39, 49 + 1)]
  | .m5, 1 => [(35, 44 + 1), (47, 51 + 1)]
  | .m5, 2 => [(34, 42 + 1), (44, 49 + 1), (50, 53 + 1)]
  | .m5, 3 => [(32, 40 + 1), (42, 46 + 1), (48, 51 + 1), (52, 54 + 1)]
  | .m7_5, 0 => [(51, 63 + 1)]
  | .m7_5, 1 => [(45, 55 + 1), (58, 63 + 1)]
  | .m7_5, 2 => [(42, 51 + 1), (53, 58 + 1), (60, 63 + 1)]
  | .m7_5, 3 => [(40, 48 + 1), (51, 55 + 1), (57, 60 + 1), (61, 63 + 1)]
  | .m10, 0 => [(53, 63 + 1)]
  | .m10, 1 => [(47, 56 + 1), (59, 63 + 1)]
  | .m10, 2 => [(44, 52 + 1), (54, 59 + 1), (60, 63 + 1)]
  | .m10, 3 => [(41, 49 + 1), (51, 55 + 1), (57, 60 + 1), (61, 63 + 1)]
  | _, _ => []

/-- `l_table`, src/bwdet.c:71-76. -/
def bwL (dt : Dt) (bw : Nat) : Option Nat :=
  (match dt with
  | .m7_5 => [4, 4, 3, 2]
  | _ => [4, 4, 3, 1])[bw]?

/-- The thresholds `tc`, src/bwdet.c:110-111. -/
def bwTc (A : Arith R) (bw : Nat) : Option R :=
  [A.ofRat (3162277660 / 10 ^ 8), A.ofRat (19952623150 / 10 ^ 8), A.ofInt 100, A.ofInt 100][bw]?

/-- The loop `for (i++; i < ie; i++)  se += e[i]`, src/bwdet.c:94-95: `k` values from `i`. -/
def sumFrom (A : Arith R) (e : List R) : Nat → Nat → R → Option R
  | 0, _, s => some s
  | k + 1, i, s => (e[i]?).bind fun v => sumFrom A e k (i + 1) (A.add s v)

/-- The first stage, src/bwdet.c:89-99: the list is the regions from `bw`. -/
def bwStage1 (A : Arith R) (e : List R) : List (Nat × Nat) → Nat → Nat → Option Nat
  | [], _, bw0 => some bw0
  | (i, ie) :: l, bw, bw0 =>
    (e[i]?).bind fun v => (sumFrom A e (ie - (i + 1)) (i + 1) v).bind fun se =>
    bwStage1 A e l (bw + 1)
      (if A.le (A.ofInt (((10 <<< (if bw = 0 then 1 else 0) : Nat) : Int) * ((ie : Int) - i))) se then bw + 1 else bw0)

/-- The loop of the second stage, src/bwdet.c:113-115: `k` values from `i`. -/
def bwStage2 (A : Arith R) (e : List R) (tc : R) (l : Nat) : Nat → Int → Option Bool
  | 0, _ => some false
  | k + 1, i =>
    if i - l < 0 ∨ i < 0 then none else
    (e[(i - l).toNat]?).bind fun a => (e[i.toNat]?).bind fun b =>
    if A.lt (A.mul tc b) a then some true else bwStage2 A e tc l k (i + 1)

/-- `lc3_bwdet_run`, src/bwdet.c:25-120. -/
def bwdetRun (A : Arith R) (dt : Dt) (sr : Srate) (e : List R) : Option Nat :=
  let bwn := sr.idx
  if bwn ≤ 0 ∨ sr.hr then some bwn else
  let bwr := bwRegions dt (bwn - 1)
  if bwr.length < bwn then none else
  (bwStage1 A e (bwr.take bwn) 0 0).bind fun bw0 =>
  if bw0 ≥ bwn then some bw0 else
  (bwr[bw0]?).bind fun r => (bwL dt bw0).bind fun l => (bwTc A bw0).bind fun tc =>
  (bwStage2 A e tc l (l + 1) ((r.1 : Int) - l + 1)).bind fun hold =>
  some (if hold then bw0 else bwn)

end LC3
