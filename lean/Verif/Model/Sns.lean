import Verif.Model.Tables
import Verif.Model.Syntax
import Verif.Model.Arith

/-
Model of the vector quantisation of SNS, `src/sns.c`: enumeration of the pulse configurations,
and the search of the pulses.

* `int` values are `Nat`/`Int`; the theorems bound them (indices below `2^25`).
* `none` is an access out of the table or out of the vector.
* Floating point operations are an arbitrary implementation `A : Arith R`.
* Not modelled: the computation of the scale factors, the DCT and the shaping of the spectrum
  (see Model/Shaping): the vectors they give are arbitrary.
-/

namespace LC3

/-! ### Enumeration -/

/-- `lc3_sns_mpvq_offsets[i][j]`, src/tables.c, `none` out of the table (16 rows of 11). -/
def mpvq (i j : Nat) : Option Nat := (mpvqOffsets[i]?).bind fun row => row[j]?

/-- Scan for the first significant coefficient, from the end, src/sns.c:612: the list is the
vector in reverse order, `i` the number of coefficients already scanned. -/
def scanFirst : Nat → List Int → Option (Int × Nat × List Int)
  | _, [] => none
  | i, ci :: d => if ci = 0 ∧ i < 15 then scanFirst (i + 1) d else some (ci, i, d)

/-- Scan of the remaining coefficients, src/sns.c:621-629. -/
def enumLoop : Nat → Nat → Nat → Bool → List Int → Option (Nat × Bool)
  | _, _, idx, ls, [] => some (idx, ls)
  | i, j, idx, ls, ci :: d => do
    let (idx, ls) := if ci ≠ 0 then ((idx <<< 1) ||| b2n ls, decide (ci < 0)) else (idx, ls)
    let o ← mpvq i (min j 10)
    enumLoop (i + 1) (j + ci.natAbs) (idx + o) ls d

/-- `enum_mvpq`, src/sns.c:606-630: index and sign. -/
def enumMvpq (c : List Int) : Option (Nat × Bool) := do
  let (ci, i, d) ← scanFirst 0 c.reverse
  enumLoop (i + 1) ci.natAbs 0 (decide (ci < 0)) d

/-- Search of a coefficient, src/sns.c:648: the number of pulses that remain after the coefficient
(`npulses - ci`), and the offset. -/
def searchPulse (i idx : Nat) : Nat → Option (Nat × Nat)
  | 0 => do
    let o ← mpvq i 0
    if idx < o then none else some (0, o)
  | k + 1 => do
    let o ← mpvq i (k + 1)
    if idx < o then searchPulse i idx k else some (k + 1, o)

/-- `ls ? -ci : ci`. -/
def signed (ls : Bool) (ci : Nat) : Int := if ls then -(ci : Int) else ci

/-- `deenum_mvpq`, src/sns.c:638-668; the first argument is the number of coefficients to set. -/
def deenumMvpq : Nat → Nat → Bool → Nat → Option (List Int)
  | 0, _, _, _ => some []
  | i + 1, idx, ls, npulses =>
    if idx = 0 then some (signed ls npulses :: List.replicate i 0) else do
    let (rest, o) ← searchPulse i idx npulses
    let ci := npulses - rest
    let idx := idx - o
    let (idx, ls') := if ci > 0 then (idx >>> 1, decide (idx &&& 1 ≠ 0)) else (idx, ls)
    let l ← deenumMvpq i idx ls' rest
    some (signed ls ci :: l)

/-- `enumerate`, src/sns.c:677-684: `(idx_a, ls_a, idx_b, ls_b)`; the second set is zero when not
set by the function. -/
def enumerate (shape : Nat) (c : List Int) : Option (Nat × Bool × Nat × Bool) := do
  let (idxA, lsA) ← enumMvpq (c.take (if shape < 2 then 10 else 16))
  if shape = 0 then
    let (idxB, lsB) ← enumMvpq (c.drop 10)
    some (idxA, lsA, idxB, lsB)
  else some (idxA, lsA, 0, false)

/-- Number of pulses of the set A, src/sns.c:696. -/
def npulsesA (shape : Nat) : Nat := [10, 10, 8, 6].getD shape 0

/-- `deenumerate`, src/sns.c:693-705. -/
def deenumerate (shape idxA : Nat) (lsA : Bool) (idxB : Nat) (lsB : Bool) : Option (List Int) := do
  let a ← deenumMvpq (if shape < 2 then 10 else 16) idxA lsA (npulsesA shape)
  if shape = 0 then
    let b ← deenumMvpq 6 idxB lsB 1
    some (a ++ b)
  else if shape = 1 then some (a ++ List.replicate 6 0)
  else some a

/-! ### Search of the pulses -/

section
variable {R : Type} (A : Arith R)

/-- The value of `n` cells of an array of floats; out of range cells are never used, see `C40`. -/
def cell [Inhabited R] (x : List R) (i : Nat) : R := x.getD i default

/-- `(*corr + x[i]) * (*corr + x[i])`, src/sns.c:439, 444. -/
def pulseC2 [Inhabited R] (corr : R) (x : List R) (i : Nat) : R :=
  A.mul (A.add corr (cell x i)) (A.add corr (cell x i))

/-- `*energy + 2*y[i] + 1`, src/sns.c:440, 445, 452. -/
def pulseE (energy : R) (y : List Int) (i : Nat) : R :=
  A.add (A.add energy (A.ofInt (2 * y.getD i 0))) (A.ofInt 1)

/-- Loop on the positions, src/sns.c:443-449: `k` positions remain, from `i`. -/
def bestPulse [Inhabited R] (corr energy : R) (x : List R) (y : List Int) :
    Nat → Nat → R → R → Nat → Nat
  | 0, _, _, _, nbest => nbest
  | k + 1, i, bestC2, bestE, nbest =>
    let c2 := pulseC2 A corr x i
    let e := pulseE A energy y i
    if A.lt (A.mul e bestC2) (A.mul c2 bestE) then
      bestPulse corr energy x y k (i + 1) c2 e i
    else bestPulse corr energy x y k (i + 1) bestC2 bestE nbest

/-- `add_pulse`, src/sns.c:435-455, for `k` pulses (`end - start`): vector of pulses, correlation and
energy. -/
def addPulse [Inhabited R] (x : List R) (n : Nat) : Nat → List Int → R → R → List Int × R × R
  | 0, y, corr, energy => (y, corr, energy)
  | k + 1, y, corr, energy =>
    let nbest := bestPulse A corr energy x y (n - 1) 1 (pulseC2 A corr x 0) (pulseE A energy y 0) 0
    addPulse x n k (y.set nbest (y.getD nbest 0 + 1)) (A.add corr (cell x nbest))
      (A.add energy (A.ofInt (2 * y.getD nbest 0 + 1)))

/-- Sum of the magnitudes, src/sns.c:487-490. -/
def sumAbs (xm : List R) : R := xm.foldl A.add (A.ofInt 0)

/-- Projection factor, src/sns.c:492. -/
def projFactor (xm : List R) : R :=
  A.div (A.ofInt (6 - 1)) (A.max (sumAbs A xm) (A.ofRat (1 / 10 ^ 31)))

/-- Initial pulses, src/sns.c:497. -/
def initPulses (xm : List R) : List Int := xm.map fun v => A.floor (A.mul v (projFactor A xm))

/-- Initial correlation and energy, src/sns.c:496-501. -/
def initCorr (xm : List R) (c : List Int) : R × R :=
  (c.zip xm).foldl (fun (ce : R × R) (cx : Int × R) =>
    (A.add ce.1 (A.mul (A.ofInt cx.1) cx.2), A.add ce.2 (A.ofInt (cx.1 * cx.1)))) (A.ofInt 0, A.ofInt 0)

/-- Correlation and energy without the pulses beyond 10, src/sns.c:521-526. -/
def dropCorr (xm : List R) (c : List Int) (corr energy : R) : R × R :=
  ((c.drop 10).zip (xm.drop 10)).foldl (fun (ce : R × R) (cx : Int × R) =>
    (A.sub ce.1 (A.mul (A.ofInt cx.1) cx.2), A.sub ce.2 (A.ofInt (cx.1 * cx.1)))) (corr, energy)

/-- The pulses of the 4 candidates, `c[0]` to `c[3]`, without the signs, src/sns.c:480-536. The count
`end - start` is null if negative. -/
def pulses [Inhabited R] (xm : List R) : List Int × List Int × List Int × List Int :=
  let c3 := initPulses A xm
  let npulses := c3.sum
  let (corr, energy) := initCorr A xm c3
  let (c3, corr, energy) := addPulse A xm 16 (6 - npulses).toNat c3 corr energy
  let (c2, corr, energy) := addPulse A xm 16 (8 - 6) c3 corr energy
  let c1 := c2.take 10 ++ List.replicate 6 0
  let npulses := 8 - (c2.drop 10).sum
  let (corr, energy) := dropCorr A xm c2 corr energy
  let (c1, corr, energy) := addPulse A xm 10 (10 - npulses).toNat c1 corr energy
  let (b, _, _) := addPulse A (xm.drop 10) 6 (1 - 0) (c1.drop 10) corr energy
  let c0 := c1.take 10 ++ b
  (c0, c1, c2, c3)

/-- Signs, src/sns.c:540-542. -/
def withSigns (x : List R) (c : List Int) : List Int :=
  (x.zip c).map fun (v, ci) => if A.lt v (A.ofInt 0) then -ci else ci

/-- The four candidates of `quantize`, src/sns.c:480-542, from the transformed residual `x`. -/
def candidates [Inhabited R] (x : List R) : List (List Int) :=
  let (c0, c1, c2, c3) := pulses A (x.map A.abs)
  [c0, c1, c2, c3].map (withSigns A x)

/-- Selection of the gain of a shape, src/sns.c:558-571, over the mean square error `mse` of each gain:
`(cgain_idx, cmse_min)`. -/
def selectGain (mse : Nat → R) (count : Nat) (fltMax : R) : Nat × R :=
  (List.range count).foldl (fun (s : Nat × R) ig => if A.lt (mse ig) s.2 then (ig, mse ig) else s)
    (0, fltMax)

/-- Selection of the shape and gain, src/sns.c:550-577. -/
def selectShape (mse : Nat → Nat → R) (counts : List Nat) (fltMax : R) : Nat × Nat :=
  let s := (List.range 4).foldl (fun (s : Nat × Nat × R) ic =>
    let g := selectGain A (mse ic) (counts.getD ic 0) fltMax
    if A.lt g.2 s.2.2 then (ic, g.1, g.2) else s) (0, 0, fltMax)
  (s.1, s.2.1)

/-- Search of a codebook, src/sns.c:391-411, over the distance `d` of each entry. -/
def selectCodebook (d : Nat → R) : Nat :=
  ((List.range 32).foldl (fun (s : Nat × R) icb =>
    if icb = 0 || A.lt (d icb) s.2 then (icb, d icb) else s) (0, A.ofInt 0)).1

/-- The data of `lc3_sns_analyze`, src/sns.c:773-803: `x` is the transformed residual, `dl`, `dh` the
distances to the codebooks, `mse` the mean square error of each shape and gain, arbitrary here.
`none` is an access out of the table. -/
def snsAnalyze [Inhabited R] (dl dh : Nat → R) (x : List R) (mse : Nat → Nat → R) (fltMax : R) :
    Option SnsData := do
  let (shape, gain) := selectShape A mse [2, 4, 4, 8] fltMax
  let (idxA, lsA, idxB, lsB) ← enumerate shape ((candidates A x).getD shape [])
  some ⟨selectCodebook A dl, selectCodebook A dh, shape, gain, idxA, lsA, idxB, lsB⟩

end

end LC3
