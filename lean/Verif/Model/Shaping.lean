import Verif.Model.Sns
import Verif.Model.SnsTables
import Verif.Model.Mdct

/-!
Model of `src/sns.c`: scale factors, their quantisation, and the shaping of the spectrum.

Floating point operations are an arbitrary implementation `A : Arith R`; the functions `sqrtf`, `lc3_exp2f` and `lc3_log2f`
are parameters. `none` is an access out of a buffer or a table, or a division of integers by zero.
-/

namespace LC3

variable {R : Type}

/-- The mathematical functions of the shaping. -/
structure SnsMath (R : Type) where
  /-- `sqrtf` -/
  sqrt : R → R
  /-- `lc3_exp2f`, src/fastmath.h:77-120 -/
  exp2 : R → R
  /-- `lc3_log2f`, src/fastmath.h:127-148 -/
  log2 : R → R
  /-- `FLT_MAX` -/
  fltMax : R

/-! ### DCT -/

/-- A cell of `dct16_m`. -/
def dctCell (A : Arith R) (n k : Nat) : R := A.ofRat ((dct16M.getD n []).getD k 0)

/-- `y[i] = 0; y[i] += x[j] * m(j)`, over the 16 values. -/
def dctSum (A : Arith R) (x : List R) (m : Nat → R) : Option R :=
  if x.length < 16 then none else
  some ((List.range 16).foldl (fun y j => A.add y (A.mul (x.getD j (A.ofInt 0)) (m j))) (A.ofInt 0))

/-- `dct16_forward`, src/sns.c:123-128. -/
def dct16Forward (A : Arith R) (x : List R) : Option (List R) :=
  (List.range 16).mapM fun i => dctSum A x fun j => dctCell A j i

/-- `dct16_inverse`, src/sns.c:134-139. -/
def dct16Inverse (A : Arith R) (x : List R) : Option (List R) :=
  (List.range 16).mapM fun i => dctSum A x fun j => dctCell A i j

/-! ### Padding -/

/-- The numbers of bands counted 4 times and 2 times, src/sns.c:289-290 and 741-742: division by zero without bands. -/
def padCounts (nb : Nat) : Option (Nat × Nat) :=
  if nb < 32 then (if nb = 0 then none else some (32 % nb, nb - 32 % nb)) else some (0, 64 - nb)

/-- Copy and padding of the energy of the bands, src/sns.c:284-299: 64 values. -/
def padBands (dt : Dt) (sr : Srate) (eb : List R) : Option (List R) :=
  let nb := numBands dt sr
  (padCounts nb).bind fun n =>
  if eb.length < nb ∨ 4 * n.1 + 2 * n.2 + (nb - n.1 - n.2) ≠ 64 then none else
  some ((eb.take n.1).flatMap (List.replicate 4) ++ ((eb.drop n.1).take n.2).flatMap (List.replicate 2) ++
    (eb.drop (n.1 + n.2)).take (nb - n.1 - n.2))

/-! ### Scale factors -/

/-- Smoothing and pre-emphasis, src/sns.c:305-320: `a` and `b` are the previous and the current value, before smoothing, the first list
is the next values, the second one the gains `ge` from the current one. The unrolling by 3 of the loop is not modelled. -/
def smoothLoop (A : Arith R) : R → R → List R → List R → R → Option (List R × R)
  | a, b, [], [g], sum =>
    let v := A.mul (A.add (A.mul a (A.ofRat (1/4))) (A.mul b (A.ofRat (3/4)))) g
    some ([v], A.add sum v)
  | a, b, c :: next, g :: ge, sum =>
    let v := A.mul (A.add (A.add (A.mul a (A.ofRat (1/4))) (A.mul b (A.ofRat (1/2)))) (A.mul c (A.ofRat (1/4)))) g
    (smoothLoop A b c next ge (A.add sum v)).bind fun r => some (v :: r.1, r.2)
  | _, _, _, _, _ => none

/-- Logarithm, src/sns.c:322-325. -/
def logBands (A : Arith R) (M : SnsMath R) (e : List R) (sum : R) : List R :=
  let floor := A.max (A.mul sum (A.div (A.ofRat (1 / 10000)) (A.ofInt 64))) (A.ofRat (1 / 2 ^ 32))
  e.map fun v => A.mul (M.log2 (A.max v floor)) (A.ofRat (1/2))

/-- `(a + b) * w.f/12`. -/
def groupTerm (A : Arith R) (a b : R) (w : Int) : R := A.div (A.mul (A.add a b) (A.ofInt w)) (A.ofInt 12)

/-- A scale factor, src/sns.c:331-345: the cells out of the bands are replaced by the first or the last one. -/
def groupAt (A : Arith R) (e : List R) (i : Nat) : Option R := do
  let a0 ← e[4 * i - 1]?;   let a1 ← e[min (4 * i + 4) 63]?
  let b0 ← e[4 * i]?;       let b1 ← e[4 * i + 3]?
  let c0 ← e[4 * i + 1]?;   let c1 ← e[4 * i + 2]?
  return A.add (A.add (groupTerm A a0 a1 1) (groupTerm A b0 b1 2)) (groupTerm A c0 c1 3)

/-- `cf * (scf[i] - scf_sum * 1.f/16)`, src/sns.c:353-354 and 378-380. -/
def scaleScf (A : Arith R) (cf sum : R) (scf : List R) : List R :=
  scf.map fun v => A.mul cf (A.sub v (A.div (A.mul sum (A.ofInt 1)) (A.ofInt 16)))

/-- The sum of the scale factors, the first one being the initial value, src/sns.c:334-346. -/
def sumScf (A : Arith R) : List R → R
  | [] => A.ofInt 0
  | v :: l => l.foldl A.add v

/-- The factor `cf`, src/sns.c:348-351. -/
def scfFactor (A : Arith R) (dt : Dt) (sr : Srate) (nbytes : Nat) : R :=
  let cf := if sr.hr then A.ofRat (6/10) else A.ofRat (85/100)
  if sr.hr = true ∧ 8 * nbytes > (if dt.idx < 3 then 1150 * (1 + dt.idx) else 4400) then
    A.mul cf (if dt.idx < 3 then A.ofRat (1/4) else A.ofRat (35/100))
  else cf

/-- The loop of the attack handling, src/sns.c:368-372: the list is the scale factors from `scf[i+2]`; `(s1, s2, s3, s4)`, `sn` and `scf_sum`
are the state. -/
def attackLoop (A : Arith R) : List R → R × R × R × R → R → R → List R × (R × R × R × R) × R × R
  | [], s, sn, sum => ([], s, sn, sum)
  | v :: l, (s1, s2, s3, s4), sn, sum =>
    let sn := A.add sn v
    let y := A.div (A.mul sn (A.ofInt 1)) (A.ofInt 5)
    let r := attackLoop A l (s2, s3, s4, v) (A.sub sn s1) (A.add sum y)
    (y :: r.1, r.2)

/-- The attack handling, src/sns.c:361-380. -/
def attackScf (A : Arith R) (dt : Dt) (scf : List R) : Option (List R) :=
  match scf with
  | s1 :: s2 :: s3 :: s4 :: next =>
    let sn := A.add s1 s2
    let sn := A.add sn s3
    let y0 := A.div (A.mul sn (A.ofInt 1)) (A.ofInt 3)
    let sn := A.add sn s4
    let y1 := A.div (A.mul sn (A.ofInt 1)) (A.ofInt 4)
    let r := attackLoop A next (s1, s2, s3, s4) sn (A.add y0 y1)
    let y14 := A.div (A.mul r.2.2.1 (A.ofInt 1)) (A.ofInt 4)
    let y15 := A.div (A.mul (A.sub r.2.2.1 r.2.1.1) (A.ofInt 1)) (A.ofInt 3)
    let sum := A.add r.2.2.2 (A.add y14 y15)
    some (scaleScf A (if dt = .m7_5 then A.ofRat (3/10) else A.ofRat (1/2)) sum (y0 :: y1 :: r.1 ++ [y14, y15]))
  | _ => none

/-- `compute_scale_factors`, src/sns.c:151-381. -/
def computeScf (A : Arith R) (M : SnsMath R) (dt : Dt) (sr : Srate) (nbytes : Nat) (eb : List R) (att : Bool) :
    Option (List R) :=
  (padBands dt sr eb).bind fun e =>
  match e with
  | [] => none
  | e0 :: next =>
    (smoothLoop A e0 e0 next ((geTable sr).map A.ofRat) (A.ofInt 0)).bind fun s =>
    let e := logBands A M s.1 s.2
    ((List.range 16).mapM (groupAt A e)).bind fun scf =>
    let scf := scaleScf A (scfFactor A dt sr nbytes) (sumScf A scf) scf
    if att then attackScf A dt scf else some scf

/-! ### Quantisation -/

/-- The square distance of 8 values to an entry, src/sns.c:399-402. -/
def codeDist (A : Arith R) (scf : List R) (cb : List Rat) : R :=
  (scf.zip cb).foldl (fun d v => A.add d (A.mul (A.sub v.1 (A.ofRat v.2)) (A.sub v.1 (A.ofRat v.2)))) (A.ofInt 0)

/-- The residual, src/sns.c:473-476. -/
def residualScf (A : Arith R) (scf : List R) (lfcb hfcb : List Rat) : List R :=
  (scf.zip (lfcb ++ hfcb)).map fun v => A.sub v.1 (A.ofRat v.2)

/-- `normalize`, src/sns.c:417-427. -/
def normalizePulses (A : Arith R) (M : SnsMath R) (c : List Int) : List R :=
  let norm := A.div (A.ofInt 1) (M.sqrt (A.ofInt ((c.map fun v => v * v).foldl (· + ·) 0)))
  c.map fun v => A.mul (A.ofInt v) norm

/-- The mean square error, src/sns.c:561-563. -/
def quantMse (A : Arith R) (x cn : List R) (g : R) : R :=
  (x.zip cn).foldl (fun d v => A.add d (A.mul (A.sub v.1 (A.mul g v.2)) (A.sub v.1 (A.mul g v.2)))) (A.ofInt 0)

/-- The gain of a shape and index, src/tables.c:4607-4621. -/
def snsGainAt (A : Arith R) (shape gain : Nat) : Option R := (snsGainValues[shape]?).bind fun l => (l[gain]?).map A.ofRat

/-- `unquantize`, src/sns.c:585-599. -/
def unquantizeScf (A : Arith R) (lfcb hfcb : Nat) (cn : List R) (shape gain : Nat) : Option (List R) := do
  let lf ← snsLfcb[lfcb]?
  let hf ← snsHfcb[hfcb]?
  let g ← snsGainAt A shape gain
  let y ← dct16Inverse A cn
  return (y.zip (lf ++ hf)).map fun v => A.add (A.ofRat v.2) (A.mul g v.1)

/-! ### Shaping -/

/-- Interpolation of the scale factors, src/sns.c:726-738: the list is the scale factors, with their sign, after `s0`. -/
def interpLoop (A : Arith R) : R → List R → List R
  | _, [] => []
  | s0, s1 :: l =>
    let at' (w : Rat) := A.add s0 (A.mul (A.ofRat w) (A.sub s1 s0))
    at' (125/1000) :: at' (375/1000) :: at' (625/1000) :: at' (875/1000) :: interpLoop A s1 l

/-- The last two values, src/sns.c:737-738. -/
def interpLast (A : Arith R) : List R → List R
  | [] => []
  | [_] => []
  | [s0, s1] => [A.add s1 (A.mul (A.ofRat (125/1000)) (A.sub s1 s0)), A.add s1 (A.mul (A.ofRat (375/1000)) (A.sub s1 s0))]
  | _ :: l => interpLast A l

/-- Interpolation of the 16 scale factors in 64 bands, src/sns.c:726-738. -/
def interpScf (A : Arith R) (scfQ : List R) (inv : Bool) : Option (List R) :=
  match scfQ.map (fun v => if inv then A.neg v else v) with
  | [] => none
  | s0 :: l => if l.length ≠ 15 then none else some (s0 :: s0 :: interpLoop A s0 l ++ interpLast A (s0 :: l))

/-- Folding of the 64 scale factors in the bands, src/sns.c:740-751, in place. -/
def foldScf (A : Arith R) (nb : Nat) (scf : List R) : Option (List R) :=
  (padCounts nb).bind fun n =>
  (iter (fun i4 s => do
    let a ← rd s (4 * i4); let b ← rd s (4 * i4 + 1); let c ← rd s (4 * i4 + 2); let d ← rd s (4 * i4 + 3)
    wr s i4 (A.mul (A.ofRat (1/4)) (A.add (A.add (A.add a b) c) d))) 0 n.1 scf).bind fun scf =>
  (iter (fun i2 s => do
    let a ← rd s (2 * (n.1 + i2)); let b ← rd s (2 * (n.1 + i2) + 1)
    wr s i2 (A.mul (A.ofRat (1/2)) (A.add a b))) n.1 n.2 scf).bind fun scf =>
  -- memmove(scf + n4 + n2, scf + 4*n4 + 2*n2, nb - n4 - n2)
  if scf.length < 4 * n.1 + 2 * n.2 + (nb - n.1 - n.2) ∨ scf.length < nb then none else
  some (scf.take (n.1 + n.2) ++ (scf.drop (4 * n.1 + 2 * n.2)).take (nb - n.1 - n.2) ++ scf.drop nb)

/-- The loop on the bands, src/sns.c:757-762: `scf` are the values and `lim` the upper limits of the next bands; `x` is `none` when it is
the same buffer as `y`. -/
def shapeLoop (A : Arith R) (M : SnsMath R) (x : Option (List R)) : List (R × Nat) → Nat → List R → Option (List R)
  | [], _, y => some y
  | (s, lim) :: l, i, y =>
    let g := M.exp2 (A.neg s)
    (iter (fun i y => (rd (x.getD y) i).bind fun v => wr y i (A.mul v g)) i (lim - i) y).bind fun y =>
    shapeLoop A M x l (max lim i) y

/-- `spectral_shaping`, src/sns.c:721-763. -/
def spectralShaping (A : Arith R) (M : SnsMath R) (dt : Dt) (sr : Srate) (scfQ : List R) (inv : Bool)
    (x : Option (List R)) (y : List R) : Option (List R) :=
  (interpScf A scfQ inv).bind fun scf => (foldScf A (numBands dt sr) scf).bind fun scf =>
  shapeLoop A M x (scf.zip (bandLim dt sr).tail) 0 y

/-! ### Interface -/

/-- The data of `lc3_sns_analyze`, src/sns.c:788-799, with the normalised pulses of the selected shape. -/
def snsQuantize [Inhabited R] (A : Arith R) (M : SnsMath R) (scf : List R) : Option (SnsData × List R) := do
  let dl := fun icb => codeDist A (scf.take 8) (snsLfcb.getD icb [])
  let dh := fun icb => codeDist A (scf.drop 8) (snsHfcb.getD icb [])
  let lf ← snsLfcb[selectCodebook A dl]?
  let hf ← snsHfcb[selectCodebook A dh]?
  let x ← dct16Forward A (residualScf A scf lf hf)
  let cn := (candidates A x).map (normalizePulses A M)
  let mse := fun ic ig => quantMse A x (cn.getD ic []) (A.ofRat ((snsGainValues.getD ic []).getD ig 0))
  let d ← snsAnalyze A dl dh x mse M.fltMax
  return (d, cn.getD d.shape [])

/-- `lc3_sns_analyze`, src/sns.c:773-802, with `x` and `y` the same buffer, as called: data and shaped spectrum. -/
def snsAnalyzeFull [Inhabited R] (A : Arith R) (M : SnsMath R) (dt : Dt) (sr : Srate) (nbytes : Nat) (eb : List R) (att : Bool)
    (y : List R) : Option (SnsData × List R) := do
  let scf ← computeScf A M dt sr nbytes eb att
  let q ← snsQuantize A M scf
  let scf ← unquantizeScf A q.1.lfcb q.1.hfcb q.2 q.1.shape q.1.gain
  let y ← spectralShaping A M dt sr scf false none y
  return (q.1, y)

/-- The scale factors of the decoder, src/sns.c:811-819. -/
def snsDecodeScf (A : Arith R) (M : SnsMath R) (d : SnsData) : Option (List R) := do
  let c ← deenumerate d.shape d.idxA d.lsA d.idxB d.lsB
  unquantizeScf A d.lfcb d.hfcb (normalizePulses A M c) d.shape d.gain

/-- `lc3_sns_synthesize`, src/sns.c:807-822: `x` is the spectrum, `y` the output buffer. -/
def snsSynthesize (A : Arith R) (M : SnsMath R) (dt : Dt) (sr : Srate) (d : SnsData) (x : Option (List R)) (y : List R) : Option (List R) :=
  (snsDecodeScf A M d).bind fun scf => spectralShaping A M dt sr scf true x y

end LC3
