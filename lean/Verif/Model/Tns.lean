import Verif.Model.Arith
import Verif.Model.Noise

/-!
Model of `src/tns.c`: analysis and synthesis of the temporal noise shaping. The coding of the parameters is in
`Verif/Model/Syntax.lean`.

The local arrays of fixed sizes are lists of the length in use: `a[f][1 .. maxorder]`, `rc[f][0 .. maxorder-1]`. The spectrum is
a list, an access out of it is the outcome `none`.
-/

namespace LC3

variable {R : Type}

/-! ### Coefficients -/

/-- `sub_*` and their selection, src/tns.c:66-120. `none` is a missing entry of the table. -/
def tnsSub (dt : Dt) (bw : Nat) : Option (List Nat) :=
  match dt, bw with
  | .m2_5, 0 => some [3, 10, 20]
  | .m2_5, 1 => some [3, 20, 40]
  | .m2_5, 2 => some [3, 30, 60]
  | .m2_5, 3 => some [3, 40, 80]
  | .m2_5, 4 => some [3, 51, 100]
  | .m2_5, 5 => some [3, 51, 100]
  | .m2_5, 6 => some [3, 51, 100]
  | .m5, 0 => some [6, 23, 40]
  | .m5, 1 => some [6, 43, 80]
  | .m5, 2 => some [6, 63, 120]
  | .m5, 3 => some [6, 43, 80, 120, 160]
  | .m5, 4 => some [6, 53, 100, 150, 200]
  | .m5, 5 => some [6, 53, 100, 150, 200]
  | .m5, 6 => some [6, 53, 100, 150, 200]
  | .m7_5, 0 => some [9, 26, 43, 60]
  | .m7_5, 1 => some [9, 46, 83, 120]
  | .m7_5, 2 => some [9, 66, 123, 180]
  | .m7_5, 3 => some [9, 46, 82, 120, 159, 200, 240]
  | .m7_5, 4 => some [9, 56, 103, 150, 200, 250, 300]
  | .m10, 0 => some [12, 34, 57, 80]
  | .m10, 1 => some [12, 61, 110, 160]
  | .m10, 2 => some [12, 88, 164, 240]
  | .m10, 3 => some [12, 61, 110, 160, 213, 266, 320]
  | .m10, 4 => some [12, 74, 137, 200, 266, 333, 400]
  | .m10, 5 => some [12, 74, 137, 200, 266, 333, 400]
  | .m10, 6 => some [12, 74, 137, 200, 266, 333, 400]
  | _, _ => none

/-- `lag_window`, src/tns.c:92-96. -/
def lagWindow : List Rat :=
  [1, 9.98028026e-01, 9.92135406e-01, 9.82391584e-01, 9.68910791e-01, 9.51849807e-01, 9.31404933e-01,
   9.07808230e-01, 8.81323137e-01]

/-- `dot`, src/tns.c:42-50, on two vectors read in the spectrum: `n` values from `i` and from `j`. -/
def tnsDot (A : Arith R) (x : List R) : Nat → Nat → Nat → R → Option R
  | 0, _, _, v => some v
  | n + 1, i, j, v =>
    (x[i]?).bind fun a => (x[j]?).bind fun b => tnsDot A x n (i + 1) (j + 1) (A.add v (A.mul a b))

/-- `c[k][s]` for the orders `0 .. maxorder`, src/tns.c:136-137, on the subdivision `xs .. xe`. The loop of `dot` does not end
with a negative count. -/
def tnsCorr (A : Arith R) (x : List R) (xs xe maxorder : Nat) : Option (List R) :=
  (List.range (maxorder + 1)).mapM fun k => if xe < xs + k then none else tnsDot A x (xe - xs - k) xs (xs + k) (A.ofRat 0)

/-- The correlations of the subdivisions of a filter, src/tns.c:133-138. `sub` begins with the start. -/
def tnsCorrs (A : Arith R) (x : List R) (maxorder : Nat) : Nat → List Nat → Option (List (List R))
  | 0, _ => some []
  | n + 1, xs :: xe :: sub =>
    (tnsCorr A x xs xe maxorder).bind fun c => (tnsCorrs A x maxorder n (xe :: sub)).map fun l => c :: l
  | _ + 1, _ => none

/-- `r[f][k]`, src/tns.c:140-152, `k = 1 .. maxorder`: the sum of the normalised correlations with the lag window. -/
def tnsNorm (A : Arith R) (c : List (List R)) (k : Nat) : Option R :=
  (c.mapM fun (l : List R) => (l[0]?).bind fun e => (l[k]?).map fun v => (v, e)).bind fun q =>
  if q.any (fun p => A.isZero p.2) then some (A.ofRat 0) else
  match q with
  | [] => none
  | p :: l => (lagWindow[k]?).map fun w => A.mul (l.foldl (fun s p => A.add s (A.div p.1 p.2)) (A.div p.1 p.2)) (A.ofRat w)

/-- The loop on `f` of src/tns.c:130-153: for each filter, `r[f][1 .. maxorder]`. -/
def tnsAutocorr (A : Arith R) (x : List R) (maxorder nsub : Nat) : Nat → List Nat → Option (List (List R))
  | 0, _ => some []
  | n + 1, sub =>
    (tnsCorrs A x maxorder nsub sub).bind fun c =>
    ((List.range' 1 maxorder).mapM (tnsNorm A c)).bind fun r =>
    (tnsAutocorr A x maxorder nsub n (sub.drop nsub)).map fun l => r :: l

/-- One step of the Levinson-Durbin recursion, src/tns.c:166-175, 177-186: `a` is `a0[1 .. k-1]`, `r` is `r[f][1 ..]`, and `err`. -/
def levinsonStep (A : Arith R) (r : List R) (q : List R × R) : Option (List R × R) :=
  let k := q.1.length + 1
  (r[k - 1]?).map fun rk =>
  let rc := (q.1.zip (r.take (k - 1)).reverse).foldl (fun s p => A.sub s (A.mul p.1 p.2)) (A.sub (A.ofRat 0) rk)
  let rc := A.div rc q.2
  ((q.1.zipWith (fun u v => A.add u (A.mul rc v)) q.1.reverse) ++ [rc],
    A.mul q.2 (A.sub (A.ofRat 1) (A.mul rc rc)))

/-- `n` steps of the recursion, src/tns.c:163-187. -/
def levinson (A : Arith R) (r : List R) : Nat → List R × R → Option (List R × R)
  | 0, q => some q
  | n + 1, q => (levinsonStep A r q).bind (levinson A r n)

/-- `compute_lpc_coeffs`, src/tns.c:59-191: for each filter, the gain and the coefficients `a[f][1 .. maxorder]`. -/
def computeLpcCoeffs (A : Arith R) (dt : Dt) (bw maxorder : Nat) (x : List R) : Option (List (R × List R)) :=
  let nsub := 2 + b2n (decide (dt.idx ≥ 2))
  (tnsSub dt bw).bind fun sub =>
  (tnsAutocorr A x maxorder nsub (tnsNfilters dt bw) sub).bind fun r =>
  r.mapM fun rf =>
    let err := A.ofInt nsub
    (levinson A rf maxorder ([], err)).map fun q => (A.div err q.2, q.1)

/-- `lpc_weighting`, src/tns.c:197-204. The cells after `maxorder`, not initialised, are ignored: they are weighted but
not used. -/
def lpcWeighting (A : Arith R) (gain : R) (a : List R) : List R :=
  let gamma := A.sub (A.ofRat 1) (A.div (A.mul (A.sub (A.ofRat 1) (A.ofRat (85/100))) (A.sub (A.ofRat 2) gain))
    (A.sub (A.ofRat 2) (A.ofRat (3/2))))
  let rec go : R → List R → List R
    | _, [] => []
    | g, v :: l => let g := A.mul g gamma; A.mul v g :: go g l
  go (A.ofRat 1) a

/-- `lpc_reflection`, src/tns.c:211-234: `a` is `a[1 .. maxorder]` at first, then the successive `b0[0 .. k]`; `fuel` is a bound of
the length. -/
def lpcReflection (A : Arith R) : Nat → List R → List R
  | 0, _ => []
  | f + 1, a =>
    match a.getLast? with
    | none => []
    | some rc =>
      let e := A.sub (A.ofRat 1) (A.mul rc rc)
      lpcReflection A f (a.dropLast.zipWith (fun u v => A.div (A.sub u (A.mul rc v)) e) a.dropLast.reverse) ++ [rc]

/-- `q_thr`, src/tns.c:247-250. -/
def tnsThr : List Rat :=
  [0x0bcf/32768, 0x2307/32768, 0x390e/32768, 0x4d23/32768, 0x5e98/32768, 0x6cd4/32768, 0x775b/32768, 0x7dd2/32768]

/-- The loop of src/tns.c:258, `n` iterations at most from the index `q`. -/
def quantRcLoop (A : Arith R) (m : R) : Nat → Nat → Option Nat
  | 0, q => some q
  | n + 1, q => (tnsThr[q]?).bind fun t => if A.le (A.ofRat t) m then quantRcLoop A m n (q + 1) else some q

/-- A value of `quantize_rc`, src/tns.c:255-261. -/
def quantRc (A : Arith R) (rc : R) : Option Int :=
  let m := A.abs rc
  (tnsThr[4]?).bind fun t =>
  (quantRcLoop A m 4 (if A.le (A.ofRat t) m then 4 else 0)).map fun q =>
  if A.lt rc (A.ofRat 0) then -(q : Int) else q

/-- The count `*order` of `quantize_rc`, src/tns.c:252, 263. -/
def rcOrder (maxorder : Nat) : List Int → Nat → Nat
  | [], o => o
  | q :: l, o => rcOrder maxorder l (if q ≠ 0 then maxorder else o - 1)

/-- `quantize_rc`, src/tns.c:242-265: the `order` first coefficients. -/
def quantizeRc (A : Arith R) (maxorder : Nat) (rc : List R) : Option (List Int) :=
  (rc.mapM (quantRc A)).map fun q => q.take (rcOrder maxorder q maxorder)

/-- `q_inv`, src/tns.c:277-280. -/
def tnsInv : List Rat :=
  [0, 0x1785/32768, 0x2e3d/32768, 0x4362/32768, 0x563c/32768, 0x6625/32768, 0x7295/32768, 0x7b1d/32768, 0x7f74/32768]

/-- `unquantize_rc`, src/tns.c:272-288. -/
def unquantizeRc (A : Arith R) (rc : List Int) : Option (List R) :=
  rc.mapM fun q => (tnsInv[q.natAbs]?).map fun v => if q < 0 then A.sub (A.ofRat 0) (A.ofRat v) else A.ofRat v

/-! ### Filtering -/

/-- The loop on `k` of `forward_filtering`, src/tns.c:324-330: the coefficients `rc[f][k ..]`, the states `s[k ..]`, `xi` and `s1`.
Returns `xi` and the states. -/
def fwdLoop (A : Arith R) : List R → List R → R → R → Option (R × List R)
  | [], s, xi, _ => some (xi, s)
  | _ :: _, [], _, _ => none
  | rc :: rcs, s0 :: s, xi, s1 =>
    (fwdLoop A rcs s (A.add xi (A.mul rc s0)) (A.add (A.mul rc xi) s0)).map fun q => (q.1, s1 :: q.2)

/-- The filtering of a value by `forward_filtering`, src/tns.c:321-332. -/
def fwdStep (A : Arith R) (rc s : List R) (x : R) : Option (R × List R) := fwdLoop A rc s x x

/-- The loop on `k` of `inverse_filtering`, src/tns.c:365-369, on `rc[f][k ..]`, `s[k ..]`: returns `xi` and
`s[k+1 ..]`. The value of index 8, after the end, is included here; it is neither computed nor stored by the code. -/
def invLoop (A : Arith R) : List R → List R → R → Option (R × List R)
  | [], _, xi => some (xi, [])
  | _ :: _, [], _ => none
  | rc :: rcs, s :: ss, xi =>
    (invLoop A rcs ss xi).map fun q =>
    let xi := A.sub q.1 (A.mul s rc)
    (xi, A.add s (A.mul rc xi) :: q.2)

/-- The filtering of a value by `inverse_filtering`, src/tns.c:363-371. -/
def invStep (A : Arith R) (rc s : List R) (x : R) : Option (R × List R) :=
  (invLoop A rc s x).map fun q => (q.1, (q.1 :: q.2).take 8)

/-- The loop on the coefficients `i0 .. ie-1` of a filter, src/tns.c:320-333, 362-372. -/
def filterRun (step : List R → R → Option (R × List R)) : List R → List R → Option (List R × List R)
  | [], s => some ([], s)
  | x :: l, s => (step s x).bind fun q => (filterRun step l q.2).map fun w => (q.1 :: w.1, w.2)

/-- Replace the slice `i0 .. ie-1` of the spectrum by its filtering. -/
def filterSlice (step : List R → R → Option (R × List R)) (i0 ie : Nat) (s x : List R) : Option (List R × List R) :=
  if x.length < ie then none else
  (filterRun step ((x.take ie).drop i0) s).map fun w => (x.take i0 ++ w.1 ++ x.drop (max i0 ie), w.2)

/-- `nf`, src/tns.c:306-307, 348-349. -/
def tnsNf (dt : Dt) (bw : Nat) : Nat := bwStop dt bw >>> (tnsNfilters dt bw - 1)

/-- The loop on the filters of `forward_filtering`, src/tns.c:312-334, from the filter `f` and the start `i0`. -/
def fwdFilters (A : Arith R) (nf : Nat) : List (List R) → Nat → Nat → List R → List R → Option (List R)
  | [], _, _, _, x => some x
  | rc :: rcs, f, i0, s, x =>
    let ie := nf * (1 + f)
    if rc.length = 0 then fwdFilters A nf rcs (f + 1) ie s x else
    (filterSlice (fwdStep A rc) i0 ie s x).bind fun w => fwdFilters A nf rcs (f + 1) ie w.2 w.1

/-- `forward_filtering`, src/tns.c:301-335; `rc` has a list per filter, of the length `rc_order[f]`. -/
def forwardFiltering (A : Arith R) (dt : Dt) (bw : Nat) (rc : List (List R)) (x : List R) : Option (List R) :=
  fwdFilters A (tnsNf dt bw) rc 0 (3 * (1 + dt.idx)) (List.replicate 8 (A.ofRat 0)) x

/-- The loop on the filters of `inverse_filtering`, src/tns.c:354-376. -/
def invFilters (A : Arith R) (nf : Nat) : List (List R) → Nat → Nat → List R → List R → Option (List R)
  | [], _, _, _, x => some x
  | rc :: rcs, f, i0, s, x =>
    let ie := nf * (1 + f)
    if rc.length = 0 then invFilters A nf rcs (f + 1) ie s x else
    let rc8 := rc ++ List.replicate (8 - rc.length) (A.ofRat 0)
    (filterSlice (invStep A rc8) i0 ie s x).bind fun w =>
    invFilters A nf rcs (f + 1) ie (w.2.take rc.length ++ List.replicate (8 - rc.length) (A.ofRat 0)) w.1

/-- `inverse_filtering`, src/tns.c:343-377. -/
def inverseFiltering (A : Arith R) (dt : Dt) (bw : Nat) (rc : List (List R)) (x : List R) : Option (List R) :=
  invFilters A (tnsNf dt bw) rc 0 (3 * (1 + dt.idx)) (List.replicate 8 (A.ofRat 0)) x

/-! ### Interface -/

/-- The parameters of a filter by `lc3_tns_analyze`, src/tns.c:408-418. -/
def tnsFilterParams (A : Arith R) (nn lw : Bool) (maxorder : Nat) (g : R × List R) : Option (List Int) :=
  if nn = true ∨ A.le g.1 (A.ofRat (3/2)) = true then some [] else
  let a := if lw && A.lt g.1 (A.ofRat 2) then lpcWeighting A g.1 g.2 else g.2
  quantizeRc A maxorder (lpcReflection A maxorder a)

/-- `lc3_tns_analyze`, src/tns.c:387-422: the parameters and the filtered spectrum. -/
def tnsAnalyze (A : Arith R) (dt : Dt) (bw : Nat) (nn : Bool) (nbytes : Nat) (x : List R) : Option (TnsData × List R) :=
  let lw := resolveLpcWeighting dt nbytes
  let maxorder := if dt.idx ≤ 1 then 4 else 8
  (computeLpcCoeffs A dt bw maxorder x).bind fun g =>
  (g.mapM (tnsFilterParams A nn lw maxorder)).bind fun filters =>
  (filters.mapM (unquantizeRc A)).bind fun rc =>
  (forwardFiltering A dt bw rc x).map fun y => (⟨lw, filters⟩, y)

/-- `lc3_tns_synthesize`, src/tns.c:427-437. -/
def tnsSynthesize (A : Arith R) (dt : Dt) (bw : Nat) (d : TnsData) (x : List R) : Option (List R) :=
  (d.filters.mapM (unquantizeRc A)).bind fun rc => inverseFiltering A dt bw rc x

end LC3
