import Verif.Lemmas.FftStage
import Verif.Props.Mdct

/-! Rounding errors of the transforms of `src/mdct.c`. -/

namespace LC3

open Complex Finset

variable {R : Type}

theorem Ap.neg {A : Arith R} {v : R → ℝ} (hA : Approx A v) {a : R} {x b e : ℝ} (h : Ap v a x b e) (hM : b + e ≤ 2 ^ 120) :
    Ap v (A.neg a) (-x) b (e + (b + e + 1 / 2 ^ 120) / 2 ^ 24) := by
  have h0 := hA.ofRat 0 (by norm_num)
  have hz : Ap v (A.ofRat 0) 0 0 (1 / 2 ^ 150) := ⟨h0.trans (by norm_num) |>.trans_eq' (by norm_num), by norm_num⟩
  have r := Ap.sub hA hz h (by linarith)
  rw [zero_sub] at r
  exact r.weaken _ _ (by linarith) (by linarith)

/-- Rotations of a transform of `2 * m` coefficients, within a tolerance. -/
noncomputable def rotE (m p : ℕ) : ℂ := (Real.sqrt (Real.sqrt (2 / (2 * m : ℕ))) : ℂ) * Complex.exp (Real.pi * ((p : ℂ) + 1 / 8) / (2 * m : ℕ) * Complex.I)

/-- The magnitude of the rotations. -/
noncomputable def rotN (m : ℕ) : ℝ := Real.sqrt (Real.sqrt (2 / (2 * m : ℕ)))

theorem rotE_norm (m p : ℕ) : ‖rotE m p‖ = rotN m := by
  unfold rotE rotN
  rw [norm_mul, Complex.norm_real, Real.norm_of_nonneg (Real.sqrt_nonneg _),
    show (Real.pi : ℂ) * ((p : ℂ) + 1 / 8) / (2 * m : ℕ) * Complex.I = ((Real.pi * ((p : ℝ) + 1 / 8) / (2 * m : ℕ) : ℝ) : ℂ) * Complex.I by push_cast; ring,
    Complex.norm_exp_ofReal_mul_I, mul_one]

theorem rotN_sq (m : ℕ) : rotN m * rotN m = Real.sqrt (2 / (2 * m : ℕ)) := Real.mul_self_sqrt (Real.sqrt_nonneg _)

theorem rotN_ge (m : ℕ) (h1 : 0 < m) (h2 : m ≤ 600) : 1 / 5 ≤ rotN m := by
  unfold rotN
  apply Real.le_sqrt_of_sq_le
  apply Real.le_sqrt_of_sq_le
  have h3 : (0 : ℝ) < m := by exact_mod_cast h1
  have h4 : (m : ℝ) ≤ 600 := by exact_mod_cast h2
  rw [le_div_iff₀ (by push_cast; linarith)]
  push_cast
  linarith

theorem rotN_le (m : ℕ) (h1 : 0 < m) : rotN m ≤ 1 := by
  unfold rotN
  have h3 : (1 : ℝ) ≤ m := by exact_mod_cast h1
  refine Real.sqrt_le_one.mpr (Real.sqrt_le_one.mpr ?_)
  rw [div_le_one (by push_cast; linarith)]
  push_cast
  linarith

/-! ### Rotations -/

theorem pre_round (A : Arith R) (v : R → ℝ) (hA : Approx A v) (z : R) (m : ℕ) (w y : List R) (p : ℕ) (b0 b1 κ : ℝ)
    (h0 : |v (y.getD (2 * p) z)| ≤ b0) (h1 : |v (y.getD (2 * m - 1 - 2 * p) z)| ≤ b1) (hw : ‖vc v (cAt z w p)‖ ≤ κ) (hκ : κ ≤ 2)
    (f0 : 1 / 2 ^ 110 ≤ b0 * κ) (f1 : 1 / 2 ^ 110 ≤ b1 * κ) (g0 : 1 / 2 ^ 110 ≤ b0) (g1 : 1 / 2 ^ 110 ≤ b1) (c0 : b0 ≤ 2 ^ 105) (c1 : b1 ≤ 2 ^ 105)
    (d0 : b0 * κ ≤ 2 ^ 110) (d1 : b1 * κ ≤ 2 ^ 110) :
    ‖vc v (preOut z A m w y p) - (if p < m / 2 then (⟨-v (y.getD (2 * m - 1 - 2 * p) z), v (y.getD (2 * p) z)⟩ : ℂ) else
      ⟨v (y.getD (2 * m - 1 - 2 * p) z), -v (y.getD (2 * p) z)⟩) * (starRingEnd ℂ) (vc v (cAt z w p))‖ ≤ 26 / 10 ^ 8 * (b0 * κ + b1 * κ) := by
  have p0 := Ap.self v (y.getD (2 * p) z) _ h0
  have p1 := Ap.self v (y.getD (2 * m - 1 - 2 * p) z) _ h1
  have n0 := Ap.neg hA p0 (by linarith)
  have n1 := Ap.neg hA p1 (by linarith)
  have wr := (Complex.abs_re_le_norm (vc v (cAt z w p))).trans hw
  have wi := (Complex.abs_im_le_norm (vc v (cAt z w p))).trans hw
  unfold preOut
  by_cases c : p < m / 2
  · rw [if_pos c]
    have m1 := Ap.mul hA n1 _ wr (by linarith)
    have m2 := Ap.mul hA p0 _ wi (by linarith)
    have m3 := Ap.mul hA p0 _ wr (by linarith)
    have m4 := Ap.mul hA p1 _ wi (by linarith)
    rw [if_pos c]
    refine (norm_of_parts _ (1835 / 10 ^ 10 * (b0 * κ + b1 * κ)) ?_ ?_).trans (by linarith)
    · have r := Ap.add hA m1 m2 (by linarith)
      refine (le_of_eq ?_).trans (r.1.trans (by linarith))
      congr 1
      simp [vc]
    · have r := Ap.add hA m3 m4 (by linarith)
      refine (le_of_eq ?_).trans (r.1.trans (by linarith))
      congr 1
      simp [vc]; ring
  · rw [if_neg c]
    have m1 := Ap.mul hA n0 _ wi (by linarith)
    have m2 := Ap.mul hA p1 _ wr (by linarith)
    have m3 := Ap.mul hA n1 _ wi (by linarith)
    have m4 := Ap.mul hA p0 _ wr (by linarith)
    rw [if_neg c]
    refine (norm_of_parts _ (1835 / 10 ^ 10 * (b0 * κ + b1 * κ)) ?_ ?_).trans (by linarith)
    · have r := Ap.add hA m1 m2 (by linarith)
      refine (le_of_eq ?_).trans (r.1.trans (by linarith))
      congr 1
      simp [vc]; ring
    · have r := Ap.sub hA m3 m4 (by linarith)
      refine (le_of_eq ?_).trans (r.1.trans (by linarith))
      congr 1
      simp [vc]; ring

theorem post_round (A : Arith R) (v : R → ℝ) (hA : Approx A v) (z : R) (w x : List R) (p : ℕ) (b κ : ℝ)
    (h : ‖vc v (cAt z x p)‖ ≤ b) (hw : ‖vc v (cAt z w p)‖ ≤ κ) (f : 1 / 2 ^ 110 ≤ b * κ) (d : b * κ ≤ 2 ^ 110) :
    |v (postOut z A w x p).1 - (vc v (cAt z x p) * (starRingEnd ℂ) (vc v (cAt z w p))).re| ≤ 25 / 10 ^ 8 * (b * κ) ∧
    |v (postOut z A w x p).2 + (vc v (cAt z x p) * (starRingEnd ℂ) (vc v (cAt z w p))).im| ≤ 25 / 10 ^ 8 * (b * κ) := by
  have xr := Ap.self v _ _ ((Complex.abs_re_le_norm (vc v (cAt z x p))).trans h)
  have xi := Ap.self v _ _ ((Complex.abs_im_le_norm (vc v (cAt z x p))).trans h)
  have wr := (Complex.abs_re_le_norm (vc v (cAt z w p))).trans hw
  have wi := (Complex.abs_im_le_norm (vc v (cAt z w p))).trans hw
  have m1 := Ap.mul hA xi _ wi (by linarith)
  have m2 := Ap.mul hA xr _ wr (by linarith)
  have m3 := Ap.mul hA xr _ wi (by linarith)
  have m4 := Ap.mul hA xi _ wr (by linarith)
  unfold postOut
  constructor
  · have r := Ap.add hA m1 m2 (by linarith)
    refine (le_of_eq ?_).trans (r.1.trans (by linarith))
    congr 1
    simp [vc]; ring
  · have r := Ap.sub hA m3 m4 (by linarith)
    refine (le_of_eq ?_).trans (r.1.trans (by linarith))
    congr 1
    simp [vc]; ring

/-! ### From the first rotation to the second -/

theorem core_err (v : R → ℝ) (z : R) (F : List R → List R → Option (Bool × List R × List R)) (m : ℕ) (tol : ℝ) (hm0 : 0 < m) (hm6 : m ≤ 600)
    (hO : FftOk v z F m tol) (hab : tol ≤ 1 / 1000) (y0 y1 : List R) (P : ℕ → ℂ) (h : ℕ → ℝ) (hf : ∀ p, 1 / 2 ^ 100 ≤ h p)
    (hc : ∑ p ∈ range m, h p ≤ 2 ^ 100) (hP : ∀ p, p < m → ‖P p‖ ≤ rotN m * h p)
    (hE : ∀ p, p < m → ‖vc v (cAt z y0 p) - P p‖ ≤ 72 / 10 ^ 8 * (rotN m * h p)) (h0 : 2 * m ≤ y0.length) (h1 : 2 * m ≤ y1.length) :
    ∃ in0 z0 z1, F y0 y1 = some (in0, z0, z1) ∧ z0.length = y0.length ∧ z1.length = y1.length ∧
      ∀ q, q < m → ‖vc v (cAt z (if in0 then z0 else z1) q) - ∑ p ∈ range m, P p * W m (q * p)‖ ≤
          (tol + 73 / 10 ^ 8) * (rotN m * ∑ p ∈ range m, h p) ∧
        ‖∑ p ∈ range m, P p * W m (q * p)‖ ≤ rotN m * ∑ p ∈ range m, h p := by
  have r1 := rotN_ge m hm0 hm6
  have r2 := rotN_le m hm0
  have hh : ∀ p, 0 ≤ h p := fun p => le_trans (by positivity) (hf p)
  have hs0 : 0 ≤ ∑ p ∈ range m, h p := Finset.sum_nonneg fun p _ => hh p
  have hS : ∀ l, l < m → ‖vc v (cAt z y0 l)‖ ≤ 1.000001 * (rotN m * h l) := by
    intro l hl
    have := norm_add_le (vc v (cAt z y0 l) - P l) (P l)
    rw [sub_add_cancel] at this
    have h3 := hP l hl
    have h4 := hE l hl
    have h5 := hh l
    have h6 : 0 ≤ rotN m * h l := mul_nonneg (by linarith) h5
    linarith
  have hF : ∀ l, 1 / 2 ^ 110 ≤ 1.000001 * (rotN m * h l) := by
    intro l
    have h3 := hf l
    have h4 : 1 / 5 * (1 / 2 ^ 100) ≤ rotN m * h l := mul_le_mul r1 h3 (by positivity) (by linarith)
    linarith
  have hsum : ∑ l ∈ range m, 1.000001 * (rotN m * h l) = 1.000001 * (rotN m * ∑ p ∈ range m, h p) := by
    rw [Finset.mul_sum, Finset.mul_sum]
  have hrs : rotN m * ∑ p ∈ range m, h p ≤ 1 * 2 ^ 100 := mul_le_mul r2 hc hs0 (by norm_num)
  have hrs0 : 0 ≤ rotN m * ∑ p ∈ range m, h p := mul_nonneg (by linarith) hs0
  obtain ⟨in0, z0, z1, f1, f2, f3, f4⟩ := hO y0 y1 (fun l => 1.000001 * (rotN m * h l)) hS hF (by rw [hsum]; linarith) h0 h1
  refine ⟨in0, z0, z1, f1, f2, f3, fun q hq => ⟨?_, ?_⟩⟩
  · have g := f4 q hq
    rw [hsum] at g
    have e : ‖∑ l ∈ range m, vc v (cAt z y0 l) * W m (q * l) - ∑ p ∈ range m, P p * W m (q * p)‖ ≤ 72 / 10 ^ 8 * (rotN m * ∑ p ∈ range m, h p) := by
      rw [← Finset.sum_sub_distrib, Finset.mul_sum, Finset.mul_sum]
      refine (norm_sum_le _ _).trans (Finset.sum_le_sum fun l hl => ?_)
      rw [← sub_mul, norm_mul, W_norm, mul_one]
      exact hE l (Finset.mem_range.mp hl)
    have t := norm_add_le (vc v (cAt z (if in0 then z0 else z1) q) - ∑ l ∈ range m, vc v (cAt z y0 l) * W m (q * l))
      (∑ l ∈ range m, vc v (cAt z y0 l) * W m (q * l) - ∑ p ∈ range m, P p * W m (q * p))
    rw [sub_add_sub_cancel] at t
    have u : tol * (1.000001 * (rotN m * ∑ p ∈ range m, h p)) ≤ tol * (rotN m * ∑ p ∈ range m, h p) + 1 / 10 ^ 9 * (rotN m * ∑ p ∈ range m, h p) := by
      nlinarith
    linarith
  · refine (norm_sum_le _ _).trans ?_
    rw [Finset.mul_sum]
    refine Finset.sum_le_sum fun l hl => ?_
    rw [norm_mul, W_norm, mul_one]
    exact hP l (Finset.mem_range.mp hl)

/-- The second rotation. -/
theorem rot_err_gen (v : R → ℝ) (z : R) (m : ℕ) (hm0 : 0 < m) (hm6 : m ≤ 600) (w x : List R) (q : ℕ) (o : R × R)
    (hpr : ∀ b κ, ‖vc v (cAt z x q)‖ ≤ b → ‖vc v (cAt z w q)‖ ≤ κ → 1 / 2 ^ 110 ≤ b * κ → b * κ ≤ 2 ^ 110 →
      |v o.1 - (vc v (cAt z x q) * (starRingEnd ℂ) (vc v (cAt z w q))).re| ≤ 25 / 10 ^ 8 * (b * κ) ∧
      |v o.2 + (vc v (cAt z x q) * (starRingEnd ℂ) (vc v (cAt z w q))).im| ≤ 25 / 10 ^ 8 * (b * κ))
    (hw : ‖vc v (cAt z w q) - rotE m q‖ ≤ 15 / 10 ^ 8 * rotN m) (X : ℂ) (H γ : ℝ) (hH : 1 / 2 ^ 100 ≤ H) (hH2 : H ≤ 2 ^ 100) (hγ : γ ≤ 11 / 10000)
    (hX : ‖X‖ ≤ rotN m * H) (hE : ‖vc v (cAt z x q) - X‖ ≤ γ * (rotN m * H)) :
    |v o.1 - (X * (starRingEnd ℂ) (rotE m q)).re| ≤ (γ + 43 / 10 ^ 8) * (Real.sqrt (2 / (2 * m : ℕ)) * H) ∧
    |v o.2 + (X * (starRingEnd ℂ) (rotE m q)).im| ≤ (γ + 43 / 10 ^ 8) * (Real.sqrt (2 / (2 * m : ℕ)) * H) := by
  have r1 := rotN_ge m hm0 hm6
  have r2 := rotN_le m hm0
  have r3 := rotN_sq m
  have hne := rotE_norm m q
  have hH0 : 0 ≤ H := le_trans (by positivity) hH
  have hγ0 : 0 ≤ γ := by
    by_contra hc
    have := (norm_nonneg _).trans hE
    have h2 : 0 < rotN m * H := mul_pos (by linarith) (lt_of_lt_of_le (by positivity) hH)
    nlinarith
  have hρ2 : 1 / 25 ≤ Real.sqrt (2 / (2 * m : ℕ)) := by rw [← r3]; nlinarith
  have hρ3 : Real.sqrt (2 / (2 * m : ℕ)) ≤ 1 := by rw [← r3]; nlinarith
  have hK : ‖vc v (cAt z w q)‖ ≤ 1.000001 * rotN m := by
    have := norm_add_le (vc v (cAt z w q) - rotE m q) (rotE m q)
    rw [sub_add_cancel] at this
    linarith
  have hB : ‖vc v (cAt z x q)‖ ≤ 1.002 * (rotN m * H) := by
    have := norm_add_le (vc v (cAt z x q) - X) X
    rw [sub_add_cancel] at this
    have h2 : 0 ≤ rotN m * H := mul_nonneg (by linarith) hH0
    nlinarith
  have e1 : 1.002 * (rotN m * H) * (1.000001 * rotN m) = 1.002 * 1.000001 * (Real.sqrt (2 / (2 * m : ℕ)) * H) := by rw [← r3]; ring
  have k1 : 1 / 25 * (1 / 2 ^ 100) ≤ Real.sqrt (2 / (2 * m : ℕ)) * H := mul_le_mul hρ2 hH (by positivity) (by linarith)
  have k2 : Real.sqrt (2 / (2 * m : ℕ)) * H ≤ 1 * 2 ^ 100 := mul_le_mul hρ3 hH2 hH0 (by norm_num)
  have pr := hpr _ _ hB hK (by rw [e1]; linarith) (by rw [e1]; linarith)
  rw [e1] at pr
  have an : ‖vc v (cAt z x q) * (starRingEnd ℂ) (vc v (cAt z w q)) - X * (starRingEnd ℂ) (rotE m q)‖ ≤
      (γ + 17 / 10 ^ 8) * (Real.sqrt (2 / (2 * m : ℕ)) * H) := by
    rw [show vc v (cAt z x q) * (starRingEnd ℂ) (vc v (cAt z w q)) - X * (starRingEnd ℂ) (rotE m q) =
      (vc v (cAt z x q) - X) * (starRingEnd ℂ) (vc v (cAt z w q)) + X * (starRingEnd ℂ) (vc v (cAt z w q) - rotE m q) by rw [map_sub]; ring]
    refine (norm_add_le _ _).trans ?_
    rw [norm_mul, norm_mul, RCLike.norm_conj, RCLike.norm_conj]
    have t1 := mul_le_mul hE hK (norm_nonneg _) ((norm_nonneg _).trans hE)
    have t2 := mul_le_mul hX hw (norm_nonneg _) ((norm_nonneg _).trans hX)
    have e2 : γ * (rotN m * H) * (1.000001 * rotN m) = γ * (1.000001 * (Real.sqrt (2 / (2 * m : ℕ)) * H)) := by rw [← r3]; ring
    have e3 : rotN m * H * (15 / 10 ^ 8 * rotN m) = 15 / 10 ^ 8 * (Real.sqrt (2 / (2 * m : ℕ)) * H) := by rw [← r3]; ring
    rw [e2] at t1
    rw [e3] at t2
    nlinarith
  have are := (Complex.abs_re_le_norm _).trans an
  have aim := (Complex.abs_im_le_norm _).trans an
  rw [Complex.sub_re] at are
  rw [Complex.sub_im] at aim
  constructor
  · have t := abs_add_le (v o.1 - (vc v (cAt z x q) * (starRingEnd ℂ) (vc v (cAt z w q))).re)
      ((vc v (cAt z x q) * (starRingEnd ℂ) (vc v (cAt z w q))).re - (X * (starRingEnd ℂ) (rotE m q)).re)
    rw [sub_add_sub_cancel] at t
    linarith [pr.1]
  · have t := abs_sub (v o.2 + (vc v (cAt z x q) * (starRingEnd ℂ) (vc v (cAt z w q))).im)
      ((vc v (cAt z x q) * (starRingEnd ℂ) (vc v (cAt z w q))).im - (X * (starRingEnd ℂ) (rotE m q)).im)
    rw [show v o.2 + (vc v (cAt z x q) * (starRingEnd ℂ) (vc v (cAt z w q))).im -
      ((vc v (cAt z x q) * (starRingEnd ℂ) (vc v (cAt z w q))).im - (X * (starRingEnd ℂ) (rotE m q)).im) =
      v o.2 + (X * (starRingEnd ℂ) (rotE m q)).im by ring] at t
    linarith [pr.2]

theorem rot_err (A : Arith R) (v : R → ℝ) (hA : Approx A v) (z : R) (m : ℕ) (hm0 : 0 < m) (hm6 : m ≤ 600) (w x : List R) (q : ℕ)
    (hw : ‖vc v (cAt z w q) - rotE m q‖ ≤ 15 / 10 ^ 8 * rotN m) (X : ℂ) (H γ : ℝ) (hH : 1 / 2 ^ 100 ≤ H) (hH2 : H ≤ 2 ^ 100) (hγ : γ ≤ 11 / 10000)
    (hX : ‖X‖ ≤ rotN m * H) (hE : ‖vc v (cAt z x q) - X‖ ≤ γ * (rotN m * H)) :
    |v (postOut z A w x q).1 - (X * (starRingEnd ℂ) (rotE m q)).re| ≤ (γ + 43 / 10 ^ 8) * (Real.sqrt (2 / (2 * m : ℕ)) * H) ∧
    |v (postOut z A w x q).2 + (X * (starRingEnd ℂ) (rotE m q)).im| ≤ (γ + 43 / 10 ^ 8) * (Real.sqrt (2 / (2 * m : ℕ)) * H) :=
  rot_err_gen v z m hm0 hm6 w x q _ (fun _ _ h1 h2 h3 h4 => post_round A v hA z w x q _ _ h1 h2 h3 h4) hw X H γ hH hH2 hγ hX hE

theorem sum_fold (m : ℕ) (g : ℕ → ℝ) : ∑ p ∈ range m, (g (2 * p) + g (2 * m - 1 - 2 * p)) = ∑ k ∈ range (2 * m), g k := by
  rw [sum_range_mul, Finset.sum_add_distrib]
  simp only [Finset.sum_range_succ, Finset.sum_range_zero, zero_add, Finset.sum_add_distrib]
  congr 1
  rw [← Finset.sum_range_reflect (fun l => g (1 + 2 * l))]
  exact Finset.sum_congr rfl fun l hl => by rw [Finset.mem_range] at hl; congr 1; omega

/-- Rotations of a transform, within a tolerance. -/
def NearRot (v : R → ℝ) (z : R) (m : ℕ) (tw : Option (ℕ × List R)) : Prop :=
  ∃ w, tw = some (m, w) ∧ 2 * m ≤ w.length ∧ ∀ p, p < m → ‖vc v (cAt z w p) - rotE m p‖ ≤ 15 / 10 ^ 8 * rotN m

/-- The type-IV transform of the folded samples. -/
theorem fwd_err (A : Arith R) (v : R → ℝ) (hA : Approx A v) (z : R) (F : List R → List R → Option (Bool × List R × List R)) (m : ℕ) (tol : ℝ) (hm0 : 0 < m) (hm6 : m ≤ 600)
    (he : m % 2 = 0) (hO : FftOk v z F m tol) (hab : tol ≤ 1 / 1000) (w : List R) (hwl : 2 * m ≤ w.length)
    (hw : ∀ p, p < m → ‖vc v (cAt z w p) - rotE m p‖ ≤ 15 / 10 ^ 8 * rotN m) (u y : List R) (hu : 2 * m ≤ u.length) (hy : 2 * m ≤ y.length)
    (U g : ℕ → ℝ) (hU : ∀ k, k < 2 * m → |v (u.getD k z) - U k| ≤ 3 / 10 ^ 7 * g k ∧ |U k| ≤ g k) (hg : ∀ k, 1 / 2 ^ 100 ≤ g k)
    (hG : ∑ k ∈ range (2 * m), g k ≤ 2 ^ 100) :
    ∃ t r y', mdctPre A (m, w) u = some t ∧ F t y = some r ∧
      mdctPost A (m, w) (if r.1 then some r.2.1 else none) r.2.2 = some y' ∧
      y'.length = y.length ∧ ∀ k, k < 2 * m → |v (y'.getD k z) - dct4 (2 * m) (unfold4 (2 * m) U) k| ≤
        (tol + 117 / 10 ^ 8) * (Real.sqrt (2 / (2 * m : ℕ)) * ∑ k ∈ range (2 * m), g k) := by
  have r1 := rotN_ge m hm0 hm6
  have r2 := rotN_le m hm0
  have g0 : ∀ k, 0 ≤ g k := fun k => le_trans (by positivity) (hg k)
  have gc : ∀ k, k < 2 * m → g k ≤ 2 ^ 100 := fun k hk =>
    (Finset.single_le_sum (f := g) (fun k _ => g0 k) (Finset.mem_range.mpr hk)).trans hG
  obtain ⟨t, t1, t2, t3⟩ := mdctPre_spec z A m w u he hwl hu
  have hpre : ∀ p, p < m → ‖(⟨unfold4 (2 * m) U (2 * p), unfold4 (2 * m) U (2 * m - 1 - 2 * p)⟩ : ℂ) * (starRingEnd ℂ) (rotE m p)‖ ≤
        rotN m * (g (2 * p) + g (2 * m - 1 - 2 * p)) ∧
      ‖vc v (cAt z t p) - (⟨unfold4 (2 * m) U (2 * p), unfold4 (2 * m) U (2 * m - 1 - 2 * p)⟩ : ℂ) * (starRingEnd ℂ) (rotE m p)‖ ≤
        72 / 10 ^ 8 * (rotN m * (g (2 * p) + g (2 * m - 1 - 2 * p))) := by
    intro p hp
    obtain ⟨a1, a2⟩ := hU (2 * p) (by omega)
    obtain ⟨b1, b2⟩ := hU (2 * m - 1 - 2 * p) (by omega)
    have ga := gc (2 * p) (by omega)
    have gb := gc (2 * m - 1 - 2 * p) (by omega)
    have fa := hg (2 * p)
    have fb := hg (2 * m - 1 - 2 * p)
    have hwp := hw p hp
    have hK : ‖vc v (cAt z w p)‖ ≤ 1.000001 * rotN m := by
      have := norm_add_le (vc v (cAt z w p) - rotE m p) (rotE m p)
      rw [sub_add_cancel, rotE_norm] at this
      linarith
    have na : |v (u.getD (2 * p) z)| ≤ 1.000001 * g (2 * p) := by
      have := abs_add_le (v (u.getD (2 * p) z) - U (2 * p)) (U (2 * p))
      rw [sub_add_cancel] at this
      linarith
    have nb : |v (u.getD (2 * m - 1 - 2 * p) z)| ≤ 1.000001 * g (2 * m - 1 - 2 * p) := by
      have := abs_add_le (v (u.getD (2 * m - 1 - 2 * p) z) - U (2 * m - 1 - 2 * p)) (U (2 * m - 1 - 2 * p))
      rw [sub_add_cancel] at this
      linarith
    have key : ∀ c : ℝ, 1 / 2 ^ 100 ≤ c → c ≤ 2 ^ 100 → 1 / 2 ^ 104 ≤ 1.000001 * c * (1.000001 * rotN m) ∧ 1.000001 * c * (1.000001 * rotN m) ≤ 2 ^ 102 := by
      intro c hc1 hc2
      have k1 : 1 / 2 ^ 100 * (1 / 5) ≤ c * rotN m := mul_le_mul hc1 r1 (by norm_num) (le_trans (by positivity) hc1)
      have k2 : c * rotN m ≤ 2 ^ 100 * 1 := mul_le_mul hc2 r2 (by linarith) (by positivity)
      have k3 : 1.000001 * c * (1.000001 * rotN m) = 1.000001 * 1.000001 * (c * rotN m) := by ring
      rw [k3]
      constructor <;> linarith
    obtain ⟨ka1, ka2⟩ := key _ fa ga
    obtain ⟨kb1, kb2⟩ := key _ fb gb
    have pr := pre_round A v hA z m w u p _ _ _ na nb hK (by linarith) (by linarith) (by linarith) (by linarith) (by linarith) (by linarith) (by linarith)
      (by linarith) (by linarith)
    rw [← t3 p hp] at pr
    -- the exact values
    have hα : ∃ α β : ℂ, (if p < m / 2 then (⟨-v (u.getD (2 * m - 1 - 2 * p) z), v (u.getD (2 * p) z)⟩ : ℂ) else
        ⟨v (u.getD (2 * m - 1 - 2 * p) z), -v (u.getD (2 * p) z)⟩) = α ∧
        (⟨unfold4 (2 * m) U (2 * p), unfold4 (2 * m) U (2 * m - 1 - 2 * p)⟩ : ℂ) = β ∧ ‖β‖ ≤ g (2 * p) + g (2 * m - 1 - 2 * p) ∧
        ‖α - β‖ ≤ 3 / 10 ^ 7 * (g (2 * p) + g (2 * m - 1 - 2 * p)) := by
      refine ⟨_, _, rfl, rfl, ?_, ?_⟩
      · refine (Complex.norm_le_abs_re_add_abs_im _).trans ?_
        unfold unfold4
        rw [show 2 * m / 2 = m by omega, show 2 * m - 1 - (2 * m - 1 - 2 * p) = 2 * p by omega]
        by_cases c : 2 * p < m
        · rw [if_pos c, if_neg (by omega), abs_neg]; linarith
        · rw [if_neg c, if_pos (by omega), abs_neg]; linarith
      · refine (Complex.norm_le_abs_re_add_abs_im _).trans ?_
        unfold unfold4
        rw [show 2 * m / 2 = m by omega, show 2 * m - 1 - (2 * m - 1 - 2 * p) = 2 * p by omega]
        by_cases c : p < m / 2
        · rw [if_pos c, if_pos (show 2 * p < m by omega), if_neg (show ¬ 2 * m - 1 - 2 * p < m by omega), Complex.sub_re, Complex.sub_im]
          dsimp only
          rw [← abs_neg, show -(-v (u.getD (2 * m - 1 - 2 * p) z) - -U (2 * m - 1 - 2 * p)) = v (u.getD (2 * m - 1 - 2 * p) z) - U (2 * m - 1 - 2 * p) by ring]
          linarith
        · rw [if_neg c, if_neg (show ¬ 2 * p < m by omega), if_pos (show 2 * m - 1 - 2 * p < m by omega), Complex.sub_re, Complex.sub_im]
          dsimp only
          rw [← abs_neg (-v (u.getD (2 * p) z) - -U (2 * p)), show -(-v (u.getD (2 * p) z) - -U (2 * p)) = v (u.getD (2 * p) z) - U (2 * p) by ring]
          linarith
    obtain ⟨α, β, eα, eβ, nβ, dαβ⟩ := hα
    rw [eα] at pr
    rw [eβ]
    have hgg : 0 ≤ g (2 * p) + g (2 * m - 1 - 2 * p) := add_nonneg (g0 _) (g0 _)
    constructor
    · rw [norm_mul, RCLike.norm_conj, rotE_norm, mul_comm]
      exact mul_le_mul_of_nonneg_left nβ (by linarith)
    · rw [show vc v (cAt z t p) - β * (starRingEnd ℂ) (rotE m p) = (vc v (cAt z t p) - α * (starRingEnd ℂ) (vc v (cAt z w p))) +
        ((α - β) * (starRingEnd ℂ) (vc v (cAt z w p)) + β * (starRingEnd ℂ) (vc v (cAt z w p) - rotE m p)) by rw [map_sub]; ring]
      refine (norm_add_le _ _).trans ((add_le_add pr (norm_add_le _ _)).trans ?_)
      rw [norm_mul, norm_mul, RCLike.norm_conj, RCLike.norm_conj]
      have s1 := mul_le_mul dαβ hK (norm_nonneg _) ((norm_nonneg _).trans dαβ)
      have s2 := mul_le_mul nβ hwp (norm_nonneg _) hgg
      have s3 : 0 ≤ rotN m * (g (2 * p) + g (2 * m - 1 - 2 * p)) := mul_nonneg (by linarith) hgg
      linarith
  have hsf := sum_fold m g
  obtain ⟨in0, z0, z1, f1, f2, f3, f4⟩ := core_err v z F m tol hm0 hm6 hO hab t y
    (fun p => (⟨unfold4 (2 * m) U (2 * p), unfold4 (2 * m) U (2 * m - 1 - 2 * p)⟩ : ℂ) * (starRingEnd ℂ) (rotE m p))
    (fun p => g (2 * p) + g (2 * m - 1 - 2 * p)) (fun p => (hg _).trans (le_add_of_nonneg_right (g0 _))) (by rw [hsf]; exact hG)
    (fun p hp => (hpre p hp).1) (fun p hp => (hpre p hp).2) (by omega) hy
  rw [hsf] at f4
  have hpost : ∃ y', mdctPost A (m, w) (if in0 then some z0 else none) z1 = some y' ∧
      y'.length = y.length ∧ ∀ p, p < m → y'.getD (2 * p) z = (postOut z A w (if in0 then z0 else z1) p).1 ∧
        y'.getD (2 * m - 1 - 2 * p) z = (postOut z A w (if in0 then z0 else z1) p).2 := by
    cases in0 with
    | true =>
      obtain ⟨y', h1, h2, _, h3⟩ := mdctPost_spec z A m w (some z0) z1 he hwl (by omega) (fun l hl => by
        injection hl with hl; rw [← hl]; omega)
      exact ⟨y', by rw [if_pos rfl]; exact h1, by omega, h3⟩
    | false =>
      obtain ⟨y', h1, h2, _, h3⟩ := mdctPost_spec z A m w none z1 he hwl (by omega) (fun l hl => by cases hl)
      exact ⟨y', by rw [if_neg (by decide)]; exact h1, by omega, h3⟩
  obtain ⟨y', p1, p2, p3⟩ := hpost
  have hG0 : 1 / 2 ^ 100 ≤ ∑ k ∈ range (2 * m), g k :=
    (hg 0).trans (Finset.single_le_sum (f := g) (fun k _ => g0 k) (Finset.mem_range.mpr (by omega)))
  have hwE : ∀ p, p < m → cplx (complexTable (rotE m) m) p = rotE m p := fun p hp => complexTable_spec _ _ _ hp
  refine ⟨t, _, y', t1, f1, p1, p2, fun k hk => ?_⟩
  obtain ⟨p, hp, hkp⟩ := getD_eta [] m 0 k hk
  have hZ := dct4_fold m hm0 (complexTable (rotE m) m) (fun p hp => by rw [hwE p hp]; rfl) (unfold4 (2 * m) U) p hp
  rw [hwE p hp, Finset.sum_congr rfl (fun l hl => by rw [hwE l (Finset.mem_range.mp hl)])] at hZ
  have hre := rot_err A v hA z m hm0 hm6 w (if in0 then z0 else z1) p (hw p hp) _ _ (tol + 73 / 10 ^ 8) hG0 hG (by linarith) (f4 p hp).2 (f4 p hp).1
  rw [hZ] at hre
  rcases hkp with rfl | rfl
  · rw [(p3 p hp).1]
    refine hre.1.trans ?_
    have s0 : 0 ≤ Real.sqrt (2 / (2 * m : ℕ)) * ∑ k ∈ range (2 * m), g k := mul_nonneg (Real.sqrt_nonneg _) (le_trans (by positivity) hG0)
    nlinarith
  · rw [(p3 p hp).2]
    have := hre.2
    dsimp only at this
    rw [← sub_eq_add_neg] at this
    refine this.trans ?_
    have s0 : 0 ≤ Real.sqrt (2 / (2 * m : ℕ)) * ∑ k ∈ range (2 * m), g k := mul_nonneg (Real.sqrt_nonneg _) (le_trans (by positivity) hG0)
    nlinarith

/-! ### Window -/

/-- Samples of a transform: the delayed ones followed by those of the frame. -/
def spanR (z : R) (nd : ℕ) (d x : List R) (k : ℕ) : R := if k < nd then d.getD k z else x.getD (k - nd) z

theorem winOut_low (z : R) (A : Arith R) (n nd : ℕ) (win x d : List R) (hd : nd ≤ n) (hn : n ≤ 2 * nd) (k : ℕ) (hk : k < n / 2) :
    winOut z A n nd win x d k = A.sub (A.mul (spanR z nd d x (n / 2 - 1 - k)) (win.getD (n / 2 - 1 - k) z))
      (A.mul (spanR z nd d x (n - 1 - (n / 2 - 1 - k))) (win.getD (n - 1 - (n / 2 - 1 - k)) z)) := by
  unfold winOut spanR
  rw [if_pos hk]
  dsimp only
  rw [if_pos (show n / 2 - 1 - k < nd by omega)]
  by_cases c : n / 2 - 1 - k < n - nd
  · rw [if_pos c, if_neg (show ¬ n - 1 - (n / 2 - 1 - k) < nd by omega), show n - nd - (n / 2 - 1 - k) - 1 = n - 1 - (n / 2 - 1 - k) - nd by omega]
  · rw [if_neg c, if_pos (show n - 1 - (n / 2 - 1 - k) < nd by omega)]

theorem winOut_mid (z : R) (A : Arith R) (n nd : ℕ) (win x d : List R) (hd : nd ≤ n) (k : ℕ) (hk : n / 2 ≤ k) (hj : k - n / 2 < n - nd) :
    winOut z A n nd win x d k = A.mul (spanR z nd d x (n + (k - n / 2))) (win.getD (n + (k - n / 2)) z) := by
  unfold winOut spanR
  rw [if_neg (by omega)]
  dsimp only
  rw [if_pos hj, if_neg (show ¬ n + (k - n / 2) < nd by omega), show n - nd + (k - n / 2) = n + (k - n / 2) - nd by omega]

theorem winOut_high (z : R) (A : Arith R) (n nd : ℕ) (win x d : List R) (hd : nd ≤ n) (k : ℕ) (hk : n / 2 ≤ k) (hj : ¬ k - n / 2 < n - nd) (hk2 : k < n) :
    winOut z A n nd win x d k = A.add (A.mul (spanR z nd d x (n + (k - n / 2))) (win.getD (n + (k - n / 2)) z))
      (A.mul (spanR z nd d x (2 * n - 1 - (k - n / 2))) (win.getD (2 * n - 1 - (k - n / 2)) z)) := by
  unfold winOut spanR
  rw [if_neg (by omega)]
  dsimp only
  rw [if_neg hj, if_neg (show ¬ n + (k - n / 2) < nd by omega), if_neg (show ¬ 2 * n - 1 - (k - n / 2) < nd by omega),
    show n - nd + (k - n / 2) = n + (k - n / 2) - nd by omega, show 2 * n - nd - (k - n / 2) - 1 = 2 * n - 1 - (k - n / 2) - nd by omega]

theorem getD_map_v (v : R → ℝ) (z : R) (l : List R) (k : ℕ) (hk : k < l.length) : (l.map v).getD k 0 = v (l.getD k z) := by
  rw [List.getD_eq_getElem _ _ (by rw [List.length_map]; exact hk), List.getElem_map, List.getD_eq_getElem _ _ hk]

theorem span_v (v : R → ℝ) (z : R) (nd : ℕ) (d x : List R) (hd : nd ≤ d.length) (k : ℕ) (hk : k < nd + x.length) :
    spanR 0 nd (d.map v) (x.map v) k = v (spanR z nd d x k) := by
  unfold spanR
  by_cases c : k < nd
  · rw [if_pos c, if_pos c, getD_map_v v z d k (by omega)]
  · rw [if_neg c, if_neg c, getD_map_v v z x (k - nd) (by omega)]

/-- A window, within a tolerance. -/
def NearWin (v : R → ℝ) (z : R) (w : List R) (win : List ℝ) : Prop :=
  w.length = win.length ∧ ∀ k, k < win.length → |v (w.getD k z) - win.getD k 0| ≤ 6 / 10 ^ 8 * |win.getD k 0|

/-- Product of a sample by the window. -/
theorem win_term (A : Arith R) (v : R → ℝ) (hA : Approx A v) (a c : R) (w : ℝ) (hw : |v c - w| ≤ 6 / 10 ^ 8 * |w|) (hb : |v a * w| ≤ 2 ^ 100) :
    Ap v (A.mul a c) (v a * w) (|v a * w|) (121 / 10 ^ 9 * |v a * w| + 1 / 2 ^ 140) := by
  refine ⟨?_, le_refl _⟩
  have e : |v a * v c - v a * w| ≤ 6 / 10 ^ 8 * |v a * w| := by
    rw [← mul_sub, abs_mul, abs_mul]
    have := mul_le_mul_of_nonneg_left hw (abs_nonneg (v a))
    linarith
  have hm : |v a * v c| ≤ 1.0000001 * |v a * w| := by
    have := abs_add_le (v a * v c - v a * w) (v a * w)
    rw [sub_add_cancel] at this
    have h0 := abs_nonneg (v a * w)
    linarith
  have r := near_round e hm (hA.mul a c (by linarith))
  have h0 := abs_nonneg (v a * w)
  linarith

/-- Magnitude of the samples that make a folded one. -/
noncomputable def foldMag (n : ℕ) (wd : ℕ → ℝ) (k : ℕ) : ℝ :=
  (if k < n / 2 then |wd (n / 2 - 1 - k)| + |wd (n - 1 - (n / 2 - 1 - k))| else |wd (n + (k - n / 2))| + |wd (2 * n - 1 - (k - n / 2))|) + 1 / 2 ^ 100

theorem foldMag_sum (n : ℕ) (h4 : n % 4 = 0) (wd : ℕ → ℝ) : ∑ k ∈ range n, foldMag n wd k = ∑ l ∈ range (2 * n), |wd l| + n * (1 / 2 ^ 100) := by
  unfold foldMag
  rw [Finset.sum_add_distrib, Finset.sum_const, Finset.card_range, nsmul_eq_mul]
  congr 1
  obtain ⟨m, rfl⟩ : ∃ m, n = 2 * m := ⟨n / 2, by omega⟩
  have r1 : ∑ l ∈ range (2 * (2 * m)), |wd l| = ∑ l ∈ range m, |wd l| + ∑ l ∈ range m, |wd (m + l)| +
      (∑ l ∈ range m, |wd (m + m + l)| + ∑ l ∈ range m, |wd (m + m + (m + l))|) := by
    rw [show 2 * (2 * m) = m + m + (m + m) by ring, Finset.sum_range_add _ (m + m), Finset.sum_range_add _ m m, Finset.sum_range_add _ m m]
  have r2 : ∑ k ∈ range (2 * m), (if k < 2 * m / 2 then |wd (2 * m / 2 - 1 - k)| + |wd (2 * m - 1 - (2 * m / 2 - 1 - k))|
      else |wd (2 * m + (k - 2 * m / 2))| + |wd (2 * (2 * m) - 1 - (k - 2 * m / 2))|) =
      ∑ l ∈ range m, (|wd (m - 1 - l)| + |wd (m + l)|) + ∑ l ∈ range m, (|wd (m + m + l)| + |wd (m + m + (m + (m - 1 - l)))|) := by
    rw [show range (2 * m) = range (m + m) by rw [two_mul], Finset.sum_range_add, show 2 * m / 2 = m by omega]
    congr 1
    · refine Finset.sum_congr rfl fun l hl => ?_
      rw [Finset.mem_range] at hl
      rw [if_pos hl, show 2 * m - 1 - (m - 1 - l) = m + l by omega]
    · refine Finset.sum_congr rfl fun l hl => ?_
      rw [Finset.mem_range] at hl
      rw [if_neg (by omega), show m + l - m = l by omega, show 2 * m + l = m + m + l by omega, show 2 * (2 * m) - 1 - l = m + m + (m + (m - 1 - l)) by omega]
  rw [r1, r2, Finset.sum_add_distrib, Finset.sum_add_distrib, Finset.sum_range_reflect (fun l => |wd l|) m,
    Finset.sum_range_reflect (fun l => |wd (m + m + (m + l))|) m]

theorem win_err (A : Arith R) (v : R → ℝ) (hA : Approx A v) (z : R) (n nd : ℕ) (w : List R) (win : List ℝ) (hw : NearWin v z w win)
    (hwl : win.length = n + nd) (x d : List R) (h4 : n % 4 = 0) (hd : nd ≤ n) (hn : n ≤ 2 * nd) (hx : n ≤ x.length) (hdl : nd ≤ d.length)
    (hc : ∀ l, l < 2 * n → |windowed nd win (d.map v) (x.map v) l| ≤ 2 ^ 99) (k : ℕ) (hk : k < n) :
    |v (winOut z A n nd w x d k) - winOut 0 Arith.real n nd win (x.map v) (d.map v) k| ≤
        3 / 10 ^ 7 * foldMag n (windowed nd win (d.map v) (x.map v)) k ∧
      |winOut 0 Arith.real n nd win (x.map v) (d.map v) k| ≤ foldMag n (windowed nd win (d.map v) (x.map v)) k := by
  have T : ∀ l, l < n + nd → Ap v (A.mul (spanR z nd d x l) (w.getD l z)) (windowed nd win (d.map v) (x.map v) l)
      (|windowed nd win (d.map v) (x.map v) l|) (121 / 10 ^ 9 * |windowed nd win (d.map v) (x.map v) l| + 1 / 2 ^ 140) := by
    intro l hl
    have e : windowed nd win (d.map v) (x.map v) l = v (spanR z nd d x l) * win.getD l 0 := by
      rw [← span_v v z nd d x hdl l (by omega)]
      rfl
    have := hc l (by omega)
    rw [e] at this ⊢
    exact win_term A v hA _ _ _ (hw.2 l (by omega)) (by linarith)
  have E : ∀ l, l < n + nd → Arith.real.mul (spanR 0 nd (d.map v) (x.map v) l) (win.getD l 0) = windowed nd win (d.map v) (x.map v) l := fun l _ => rfl
  by_cases c1 : k < n / 2
  · rw [winOut_low z A n nd w x d hd hn k c1, winOut_low 0 Arith.real n nd win _ _ hd hn k c1, E _ (by omega), E _ (by omega)]
    have a1 := T (n / 2 - 1 - k) (by omega)
    have a2 := T (n - 1 - (n / 2 - 1 - k)) (by omega)
    have c1' := hc (n / 2 - 1 - k) (by omega)
    have c2' := hc (n - 1 - (n / 2 - 1 - k)) (by omega)
    have r := Ap.sub hA a1 a2 (by linarith)
    unfold foldMag
    rw [if_pos c1]
    have n1 := abs_nonneg (windowed nd win (d.map v) (x.map v) (n / 2 - 1 - k))
    have n2 := abs_nonneg (windowed nd win (d.map v) (x.map v) (n - 1 - (n / 2 - 1 - k)))
    exact ⟨r.1.trans (by linarith), r.2.trans (by linarith)⟩
  · by_cases c2 : k - n / 2 < n - nd
    · rw [winOut_mid z A n nd w x d hd k (by omega) c2, winOut_mid 0 Arith.real n nd win _ _ hd k (by omega) c2, E _ (by omega)]
      have r := T (n + (k - n / 2)) (by omega)
      unfold foldMag
      rw [if_neg c1]
      have n1 := abs_nonneg (windowed nd win (d.map v) (x.map v) (n + (k - n / 2)))
      have n2 := abs_nonneg (windowed nd win (d.map v) (x.map v) (2 * n - 1 - (k - n / 2)))
      exact ⟨r.1.trans (by linarith), r.2.trans (by linarith)⟩
    · rw [winOut_high z A n nd w x d hd k (by omega) c2 hk, winOut_high 0 Arith.real n nd win _ _ hd k (by omega) c2 hk, E _ (by omega), E _ (by omega)]
      have a1 := T (n + (k - n / 2)) (by omega)
      have a2 := T (2 * n - 1 - (k - n / 2)) (by omega)
      have c1' := hc (n + (k - n / 2)) (by omega)
      have c2' := hc (2 * n - 1 - (k - n / 2)) (by omega)
      have r := Ap.add hA a1 a2 (by linarith)
      unfold foldMag
      rw [if_neg c1]
      have n1 := abs_nonneg (windowed nd win (d.map v) (x.map v) (n + (k - n / 2)))
      have n2 := abs_nonneg (windowed nd win (d.map v) (x.map v) (2 * n - 1 - (k - n / 2)))
      exact ⟨r.1.trans (by linarith), r.2.trans (by linarith)⟩

/-! ### Scaling -/

theorem rescale_gen (z : R) (A : Arith R) (n : ℕ) (f : R) (x : List R) (h4 : n % 4 = 0) (hx : n ≤ x.length) :
    ∃ y, rescale A n f x = some y ∧ y.length = x.length ∧ ∀ k, y.getD k z = if k < n then A.mul (x.getD k z) f else x.getD k z := by
  unfold rescale
  rw [show n / 4 * 4 = n by omega, if_neg (by omega)]
  refine ⟨_, rfl, by rw [List.length_append, List.length_map, List.length_take, List.length_drop]; omega, fun k => ?_⟩
  have hl : ((x.take n).map (fun v => A.mul v f)).length = n := by rw [List.length_map, List.length_take]; omega
  by_cases hk : k < n
  · rw [if_pos hk, List.getD_append _ _ _ _ (by omega), List.getD_eq_getElem _ _ (by omega), List.getElem_map, List.getElem_take,
      List.getD_eq_getElem _ _ (by omega)]
  · rw [if_neg hk, List.getD_append_right _ _ _ _ (by omega), hl, List.getD_eq_getElem?_getD, List.getElem?_drop,
      show n + (k - n) = k by omega, List.getD_eq_getElem?_getD]

/-- The factor of the change of rate, within a tolerance. -/
def NearScale (A : Arith R) (v : R → ℝ) (sqrt : R → R) (n n' : ℕ) : Prop :=
  |v (sqrt (A.div (A.ofInt n') (A.ofInt n))) - Real.sqrt ((n' : ℝ) / n)| ≤ 2 / 10 ^ 7 * Real.sqrt ((n' : ℝ) / n)

theorem scale_err (A : Arith R) (v : R → ℝ) (hA : Approx A v) (a c : R) (x F b τ : ℝ) (hF0 : 1 / 10 ≤ F) (hF1 : F ≤ 10) (hc : |v c - F| ≤ 2 / 10 ^ 7 * F)
    (hx : |v a - x| ≤ τ * b) (hb : |x| ≤ b) (hb1 : 1 / 2 ^ 100 ≤ b) (hb2 : b ≤ 2 ^ 100) (hτ0 : 0 ≤ τ) (hτ : τ ≤ 1 / 1000) :
    |v (A.mul a c) - F * x| ≤ (τ + 27 / 10 ^ 8) * (F * b) := by
  have hv : |v a| ≤ 1.001 * b := by
    have := abs_add_le (v a - x) x
    rw [sub_add_cancel] at this
    nlinarith
  have hvc : |v c| ≤ 1.000001 * F := by
    have := abs_add_le (v c - F) F
    rw [sub_add_cancel, abs_of_nonneg (show (0 : ℝ) ≤ F by linarith)] at this
    linarith
  have hb0 : 0 ≤ b := le_trans (by positivity) hb1
  have e : |v a * v c - F * x| ≤ (τ + 201 / 10 ^ 9) * (F * b) := by
    rw [show v a * v c - F * x = v a * (v c - F) + F * (v a - x) by ring]
    refine (abs_add_le _ _).trans ?_
    rw [abs_mul, abs_mul, abs_of_nonneg (show (0 : ℝ) ≤ F by linarith)]
    have t1 := mul_le_mul hv hc (abs_nonneg _) (by linarith)
    have t2 := mul_le_mul_of_nonneg_left hx (show (0 : ℝ) ≤ F by linarith)
    have t3 : 0 ≤ F * b := mul_nonneg (by linarith) hb0
    nlinarith
  have hm : |v a * v c| ≤ 1.0011 * (F * b) := by
    rw [abs_mul]
    have t1 := mul_le_mul hv hvc (abs_nonneg _) (by linarith)
    have t3 : 0 ≤ F * b := mul_nonneg (by linarith) hb0
    linarith
  have t4 : F * b ≤ 10 * 2 ^ 100 := mul_le_mul hF1 hb2 hb0 (by norm_num)
  have t5 : 1 / 10 * (1 / 2 ^ 100) ≤ F * b := mul_le_mul hF0 hb1 (by positivity) (by linarith)
  have r := near_round e hm (hA.mul a c (by linarith))
  linarith

theorem dct4_unfold_le (n : ℕ) (U g : ℕ → ℝ) (h : ∀ k, k < n → |U k| ≤ g k) (k : ℕ) :
    |dct4 n (unfold4 n U) k| ≤ Real.sqrt (2 / n) * ∑ l ∈ range n, g l := by
  unfold dct4
  rw [abs_mul, abs_of_nonneg (Real.sqrt_nonneg _)]
  refine mul_le_mul_of_nonneg_left ?_ (Real.sqrt_nonneg _)
  refine (Finset.abs_sum_le_sum_abs _ _).trans ?_
  rw [← Finset.sum_range_reflect g n]
  refine Finset.sum_le_sum fun l hl => ?_
  rw [Finset.mem_range] at hl
  rw [abs_mul]
  have h1 : |unfold4 n U l| ≤ g (n - 1 - l) := by
    unfold unfold4
    split
    · rw [abs_neg]; exact h _ (by omega)
    · exact h _ (by omega)
  calc |unfold4 n U l| * _ ≤ g (n - 1 - l) * 1 := mul_le_mul h1 (Real.abs_cos_le_one _) (abs_nonneg _) ((abs_nonneg _).trans h1)
    _ = _ := mul_one _

/-! ### Forward transform -/

/-- `lc3_mdct_forward` with a Fourier transform `F`. -/
def forwardWith (A : Arith R) (F : ℕ → List R → List R → Option (Bool × List R × List R)) (sqrt : R → R) (T : MdctTables R) (dt : Dt) (sr srDst : Srate)
    (buf x d y : List R) : Option (List R × List R) := do
  let rot ← T.rot dt sr
  let win ← T.win dt sr
  let w ← mdctWindow A (ns dt sr) (nd dt sr) win x d buf
  let u ← mdctPre A rot w.1
  let r ← F (ns dt sr / 2) u y
  let y ← mdctPost A rot (if r.1 then some r.2.1 else none) r.2.2
  (if ns dt sr ≠ ns dt srDst then
      rescale A (ns dt srDst) (sqrt (A.div (A.ofInt (ns dt srDst)) (A.ofInt (ns dt sr)))) y
    else some y).bind fun y => some (y, w.2)

theorem mdctForward_with (A : Arith R) (sqrt : R → R) (T : MdctTables R) (dt : Dt) (sr srDst : Srate) (buf x d y : List R) :
    mdctForward A sqrt T dt sr srDst buf x d y = forwardWith A (fft A T) sqrt T dt sr srDst buf x d y := rfl

theorem forward_err (A : Arith R) (v : R → ℝ) (hA : Approx A v) (z : R) (sqrt : R → R) (T : MdctTables R) (dt : Dt) (sr srDst : Srate)
    (F : ℕ → List R → List R → Option (Bool × List R × List R)) (tol : ℝ) (hO : FftOk v z (F (ns dt sr / 2)) (ns dt sr / 2) tol) (hab : tol ≤ 500 / 10 ^ 8)
    (hrot : NearRot v z (ns dt sr / 2) (T.rot dt sr)) (w : List R) (win : List ℝ) (hwt : T.win dt sr = some w) (hw : NearWin v z w win)
    (hwl : win.length = ns dt sr + nd dt sr) (hdst : ns dt srDst ≤ ns dt sr)
    (hs : ns dt sr ≠ ns dt srDst → NearScale A v sqrt (ns dt sr) (ns dt srDst)) (buf x d y : List R)
    (hb : ns dt sr ≤ buf.length) (hx : ns dt sr ≤ x.length) (hd : nd dt sr ≤ d.length) (hy : ns dt sr ≤ y.length)
    (hsum : ∑ l ∈ range (2 * ns dt sr), |windowed (nd dt sr) win (d.map v) (x.map v) l| ≤ 2 ^ 99) :
    ∃ y' d', forwardWith A F sqrt T dt sr srDst buf x d y = some (y', d') ∧ y'.length = y.length ∧
      ∀ k, k < ns dt srDst → |v (y'.getD k z) - rateScale Real.sqrt (ns dt sr) (ns dt srDst) * mdct (ns dt sr) (windowed (nd dt sr) win (d.map v) (x.map v)) k| ≤
        65 / 10 ^ 7 * (rateScale Real.sqrt (ns dt sr) (ns dt srDst) * (Real.sqrt (2 / ns dt sr) *
          (∑ l ∈ range (2 * ns dt sr), |windowed (nd dt sr) win (d.map v) (x.map v) l| + 1 / 2 ^ 80))) := by
  obtain ⟨h4, hpos, hnd, hn2, he⟩ := mdct_shape dt sr
  obtain ⟨rt, hrt, hrl, hr⟩ := hrot
  have hn6 : ns dt sr ≤ 1000 := by cases dt <;> cases sr <;> decide
  have hn40 : 10 ≤ ns dt srDst := by cases dt <;> cases srDst <;> decide
  have hwlen := hw.1
  obtain ⟨u, d', w1, w2, w3, w4, w5⟩ := mdctWindow_spec z A (ns dt sr) (nd dt sr) w x d buf h4 hnd hn2 he (by omega) hx hd hb
  have e2 : 2 * (ns dt sr / 2) = ns dt sr := by omega
  have hc : ∀ l, l < 2 * ns dt sr → |windowed (nd dt sr) win (d.map v) (x.map v) l| ≤ 2 ^ 99 := fun l hl =>
    (Finset.single_le_sum (f := fun l => |windowed (nd dt sr) win (d.map v) (x.map v) l|) (fun _ _ => abs_nonneg _) (Finset.mem_range.mpr hl)).trans hsum
  have we := win_err A v hA z (ns dt sr) (nd dt sr) w win hw hwl x d h4 hnd hn2 hx hd hc
  have fs := foldMag_sum (ns dt sr) h4 (windowed (nd dt sr) win (d.map v) (x.map v))
  have hnr : ((ns dt sr : ℕ) : ℝ) ≤ 1000 := by exact_mod_cast hn6
  have hnp : (1 : ℝ) ≤ ((ns dt sr : ℕ) : ℝ) := by exact_mod_cast hpos
  have hsum0 : 0 ≤ ∑ l ∈ range (2 * ns dt sr), |windowed (nd dt sr) win (d.map v) (x.map v) l| := Finset.sum_nonneg fun _ _ => abs_nonneg _
  have hfl : ∀ k, 1 / 2 ^ 100 ≤ foldMag (ns dt sr) (windowed (nd dt sr) win (d.map v) (x.map v)) k := by
    intro k
    unfold foldMag
    refine le_add_of_nonneg_left ?_
    split <;> positivity
  obtain ⟨t, r, y1, c1, c2, c3, c4, c5⟩ := fwd_err A v hA z (F (ns dt sr / 2)) (ns dt sr / 2) tol (by omega) (by omega) (by omega) hO (hab.trans (by norm_num)) rt (by omega) hr u y
    (by omega) (by omega) (winOut 0 Arith.real (ns dt sr) (nd dt sr) win (x.map v) (d.map v))
    (foldMag (ns dt sr) (windowed (nd dt sr) win (d.map v) (x.map v))) (by
      rw [e2]; intro k hk; rw [w4 k hk]; exact we k hk) hfl (by rw [e2, fs]; linarith)
  rw [e2] at c5
  have hmd : ∀ k, dct4 (ns dt sr) (unfold4 (ns dt sr) (winOut 0 Arith.real (ns dt sr) (nd dt sr) win (x.map v) (d.map v))) k =
      mdct (ns dt sr) (windowed (nd dt sr) win (d.map v) (x.map v)) k := fun k =>
    dct4_unfold4 (ns dt sr) (nd dt sr) win (x.map v) (d.map v) h4 hpos hnd hn2 hwl (by rw [List.length_map]; exact hx) k
  -- the error before the change of rate
  have hS0 : 0 ≤ Real.sqrt (2 / ns dt sr) := Real.sqrt_nonneg _
  have hS1 : 1 / 50 ≤ Real.sqrt (2 / ns dt sr) := by
    apply Real.le_sqrt_of_sq_le
    rw [le_div_iff₀ (by linarith)]
    linarith
  have hS2 : Real.sqrt (2 / ns dt sr) ≤ 2 := by
    rw [Real.sqrt_le_left (by norm_num), div_le_iff₀ (by linarith)]
    linarith
  have hGt : ∑ k ∈ range (ns dt sr), foldMag (ns dt sr) (windowed (nd dt sr) win (d.map v) (x.map v)) k ≤
      ∑ l ∈ range (2 * ns dt sr), |windowed (nd dt sr) win (d.map v) (x.map v) l| + 1 / 2 ^ 80 := by rw [fs]; linarith
  have base : ∀ k, k < ns dt sr → |v (y1.getD k z) - mdct (ns dt sr) (windowed (nd dt sr) win (d.map v) (x.map v)) k| ≤
      620 / 10 ^ 8 * (Real.sqrt (2 / ns dt sr) * (∑ l ∈ range (2 * ns dt sr), |windowed (nd dt sr) win (d.map v) (x.map v) l| + 1 / 2 ^ 80)) := by
    intro k hk
    have := c5 k hk
    rw [hmd] at this
    refine this.trans ?_
    refine mul_le_mul (by linarith) (mul_le_mul_of_nonneg_left hGt hS0) ?_ (by norm_num)
    refine mul_nonneg hS0 ?_
    rw [fs]; positivity
  have bnd : ∀ k, |mdct (ns dt sr) (windowed (nd dt sr) win (d.map v) (x.map v)) k| ≤
      Real.sqrt (2 / ns dt sr) * (∑ l ∈ range (2 * ns dt sr), |windowed (nd dt sr) win (d.map v) (x.map v) l| + 1 / 2 ^ 80) := by
    intro k
    rw [← hmd]
    refine (dct4_unfold_le _ _ _ (fun k hk => (we k hk).2) k).trans (mul_le_mul_of_nonneg_left hGt hS0)
  unfold forwardWith
  rw [hrt, hwt]
  dsimp only [bind, Option.bind]
  rw [w1]
  dsimp only
  rw [c1]
  dsimp only
  rw [c2]
  dsimp only
  rw [c3]
  dsimp only
  unfold rateScale
  by_cases hne : ns dt sr ≠ ns dt srDst
  · obtain ⟨y2, s1, s2, s3⟩ := rescale_gen z A (ns dt srDst) (sqrt (A.div (A.ofInt (ns dt srDst)) (A.ofInt (ns dt sr)))) y1
      (mdct_shape dt srDst).1 (by omega)
    rw [if_pos hne, s1]
    refine ⟨_, _, rfl, by omega, fun k hk => ?_⟩
    rw [s3, if_pos hk, if_pos hne]
    have hd1 : (10 : ℝ) ≤ ((ns dt srDst : ℕ) : ℝ) := by exact_mod_cast hn40
    have hd2 : ((ns dt srDst : ℕ) : ℝ) ≤ ((ns dt sr : ℕ) : ℝ) := by exact_mod_cast hdst
    have hF0 : 1 / 10 ≤ Real.sqrt ((ns dt srDst : ℝ) / ns dt sr) := by
      apply Real.le_sqrt_of_sq_le
      rw [le_div_iff₀ (by linarith)]
      linarith
    have hF1 : Real.sqrt ((ns dt srDst : ℝ) / ns dt sr) ≤ 10 := by
      rw [Real.sqrt_le_left (by norm_num), div_le_iff₀ (by linarith)]
      linarith
    have k1 : 1 / 50 * (1 / 2 ^ 80) ≤ Real.sqrt (2 / ns dt sr) * (∑ l ∈ range (2 * ns dt sr), |windowed (nd dt sr) win (d.map v) (x.map v) l| + 1 / 2 ^ 80) :=
      mul_le_mul hS1 (by linarith) (by positivity) hS0
    have hS3 : Real.sqrt (2 / ns dt sr) ≤ 1 := by
      rw [Real.sqrt_le_left (by norm_num), div_le_iff₀ (by linarith)]
      linarith
    have k2 : Real.sqrt (2 / ns dt sr) * (∑ l ∈ range (2 * ns dt sr), |windowed (nd dt sr) win (d.map v) (x.map v) l| + 1 / 2 ^ 80) ≤ 1 * 2 ^ 100 :=
      mul_le_mul hS3 (by linarith) (by positivity) (by norm_num)
    have := scale_err A v hA _ _ _ _ _ (620 / 10 ^ 8) hF0 hF1 (hs hne) (base k (by omega)) (bnd k) (by linarith) (by linarith) (by norm_num) (by norm_num)
    refine this.trans (mul_le_mul_of_nonneg_right (by norm_num) ?_)
    exact mul_nonneg (by linarith) (by linarith)
  · rw [if_neg hne, if_neg hne]
    refine ⟨_, _, rfl, c4, fun k hk => ?_⟩
    rw [one_mul, one_mul]
    refine (base k (by omega)).trans (mul_le_mul_of_nonneg_right (by norm_num) ?_)
    positivity

end LC3
