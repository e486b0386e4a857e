import Verif.Lemmas.FftErr
import Verif.Lemmas.Twiddle

/-! Propagation of the rounding errors through the stages of the FFT. -/

namespace LC3

open Complex Finset

variable {R : Type}

/-! ### One butterfly -/

theorem err2_gen (v : R → ℝ) (x0 x1 a o : R × R) (s : ℕ) (z0 z1 ω : ℂ) (σ0 σ1 γ : ℝ)
    (hr : ‖vc v x0‖ ≤ 1.001 * σ0 → ‖vc v x1‖ ≤ 1.001 * σ1 → ‖vc v a‖ ≤ 1.0001 →
      ‖vc v o - (vc v x0 + vc v x1 * ((-1) ^ s * vc v a))‖ ≤ 44 / 10 ^ 8 * (σ0 + σ1))
    (f0 : 1 / 2 ^ 110 ≤ σ0) (f1 : 1 / 2 ^ 110 ≤ σ1) (hγ0 : 0 ≤ γ) (hγ : γ ≤ 1 / 1000)
    (h0 : ‖z0‖ ≤ σ0) (h1 : ‖z1‖ ≤ σ1) (e0 : ‖vc v x0 - z0‖ ≤ γ * σ0) (e1 : ‖vc v x1 - z1‖ ≤ γ * σ1) (hω : ‖ω‖ = 1)
    (ha : ‖vc v a - ω‖ ≤ 1 / 10 ^ 7) :
    ‖vc v o - (z0 + z1 * ((-1) ^ s * ω))‖ ≤ (γ + 56 / 10 ^ 8) * (σ0 + σ1) := by
  have hn : ∀ (x z : ℂ) (σ : ℝ), 0 ≤ σ → ‖z‖ ≤ σ → ‖x - z‖ ≤ γ * σ → ‖x‖ ≤ 1.001 * σ := by
    intro x z σ hσ h e
    have := norm_add_le (x - z) z
    rw [sub_add_cancel] at this
    nlinarith
  have n0 := hn _ _ _ (le_trans (by positivity) f0) h0 e0
  have n1 := hn _ _ _ (le_trans (by positivity) f1) h1 e1
  have na : ‖vc v a‖ ≤ 1.0001 := by
    have := norm_add_le (vc v a - ω) ω
    rw [sub_add_cancel] at this
    linarith
  have hr := hr n0 n1 na
  have hsg : ‖((-1 : ℂ)) ^ s‖ = 1 := by rw [norm_pow, norm_neg, norm_one, one_pow]
  have e : vc v o - (z0 + z1 * ((-1) ^ s * ω)) =
      (vc v o - (vc v x0 + vc v x1 * ((-1) ^ s * vc v a))) + ((vc v x0 - z0) + ((-1) ^ s * ((vc v x1 - z1) * ω) +
        (-1) ^ s * (vc v x1 * (vc v a - ω)))) := by ring
  rw [e]
  refine (norm_add_le _ _).trans ((add_le_add hr ((norm_add_le _ _).trans (add_le_add e0 (norm_add_le _ _)))).trans ?_)
  rw [norm_mul, norm_mul, norm_mul, norm_mul, hsg, hω, one_mul, one_mul, mul_one]
  have := mul_le_mul n1 ha (norm_nonneg _) (le_trans (norm_nonneg _) n1)
  linarith

theorem err2 (A : Arith R) (v : R → ℝ) (hA : Approx A v) (x0 x1 a : R × R) (s : ℕ) (hs : s < 2) (z0 z1 ω : ℂ) (σ0 σ1 γ : ℝ)
    (f0 : 1 / 2 ^ 110 ≤ σ0) (f1 : 1 / 2 ^ 110 ≤ σ1) (c0 : σ0 ≤ 2 ^ 110) (c1 : σ1 ≤ 2 ^ 110) (hγ0 : 0 ≤ γ) (hγ : γ ≤ 1 / 1000)
    (h0 : ‖z0‖ ≤ σ0) (h1 : ‖z1‖ ≤ σ1) (e0 : ‖vc v x0 - z0‖ ≤ γ * σ0) (e1 : ‖vc v x1 - z1‖ ≤ γ * σ1) (hω : ‖ω‖ = 1)
    (ha : ‖vc v a - ω‖ ≤ 1 / 10 ^ 7) :
    ‖vc v (out2 A x0 x1 a s) - (z0 + z1 * ((-1) ^ s * ω))‖ ≤ (γ + 56 / 10 ^ 8) * (σ0 + σ1) :=
  err2_gen v x0 x1 a _ s z0 z1 ω σ0 σ1 γ (fun n0 n1 na => round2 A v hA x0 x1 a s hs σ0 σ1 f0 f1 c0 c1 n0 n1 na) f0 f1 hγ0 hγ h0 h1 e0 e1 hω ha

theorem err3_gen (v : R → ℝ) (x0 x1 x2 a b o : R × R) (z0 z1 z2 ω ω' : ℂ) (σ0 σ1 σ2 γ : ℝ)
    (hr : ‖vc v x0‖ ≤ 1.001 * σ0 → ‖vc v x1‖ ≤ 1.001 * σ1 → ‖vc v x2‖ ≤ 1.001 * σ2 → ‖vc v a‖ ≤ 1.0001 → ‖vc v b‖ ≤ 1.0001 →
      ‖vc v o - (vc v x0 + vc v x1 * vc v a + vc v x2 * vc v b)‖ ≤ 78 / 10 ^ 8 * (σ0 + σ1 + σ2))
    (f0 : 1 / 2 ^ 110 ≤ σ0) (f1 : 1 / 2 ^ 110 ≤ σ1) (f2 : 1 / 2 ^ 110 ≤ σ2)
    (hγ0 : 0 ≤ γ) (hγ : γ ≤ 1 / 1000)
    (h0 : ‖z0‖ ≤ σ0) (h1 : ‖z1‖ ≤ σ1) (h2 : ‖z2‖ ≤ σ2) (e0 : ‖vc v x0 - z0‖ ≤ γ * σ0) (e1 : ‖vc v x1 - z1‖ ≤ γ * σ1)
    (e2 : ‖vc v x2 - z2‖ ≤ γ * σ2) (hω : ‖ω‖ = 1) (hω' : ‖ω'‖ = 1) (ha : ‖vc v a - ω‖ ≤ 1 / 10 ^ 7) (hb : ‖vc v b - ω'‖ ≤ 1 / 10 ^ 7) :
    ‖vc v o - (z0 + z1 * ω + z2 * ω')‖ ≤ (γ + 90 / 10 ^ 8) * (σ0 + σ1 + σ2) := by
  have hn : ∀ (x z : ℂ) (σ : ℝ), 0 ≤ σ → ‖z‖ ≤ σ → ‖x - z‖ ≤ γ * σ → ‖x‖ ≤ 1.001 * σ := by
    intro x z σ hσ h e
    have := norm_add_le (x - z) z
    rw [sub_add_cancel] at this
    nlinarith
  have n0 := hn _ _ _ (le_trans (by positivity) f0) h0 e0
  have n1 := hn _ _ _ (le_trans (by positivity) f1) h1 e1
  have n2 := hn _ _ _ (le_trans (by positivity) f2) h2 e2
  have hna : ∀ a ω : ℂ, ‖ω‖ = 1 → ‖a - ω‖ ≤ 1 / 10 ^ 7 → ‖a‖ ≤ 1.0001 := by
    intro a ω hω ha
    have := norm_add_le (a - ω) ω
    rw [sub_add_cancel] at this
    linarith
  have hr := hr n0 n1 n2 (hna _ _ hω ha) (hna _ _ hω' hb)
  have e : vc v o - (z0 + z1 * ω + z2 * ω') =
      (vc v o - (vc v x0 + vc v x1 * vc v a + vc v x2 * vc v b)) + ((vc v x0 - z0) + (((vc v x1 - z1) * ω +
        vc v x1 * (vc v a - ω)) + ((vc v x2 - z2) * ω' + vc v x2 * (vc v b - ω')))) := by ring
  rw [e]
  refine (norm_add_le _ _).trans ((add_le_add hr ((norm_add_le _ _).trans (add_le_add e0 ((norm_add_le _ _).trans
    (add_le_add (norm_add_le _ _) (norm_add_le _ _)))))).trans ?_)
  rw [norm_mul, norm_mul, norm_mul, norm_mul, hω, hω', mul_one, mul_one]
  have := mul_le_mul n1 ha (norm_nonneg _) (le_trans (norm_nonneg _) n1)
  have := mul_le_mul n2 hb (norm_nonneg _) (le_trans (norm_nonneg _) n2)
  linarith

theorem err3 (A : Arith R) (v : R → ℝ) (hA : Approx A v) (x0 x1 x2 a b : R × R) (z0 z1 z2 ω ω' : ℂ) (σ0 σ1 σ2 γ : ℝ)
    (f0 : 1 / 2 ^ 110 ≤ σ0) (f1 : 1 / 2 ^ 110 ≤ σ1) (f2 : 1 / 2 ^ 110 ≤ σ2) (c0 : σ0 ≤ 2 ^ 110) (c1 : σ1 ≤ 2 ^ 110) (c2 : σ2 ≤ 2 ^ 110)
    (hγ0 : 0 ≤ γ) (hγ : γ ≤ 1 / 1000)
    (h0 : ‖z0‖ ≤ σ0) (h1 : ‖z1‖ ≤ σ1) (h2 : ‖z2‖ ≤ σ2) (e0 : ‖vc v x0 - z0‖ ≤ γ * σ0) (e1 : ‖vc v x1 - z1‖ ≤ γ * σ1)
    (e2 : ‖vc v x2 - z2‖ ≤ γ * σ2) (hω : ‖ω‖ = 1) (hω' : ‖ω'‖ = 1) (ha : ‖vc v a - ω‖ ≤ 1 / 10 ^ 7) (hb : ‖vc v b - ω'‖ ≤ 1 / 10 ^ 7) :
    ‖vc v (out3 A x0 x1 x2 a b) - (z0 + z1 * ω + z2 * ω')‖ ≤ (γ + 90 / 10 ^ 8) * (σ0 + σ1 + σ2) :=
  err3_gen v x0 x1 x2 a b _ z0 z1 z2 ω ω' σ0 σ1 σ2 γ (fun n0 n1 n2 na nb => round3 A v hA x0 x1 x2 a b σ0 σ1 σ2 f0 f1 f2 c0 c1 c2 n0 n1 n2 na nb)
    f0 f1 f2 hγ0 hγ h0 h1 h2 e0 e1 e2 hω hω' ha hb

/-- The constants of the transform of 5 points, within a tolerance. -/
structure Near5 (v : R → ℝ) (T : MdctTables R) : Prop where
  cos1 : |v T.cos1 - Real.cos (2 * Real.pi / 5)| ≤ 7 / 10 ^ 8
  cos2 : |v T.cos2 - Real.cos (4 * Real.pi / 5)| ≤ 7 / 10 ^ 8
  sin1 : |v T.sin1 + Real.sin (2 * Real.pi / 5)| ≤ 7 / 10 ^ 8
  sin2 : |v T.sin2 + Real.sin (4 * Real.pi / 5)| ≤ 7 / 10 ^ 8

theorem near_le_one {x y : ℝ} (h : |x - y| ≤ 7 / 10 ^ 8) (hy : |y| ≤ 1) : |x| ≤ 1.0001 := by
  have := abs_add_le (x - y) y
  rw [sub_add_cancel] at this
  linarith

theorem root5_near (v : R → ℝ) (T : MdctTables R) (h : Near5 v T) (k : ℕ) : ‖root5 v T (k % 5) - W 5 k‖ ≤ 1 / 10 ^ 7 := by
  have e4 : 2 * Real.pi * (((4 : ℕ) : ℝ) / ((5 : ℕ) : ℝ)) = 2 * Real.pi - 2 * Real.pi / 5 := by push_cast; ring
  have e3 : 2 * Real.pi * (((3 : ℕ) : ℝ) / ((5 : ℕ) : ℝ)) = 2 * Real.pi - 4 * Real.pi / 5 := by push_cast; ring
  have e2 : 2 * Real.pi * (((2 : ℕ) : ℝ) / ((5 : ℕ) : ℝ)) = 4 * Real.pi / 5 := by push_cast; ring
  have e1 : 2 * Real.pi * (((1 : ℕ) : ℝ) / ((5 : ℕ) : ℝ)) = 2 * Real.pi / 5 := by push_cast; ring
  have hk : W 5 k = W 5 (k % 5) := by
    have := W_add_mul 5 (k % 5) (k / 5) (by decide)
    rw [Nat.mod_add_div] at this
    exact this
  rw [hk]
  have hlt : k % 5 < 5 := Nat.mod_lt _ (by decide)
  generalize k % 5 = r at *
  refine (norm_of_parts _ (7 / 10 ^ 8) ?_ ?_).trans (by norm_num)
  · interval_cases r
    · rw [W_zero]; simp [root5]; norm_num
    · rw [Complex.sub_re, W_re, e1]; exact h.cos1
    · rw [Complex.sub_re, W_re, e2]; exact h.cos2
    · rw [Complex.sub_re, W_re, e3, Real.cos_two_pi_sub]; exact h.cos2
    · rw [Complex.sub_re, W_re, e4, Real.cos_two_pi_sub]; exact h.cos1
  · interval_cases r
    · rw [W_zero]; simp [root5]; norm_num
    · rw [Complex.sub_im, W_im, e1, sub_neg_eq_add]; exact h.sin1
    · rw [Complex.sub_im, W_im, e2, sub_neg_eq_add]; exact h.sin2
    · rw [Complex.sub_im, W_im, e3, Real.sin_two_pi_sub, ← abs_neg]
      refine le_trans (le_of_eq ?_) h.sin2
      congr 1; simp [root5]; ring
    · rw [Complex.sub_im, W_im, e4, Real.sin_two_pi_sub, ← abs_neg]
      refine le_trans (le_of_eq ?_) h.sin1
      congr 1; simp [root5]; ring

theorem err5_gen (v : R → ℝ) (T : MdctTables R) (hT : Near5 v T) (x0 x1 x2 x3 x4 o : R × R) (r : ℕ) (σ0 σ1 σ2 σ3 σ4 : ℝ)
    (hr : |v T.cos1| ≤ 1.0001 → |v T.cos2| ≤ 1.0001 → |v T.sin1| ≤ 1.0001 → |v T.sin2| ≤ 1.0001 →
      ‖vc v o - (vc v x0 * root5 v T (r * 0 % 5) + vc v x1 * root5 v T (r * 1 % 5) + vc v x2 * root5 v T (r * 2 % 5) +
      vc v x3 * root5 v T (r * 3 % 5) + vc v x4 * root5 v T (r * 4 % 5))‖ ≤ 95 / 10 ^ 8 * (σ0 + σ1 + σ2 + σ3 + σ4))
    (f0 : 1 / 2 ^ 110 ≤ σ0) (f1 : 1 / 2 ^ 110 ≤ σ1) (f2 : 1 / 2 ^ 110 ≤ σ2) (f3 : 1 / 2 ^ 110 ≤ σ3) (f4 : 1 / 2 ^ 110 ≤ σ4)
    (h0 : ‖vc v x0‖ ≤ σ0) (h1 : ‖vc v x1‖ ≤ σ1) (h2 : ‖vc v x2‖ ≤ σ2) (h3 : ‖vc v x3‖ ≤ σ3) (h4 : ‖vc v x4‖ ≤ σ4) :
    ‖vc v o - (vc v x0 * W 5 (r * 0) + vc v x1 * W 5 (r * 1) + vc v x2 * W 5 (r * 2) +
      vc v x3 * W 5 (r * 3) + vc v x4 * W 5 (r * 4))‖ ≤ 110 / 10 ^ 8 * (σ0 + σ1 + σ2 + σ3 + σ4) := by
  have hs := hr
    (near_le_one hT.cos1 (Real.abs_cos_le_one _)) (near_le_one hT.cos2 (Real.abs_cos_le_one _))
    (near_le_one (y := -Real.sin (2 * Real.pi / 5)) (by rw [sub_neg_eq_add]; exact hT.sin1) (by rw [abs_neg]; exact Real.abs_sin_le_one _))
    (near_le_one (y := -Real.sin (4 * Real.pi / 5)) (by rw [sub_neg_eq_add]; exact hT.sin2) (by rw [abs_neg]; exact Real.abs_sin_le_one _))
  have hd : ∀ (x : ℂ) (σ : ℝ) (l : ℕ), ‖x‖ ≤ σ → ‖x * (root5 v T (r * l % 5) - W 5 (r * l))‖ ≤ σ * (1 / 10 ^ 7) := by
    intro x σ l h
    rw [norm_mul]
    exact mul_le_mul h (root5_near v T hT _) (norm_nonneg _) ((norm_nonneg _).trans h)
  have g0 := hd _ _ 0 h0
  have g1 := hd _ _ 1 h1
  have g2 := hd _ _ 2 h2
  have g3 := hd _ _ 3 h3
  have g4 := hd _ _ 4 h4
  rw [show vc v o - (vc v x0 * W 5 (r * 0) + vc v x1 * W 5 (r * 1) + vc v x2 * W 5 (r * 2) +
      vc v x3 * W 5 (r * 3) + vc v x4 * W 5 (r * 4)) =
      (vc v o - (vc v x0 * root5 v T (r * 0 % 5) + vc v x1 * root5 v T (r * 1 % 5) + vc v x2 * root5 v T (r * 2 % 5) +
      vc v x3 * root5 v T (r * 3 % 5) + vc v x4 * root5 v T (r * 4 % 5))) +
      ((((vc v x0 * (root5 v T (r * 0 % 5) - W 5 (r * 0)) + vc v x1 * (root5 v T (r * 1 % 5) - W 5 (r * 1))) +
        vc v x2 * (root5 v T (r * 2 % 5) - W 5 (r * 2))) + vc v x3 * (root5 v T (r * 3 % 5) - W 5 (r * 3))) +
        vc v x4 * (root5 v T (r * 4 % 5) - W 5 (r * 4))) by ring]
  have := norm_add_le (vc v x0 * (root5 v T (r * 0 % 5) - W 5 (r * 0))) (vc v x1 * (root5 v T (r * 1 % 5) - W 5 (r * 1)))
  refine (norm_add_le _ _).trans ((add_le_add hs ((norm_add_le _ _).trans (add_le_add ((norm_add_le _ _).trans (add_le_add
    ((norm_add_le _ _).trans (add_le_add ((norm_add_le _ _).trans (add_le_add g0 g1)) g2)) g3)) g4))).trans ?_)
  linarith

theorem err5 (A : Arith R) (v : R → ℝ) (hA : Approx A v) (T : MdctTables R) (hT : Near5 v T) (x0 x1 x2 x3 x4 : R × R) (r : ℕ) (hr : r < 5) (σ0 σ1 σ2 σ3 σ4 : ℝ)
    (f0 : 1 / 2 ^ 110 ≤ σ0) (f1 : 1 / 2 ^ 110 ≤ σ1) (f2 : 1 / 2 ^ 110 ≤ σ2) (f3 : 1 / 2 ^ 110 ≤ σ3) (f4 : 1 / 2 ^ 110 ≤ σ4)
    (c0 : σ0 ≤ 2 ^ 110) (c1 : σ1 ≤ 2 ^ 110) (c2 : σ2 ≤ 2 ^ 110) (c3 : σ3 ≤ 2 ^ 110) (c4 : σ4 ≤ 2 ^ 110)
    (h0 : ‖vc v x0‖ ≤ σ0) (h1 : ‖vc v x1‖ ≤ σ1) (h2 : ‖vc v x2‖ ≤ σ2) (h3 : ‖vc v x3‖ ≤ σ3) (h4 : ‖vc v x4‖ ≤ σ4) :
    ‖vc v (dft5 A T x0 x1 x2 x3 x4 r) - (vc v x0 * W 5 (r * 0) + vc v x1 * W 5 (r * 1) + vc v x2 * W 5 (r * 2) +
      vc v x3 * W 5 (r * 3) + vc v x4 * W 5 (r * 4))‖ ≤ 110 / 10 ^ 8 * (σ0 + σ1 + σ2 + σ3 + σ4) :=
  err5_gen v T hT x0 x1 x2 x3 x4 _ r σ0 σ1 σ2 σ3 σ4 (fun k1 k2 k3 k4 => round5 A v hA T x0 x1 x2 x3 x4 r hr σ0 σ1 σ2 σ3 σ4 f0 f1 f2 f3 f4 c0 c1 c2 c3 c4
    h0 h1 h2 h3 h4 k1 k2 k3 k4) f0 f1 f2 f3 f4 h0 h1 h2 h3 h4

/-! ### Stages -/

/-- The DFT of the decimated inputs within a relative error, after the stage of blocks of size `B`. -/
def StageErr (x : ℕ → ℂ) (S : ℕ → ℝ) (B m : ℕ) (γ : ℝ) (Y : ℕ → ℂ) : Prop :=
  ∀ i k, i < m → k < B → ‖Y (i * B + k) - ∑ l ∈ range B, x (i + l * m) * W B (k * l)‖ ≤ γ * ∑ l ∈ range B, S (i + l * m)

theorem sum_part_le (S : ℕ → ℝ) (hS : ∀ l, 0 ≤ S l) (B m i : ℕ) (hi : i < m) : ∑ l ∈ range B, S (i + l * m) ≤ ∑ k ∈ range (m * B), S k := by
  rw [sum_range_mul]
  refine Finset.sum_le_sum fun l _ => ?_
  rw [show i + l * m = i + m * l by ring]
  exact Finset.single_le_sum (f := fun q => S (q + m * l)) (fun q _ => hS _) (Finset.mem_range.mpr hi)

/-- The sums of a butterfly. -/
theorem butterfly_sum (x : ℕ → ℂ) (B m r : ℕ) (hB : 0 < B) (hr : 0 < r) (i s j : ℕ) :
    ∑ q ∈ range r, (∑ l ∈ range B, x (i + q * m + l * (r * m)) * W B (j * l)) * W (r * B) ((s * B + j) * q) =
      ∑ l ∈ range (r * B), x (i + l * m) * W (r * B) ((s * B + j) * l) := by
  rw [sum_range_mul, Finset.sum_comm]
  refine Finset.sum_congr rfl fun q hq => ?_
  rw [Finset.sum_mul]
  refine Finset.sum_congr rfl fun l _ => ?_
  rw [show i + q * m + l * (r * m) = i + (q + r * l) * m by ring, mul_assoc]
  congr 1
  rw [← W_scale r B (j * l) hr, ← W_add_mul (r * B) (r * (j * l)) (s * l) (Nat.mul_pos hr hB), ← W_add]
  congr 1
  ring

theorem butterfly_weight (S : ℕ → ℝ) (B m r : ℕ) (i : ℕ) :
    ∑ q ∈ range r, ∑ l ∈ range B, S (i + q * m + l * (r * m)) = ∑ l ∈ range (r * B), S (i + l * m) := by
  rw [sum_range_mul, Finset.sum_comm]
  refine Finset.sum_congr rfl fun q hq => Finset.sum_congr rfl fun l _ => ?_
  rw [show i + l * m + q * (r * m) = i + (l + r * q) * m by ring]

/-- A butterfly of `r` points. -/
theorem stageErr_step (x : ℕ → ℂ) (S : ℕ → ℝ) (Y Y' : ℕ → ℂ) (B m r : ℕ) (γ γ' : ℝ) (hB : 0 < B) (hr : 0 < r) (hS : ∀ l, l < r * m * B → ‖x l‖ ≤ S l)
    (hF : ∀ l, 1 / 2 ^ 110 ≤ S l) (hC : ∑ k ∈ range (r * m * B), S k ≤ 2 ^ 110) (h : StageErr x S B (r * m) γ Y)
    (hY : ∀ i j s, i < m → j < B → s < r → ∀ (z : ℕ → ℂ) (σ : ℕ → ℝ), (∀ q, q < r → ‖z q‖ ≤ σ q ∧ 1 / 2 ^ 110 ≤ σ q ∧ σ q ≤ 2 ^ 110 ∧
        ‖Y (i * B + j + q * (m * B)) - z q‖ ≤ γ * σ q) →
      ‖Y' (B * (r * i + s) + j) - ∑ q ∈ range r, z q * W (r * B) ((s * B + j) * q)‖ ≤ γ' * ∑ q ∈ range r, σ q) :
    StageErr x S (r * B) m γ' Y' := by
  intro i k hi hk
  have hs : k / B < r := by rw [Nat.div_lt_iff_lt_mul hB]; exact hk
  have hj : k % B < B := Nat.mod_lt _ hB
  have hkk : k / B * B + k % B = k := by rw [Nat.mul_comm]; exact Nat.div_add_mod k B
  have h1 := hY i (k % B) (k / B) hi hj hs (fun q => ∑ l ∈ range B, x (i + q * m + l * (r * m)) * W B (k % B * l))
    (fun q => ∑ l ∈ range B, S (i + q * m + l * (r * m))) (by
      intro q hq
      have hlt : i + q * m < r * m := by
        have : (q + 1) * m ≤ r * m := Nat.mul_le_mul_right m hq
        rw [Nat.add_mul] at this; omega
      have hS0 : ∀ l, 0 ≤ S l := fun l => le_trans (by positivity) (hF l)
      refine ⟨?_, ?_, ?_, ?_⟩
      · refine (norm_sum_le _ _).trans (Finset.sum_le_sum fun l hl => ?_)
        rw [norm_mul, W_norm, mul_one]
        refine hS _ ?_
        have := mul_lt_of (Finset.mem_range.mp hl) hlt
        rw [Nat.mul_comm B] at this
        omega
      · exact (hF _).trans (Finset.single_le_sum (f := fun l => S (i + q * m + l * (r * m))) (fun l _ => hS0 _) (Finset.mem_range.mpr hB))
      · exact (sum_part_le S hS0 B (r * m) _ hlt).trans hC
      · have h2 := h (i + q * m) (k % B) hlt hj
        rw [show i * B + k % B + q * (m * B) = (i + q * m) * B + k % B by ring]
        exact h2)
  rw [butterfly_sum x B m r hB hr, butterfly_weight, hkk] at h1
  rw [show i * (r * B) + k = B * (r * i + k / B) + k % B by
    have : B * (r * i + k / B) = i * (r * B) + k / B * B := by ring
    omega]
  exact h1

/-- Twiddles of the 3 points butterfly of a transform of `3 * n3` points, within a tolerance. -/
def NearBf3 (v : R → ℝ) (z : R) (n3 : ℕ) (tw : Option (ℕ × List R)) : Prop :=
  ∃ w, tw = some (n3, w) ∧ 12 * n3 ≤ w.length ∧ ∀ k, k < 3 * n3 → ‖vc v (cAt z w (2 * k)) - W (3 * n3) k‖ ≤ 1 / 10 ^ 7 ∧
    ‖vc v (cAt z w (2 * k + 1)) - W (3 * n3) (2 * k)‖ ≤ 1 / 10 ^ 7

/-- Twiddles of the 2 points butterfly of a transform of `2 * n2` points, within a tolerance. -/
def NearBf2 (v : R → ℝ) (z : R) (n2 : ℕ) (tw : Option (ℕ × List R)) : Prop :=
  ∃ w, tw = some (n2, w) ∧ 2 * n2 ≤ w.length ∧ ∀ k, k < n2 → ‖vc v (cAt z w k) - W (2 * n2) k‖ ≤ 1 / 10 ^ 7

theorem stageErr5 (A : Arith R) (v : R → ℝ) (hA : Approx A v) (z : R) (T : MdctTables R) (h : Near5 v T) (m : ℕ) (x y : List R) (S : ℕ → ℝ)
    (hS : ∀ l, l < 5 * m → ‖vc v (cAt z x l)‖ ≤ S l) (hF : ∀ l, 1 / 2 ^ 110 ≤ S l) (hC : ∑ k ∈ range (5 * m), S k ≤ 2 ^ 110)
    (hx : 10 * m ≤ x.length) (hy : 10 * m ≤ y.length) :
    ∃ y', fft5 A T m x y = some y' ∧ y'.length = y.length ∧
      StageErr (fun k => vc v (cAt z x k)) S 5 m (110 / 10 ^ 8) (fun k => vc v (cAt z y' k)) := by
  obtain ⟨y', h1, h2, h3⟩ := fft5_spec z A T m x y hx hy
  refine ⟨y', h1, h2, fun i k hi hk => ?_⟩
  have hc : ∀ q, q < 5 → S (i + q * m) ≤ 2 ^ 110 := by
    intro q hq
    have hS0 : ∀ l, 0 ≤ S l := fun l => le_trans (by positivity) (hF l)
    refine (Finset.single_le_sum (f := S) (fun l _ => hS0 l) (Finset.mem_range.mpr ?_)).trans hC
    have : q * m ≤ 4 * m := Nat.mul_le_mul_right m (by omega)
    omega
  have := err5 A v hA T h (cAt z x i) (cAt z x (i + m)) (cAt z x (i + 2 * m)) (cAt z x (i + 3 * m)) (cAt z x (i + 4 * m)) k hk
    (S (i + 0 * m)) (S (i + 1 * m)) (S (i + 2 * m)) (S (i + 3 * m)) (S (i + 4 * m)) (hF _) (hF _) (hF _) (hF _) (hF _)
    (hc 0 (by decide)) (hc 1 (by decide)) (hc 2 (by decide)) (hc 3 (by decide)) (hc 4 (by decide))
    (by rw [Nat.zero_mul, Nat.add_zero]; exact hS _ (by omega)) (by rw [Nat.one_mul]; exact hS _ (by omega)) (hS _ (by omega)) (hS _ (by omega))
    (hS _ (by omega))
  dsimp only
  rw [Nat.mul_comm i 5, h3 i k hi hk]
  simp only [Finset.sum_range_succ, Finset.sum_range_zero, zero_add]
  rw [Nat.zero_mul, Nat.add_zero, Nat.one_mul] at this ⊢
  exact this

theorem stageErr2 (A : Arith R) (v : R → ℝ) (hA : Approx A v) (z : R) (x : ℕ → ℂ) (S : ℕ → ℝ) (B m : ℕ) (γ : ℝ) (hγ0 : 0 ≤ γ) (hγ : γ ≤ 1 / 1000)
    (tw : Option (ℕ × List R)) (ht : NearBf2 v z B tw) (hB : 0 < B)
    (hS : ∀ l, l < 2 * m * B → ‖x l‖ ≤ S l) (hF : ∀ l, 1 / 2 ^ 110 ≤ S l) (hC : ∑ k ∈ range (2 * m * B), S k ≤ 2 ^ 110) (src dst : List R)
    (hs : 2 * (B * (2 * m)) ≤ src.length) (hd : 2 * (B * (2 * m)) ≤ dst.length) (h : StageErr x S B (2 * m) γ (fun k => vc v (cAt z src k))) :
    ∃ t y', tw = some t ∧ fftBf2 A t m src dst = some y' ∧ y'.length = dst.length ∧
      StageErr x S (2 * B) m (γ + 56 / 10 ^ 8) (fun k => vc v (cAt z y' k)) := by
  obtain ⟨w, rfl, hw, hW⟩ := ht
  have e : 2 * (B * (2 * m)) = 4 * (m * B) := by ring
  rw [e] at hs hd
  obtain ⟨y', h1, h2, h3⟩ := fftBf2_spec z A B w m src dst hw hs hd
  refine ⟨_, y', rfl, h1, h2, stageErr_step x S _ _ B m 2 γ _ hB (by decide) hS hF hC h fun i j s hi hj hs2 q σ hq => ?_⟩
  obtain ⟨a0, a1, a2, a3⟩ := hq 0 (by decide)
  obtain ⟨b0, b1, b2, b3⟩ := hq 1 (by decide)
  rw [Nat.zero_mul, Nat.add_zero] at a3
  rw [Nat.one_mul] at b3
  have := err2 A v hA (cAt z src (i * B + j)) (cAt z src (i * B + j + m * B)) (cAt z w j) s hs2 (q 0) (q 1) (W (2 * B) j) (σ 0) (σ 1) γ
    a1 b1 a2 b2 hγ0 hγ a0 b0 a3 b3 (W_norm _ _) (hW j hj)
  rw [h3 i j s hi hj hs2]
  simp only [Finset.sum_range_succ, Finset.sum_range_zero, zero_add, Nat.mul_zero, Nat.mul_one]
  rw [W_zero, mul_one]
  refine le_trans (le_of_eq ?_) this
  congr 4
  interval_cases s
  · rw [pow_zero, one_mul, Nat.zero_mul, Nat.zero_add]
  · rw [pow_one, Nat.one_mul, W_add, W_half B hB]

theorem stageErr3 (A : Arith R) (v : R → ℝ) (hA : Approx A v) (z : R) (x : ℕ → ℂ) (S : ℕ → ℝ) (B m : ℕ) (γ : ℝ) (hγ0 : 0 ≤ γ) (hγ : γ ≤ 1 / 1000)
    (tw : Option (ℕ × List R)) (ht : NearBf3 v z B tw) (hB : 0 < B)
    (hS : ∀ l, l < 3 * m * B → ‖x l‖ ≤ S l) (hF : ∀ l, 1 / 2 ^ 110 ≤ S l) (hC : ∑ k ∈ range (3 * m * B), S k ≤ 2 ^ 110) (src dst : List R)
    (hs : 2 * (B * (3 * m)) ≤ src.length) (hd : 2 * (B * (3 * m)) ≤ dst.length) (h : StageErr x S B (3 * m) γ (fun k => vc v (cAt z src k))) :
    ∃ t y', tw = some t ∧ fftBf3 A t m src dst = some y' ∧ y'.length = dst.length ∧
      StageErr x S (3 * B) m (γ + 90 / 10 ^ 8) (fun k => vc v (cAt z y' k)) := by
  obtain ⟨w, rfl, hw, hW⟩ := ht
  have e : 2 * (B * (3 * m)) = 6 * (m * B) := by ring
  rw [e] at hs hd
  obtain ⟨y', h1, h2, h3⟩ := fftBf3_spec z A B w m src dst hw hs hd
  refine ⟨_, y', rfl, h1, h2, stageErr_step x S _ _ B m 3 γ _ hB (by decide) hS hF hC h fun i j s hi hj hs2 q σ hq => ?_⟩
  obtain ⟨a0, a1, a2, a3⟩ := hq 0 (by decide)
  obtain ⟨b0, b1, b2, b3⟩ := hq 1 (by decide)
  obtain ⟨c0, c1, c2, c3⟩ := hq 2 (by decide)
  rw [Nat.zero_mul, Nat.add_zero] at a3
  rw [Nat.one_mul] at b3
  have hk : s * B + j < 3 * B := mul_lt_of hs2 hj
  have := err3 A v hA (cAt z src (i * B + j)) (cAt z src (i * B + j + m * B)) (cAt z src (i * B + j + 2 * (m * B))) (cAt z w (2 * (s * B + j)))
    (cAt z w (2 * (s * B + j) + 1)) (q 0) (q 1) (q 2) (W (3 * B) (s * B + j)) (W (3 * B) (2 * (s * B + j))) (σ 0) (σ 1) (σ 2) γ
    a1 b1 c1 a2 b2 c2 hγ0 hγ a0 b0 c0 a3 b3 c3 (W_norm _ _) (W_norm _ _) (hW _ hk).1 (hW _ hk).2
  rw [h3 i j s hi hj hs2]
  simp only [Finset.sum_range_succ, Finset.sum_range_zero, zero_add, Nat.mul_zero, Nat.mul_one]
  rw [W_zero, mul_one, Nat.mul_comm (s * B + j) 2]
  exact this

/-! ### The loops -/

theorem loop3_err (A : Arith R) (v : R → ℝ) (hA : Approx A v) (z : R) (T : MdctTables R) (x : ℕ → ℂ) (S : ℕ → ℝ)
    (hF : ∀ l, 1 / 2 ^ 110 ≤ S l) (b : ℕ) : ∀ (a i3 fuel B : ℕ) (γ : ℝ) (swap : Bool) (src dst : List R), a < fuel → 0 < B →
    0 ≤ γ → γ + a * (90 / 10 ^ 8) ≤ 1 / 1000 → (∀ l, l < B * (3 ^ a * 2 ^ b) → ‖x l‖ ≤ S l) →
    (∀ i, i < a → NearBf3 v z (B * 3 ^ i) (T.bf3 (i3 + i))) → ∑ k ∈ range (B * (3 ^ a * 2 ^ b)), S k ≤ 2 ^ 110 →
    2 * (B * (3 ^ a * 2 ^ b)) ≤ src.length →
    2 * (B * (3 ^ a * 2 ^ b)) ≤ dst.length → StageErr x S B (3 ^ a * 2 ^ b) γ (fun k => vc v (cAt z src k)) →
    ∃ swap' src' dst', fftLoop3 A T fuel (3 ^ a * 2 ^ b) i3 swap src dst = some (2 ^ b, i3 + a, swap', src', dst') ∧
      (if swap' = swap then src'.length = src.length ∧ dst'.length = dst.length else src'.length = dst.length ∧ dst'.length = src.length) ∧
      StageErr x S (B * 3 ^ a) (2 ^ b) (γ + a * (90 / 10 ^ 8)) (fun k => vc v (cAt z src' k)) := by
  intro a
  induction a with
  | zero =>
    intro i3 fuel B γ swap src dst hf _ _ _ _ _ _ _ _ hs
    obtain ⟨f, rfl⟩ : ∃ f, fuel = f + 1 := ⟨fuel - 1, by omega⟩
    rw [Nat.pow_zero, Nat.one_mul] at hs ⊢
    refine ⟨swap, src, dst, ?_, by rw [if_pos rfl]; exact ⟨rfl, rfl⟩, by rw [Nat.mul_one, Nat.cast_zero, zero_mul, add_zero]; exact hs⟩
    rw [fftLoop3, if_pos (and_pred_pow2 b)]; rfl
  | succ a ih =>
    intro i3 fuel B γ swap src dst hf hB hγ0 hγ hS hT hC hs hd hSt
    obtain ⟨f, rfl⟩ : ∃ f, fuel = f + 1 := ⟨fuel - 1, by omega⟩
    have e : 3 ^ (a + 1) * 2 ^ b = 3 * (3 ^ a * 2 ^ b) := by ring
    have ht := hT 0 (by omega)
    rw [Nat.pow_zero, Nat.mul_one, Nat.add_zero] at ht
    have ha0 : (0 : ℝ) ≤ a := Nat.cast_nonneg a
    push_cast at hγ
    obtain ⟨t, y', h1, h2, h3, h4⟩ := stageErr3 A v hA z x S B (3 ^ a * 2 ^ b) γ hγ0 (by linarith) (T.bf3 i3) ht hB (by rw [← e, Nat.mul_comm]; exact hS) hF
      (by rw [← e, Nat.mul_comm]; exact hC) src dst (by rw [← e]; exact hs) (by rw [← e]; exact hd) (by rw [← e]; exact hSt)
    have e2 : B * (3 ^ (a + 1) * 2 ^ b) = 3 * B * (3 ^ a * 2 ^ b) := by ring
    rw [e2] at hs hd hC hS
    obtain ⟨sw, src', dst', g1, g2, g3⟩ := ih (i3 + 1) f (3 * B) (γ + 90 / 10 ^ 8) (!swap) y' src (by omega) (by omega) (by linarith) (by linarith) hS
      (fun i hi => by
        have := hT (i + 1) (by omega)
        rw [show 3 * B * 3 ^ i = B * 3 ^ (i + 1) by ring, show i3 + 1 + i = i3 + (i + 1) by omega]
        exact this) hC (by rw [h3]; exact hd) hs h4
    refine ⟨sw, src', dst', ?_, ?_, by
      rw [show B * 3 ^ (a + 1) = 3 * B * 3 ^ a by ring, show γ + ((a + 1 : ℕ) : ℝ) * (90 / 10 ^ 8) = γ + 90 / 10 ^ 8 + a * (90 / 10 ^ 8) by push_cast; ring]
      exact g3⟩
    · rw [fftLoop3, if_neg (and_pred_ne a b), h1, Option.bind_some, show 3 ^ (a + 1) * 2 ^ b / 3 = 3 ^ a * 2 ^ b by omega, h2,
        Option.bind_some, g1, show i3 + 1 + a = i3 + (a + 1) by omega]
    · rw [h3] at g2
      by_cases hw : sw = swap
      · subst hw; rw [if_neg (by simp)] at g2; rw [if_pos rfl]; exact g2
      · rw [if_pos (by revert hw; cases sw <;> cases swap <;> simp)] at g2; rw [if_neg hw]; exact g2

theorem loop2_err (A : Arith R) (v : R → ℝ) (hA : Approx A v) (z : R) (T : MdctTables R) (x : ℕ → ℂ) (S : ℕ → ℝ)
    (hF : ∀ l, 1 / 2 ^ 110 ≤ S l) (i3 : ℕ) : ∀ (b i2 fuel B : ℕ) (γ : ℝ) (swap : Bool) (src dst : List R), b < fuel → 0 < B →
    0 ≤ γ → γ + b * (56 / 10 ^ 8) ≤ 1 / 1000 → (∀ l, l < B * 2 ^ b → ‖x l‖ ≤ S l) →
    (∀ i, i < b → NearBf2 v z (B * 2 ^ i) (T.bf2 (i2 + i) i3)) → ∑ k ∈ range (B * 2 ^ b), S k ≤ 2 ^ 110 → 2 * (B * 2 ^ b) ≤ src.length →
    2 * (B * 2 ^ b) ≤ dst.length → StageErr x S B (2 ^ b) γ (fun k => vc v (cAt z src k)) →
    ∃ swap' src' dst', fftLoop2 A T i3 fuel (2 ^ b) i2 swap src dst = some (swap', src', dst') ∧
      (if swap' = swap then src'.length = src.length ∧ dst'.length = dst.length else src'.length = dst.length ∧ dst'.length = src.length) ∧
      StageErr x S (B * 2 ^ b) 1 (γ + b * (56 / 10 ^ 8)) (fun k => vc v (cAt z src' k)) := by
  intro b
  induction b with
  | zero =>
    intro i2 fuel B γ swap src dst hf _ _ _ _ _ _ _ _ hs
    obtain ⟨f, rfl⟩ : ∃ f, fuel = f + 1 := ⟨fuel - 1, by omega⟩
    refine ⟨swap, src, dst, ?_, by rw [if_pos rfl]; exact ⟨rfl, rfl⟩, by rw [Nat.pow_zero, Nat.mul_one, Nat.cast_zero, zero_mul, add_zero]; exact hs⟩
    rw [fftLoop2, if_pos (by decide)]
  | succ b ih =>
    intro i2 fuel B γ swap src dst hf hB hγ0 hγ hS hT hC hs hd hSt
    obtain ⟨f, rfl⟩ : ∃ f, fuel = f + 1 := ⟨fuel - 1, by omega⟩
    have e : 2 ^ (b + 1) = 2 * 2 ^ b := by ring
    have ht := hT 0 (by omega)
    rw [Nat.pow_zero, Nat.mul_one, Nat.add_zero] at ht
    have ha0 : (0 : ℝ) ≤ b := Nat.cast_nonneg b
    push_cast at hγ
    obtain ⟨t, y', h1, h2, h3, h4⟩ := stageErr2 A v hA z x S B (2 ^ b) γ hγ0 (by linarith) (T.bf2 i2 i3) ht hB (by rw [← e, Nat.mul_comm]; exact hS) hF
      (by rw [← e, Nat.mul_comm]; exact hC) src dst (by rw [← e]; exact hs) (by rw [← e]; exact hd) (by rw [← e]; exact hSt)
    have e2 : B * 2 ^ (b + 1) = 2 * B * 2 ^ b := by ring
    rw [e2] at hs hd hC hS
    obtain ⟨sw, src', dst', g1, g2, g3⟩ := ih (i2 + 1) f (2 * B) (γ + 56 / 10 ^ 8) (!swap) y' src (by omega) (by omega) (by linarith) (by linarith) hS
      (fun i hi => by
        have := hT (i + 1) (by omega)
        rw [show 2 * B * 2 ^ i = B * 2 ^ (i + 1) by ring, show i2 + 1 + i = i2 + (i + 1) by omega]
        exact this) hC (by rw [h3]; exact hd) hs h4
    have hpos := Nat.pow_pos (n := b) (show 0 < 2 by decide)
    refine ⟨sw, src', dst', ?_, ?_, by
      rw [e2, show γ + ((b + 1 : ℕ) : ℝ) * (56 / 10 ^ 8) = γ + 56 / 10 ^ 8 + b * (56 / 10 ^ 8) by push_cast; ring]
      exact g3⟩
    · rw [fftLoop2, if_neg (by omega), h1, Option.bind_some, show 2 ^ (b + 1) / 2 = 2 ^ b by omega, h2, Option.bind_some, g1]
    · rw [h3] at g2
      by_cases hw : sw = swap
      · subst hw; rw [if_neg (by simp)] at g2; rw [if_pos rfl]; exact g2
      · rw [if_pos (by revert hw; cases sw <;> cases swap <;> simp)] at g2; rw [if_neg hw]; exact g2

/-- Tables for the transform of `5 * 3^a * 2^b` points, within a tolerance. -/
structure NearFft (v : R → ℝ) (z : R) (T : MdctTables R) (a b : ℕ) : Prop where
  c5 : Near5 v T
  bf3 : ∀ i, i < a → NearBf3 v z (5 * 3 ^ i) (T.bf3 i)
  bf2 : ∀ i, i < b → NearBf2 v z (5 * 3 ^ a * 2 ^ i) (T.bf2 i a)

/-- The relative error of the transform. -/
noncomputable def fftTol (a b : ℕ) : ℝ := 110 / 10 ^ 8 + a * (90 / 10 ^ 8) + b * (56 / 10 ^ 8)

/-- `F` computes the discrete Fourier transform of `m` points, within `tol` of the sum of the magnitudes of the inputs. -/
def FftOk (v : R → ℝ) (z : R) (F : List R → List R → Option (Bool × List R × List R)) (m : ℕ) (tol : ℝ) : Prop :=
  ∀ (y0 y1 : List R) (S : ℕ → ℝ), (∀ l, l < m → ‖vc v (cAt z y0 l)‖ ≤ S l) → (∀ l, 1 / 2 ^ 110 ≤ S l) → ∑ k ∈ range m, S k ≤ 2 ^ 110 →
    2 * m ≤ y0.length → 2 * m ≤ y1.length → ∃ in0 z0 z1, F y0 y1 = some (in0, z0, z1) ∧ z0.length = y0.length ∧ z1.length = y1.length ∧
      ∀ k, k < m → ‖vc v (cAt z (if in0 then z0 else z1) k) - ∑ l ∈ range m, vc v (cAt z y0 l) * W m (k * l)‖ ≤ tol * ∑ l ∈ range m, S l

theorem fft_err (A : Arith R) (v : R → ℝ) (hA : Approx A v) (z : R) (T : MdctTables R) (a b : ℕ) (hT : NearFft v z T a b) (hab : fftTol a b ≤ 1 / 1000)
    (y0 y1 : List R) (S : ℕ → ℝ) (hS : ∀ l, l < 5 * 3 ^ a * 2 ^ b → ‖vc v (cAt z y0 l)‖ ≤ S l) (hF : ∀ l, 1 / 2 ^ 110 ≤ S l)
    (hC : ∑ k ∈ range (5 * 3 ^ a * 2 ^ b), S k ≤ 2 ^ 110) (h0 : 2 * (5 * 3 ^ a * 2 ^ b) ≤ y0.length) (h1 : 2 * (5 * 3 ^ a * 2 ^ b) ≤ y1.length) :
    ∃ in0 z0 z1, fft A T (5 * 3 ^ a * 2 ^ b) y0 y1 = some (in0, z0, z1) ∧ z0.length = y0.length ∧ z1.length = y1.length ∧
      ∀ k, k < 5 * 3 ^ a * 2 ^ b → ‖vc v (cAt z (if in0 then z0 else z1) k) -
        ∑ l ∈ range (5 * 3 ^ a * 2 ^ b), vc v (cAt z y0 l) * W (5 * 3 ^ a * 2 ^ b) (k * l)‖ ≤ fftTol a b * ∑ l ∈ range (5 * 3 ^ a * 2 ^ b), S l := by
  have e : 5 * 3 ^ a * 2 ^ b = 5 * (3 ^ a * 2 ^ b) := by ring
  have hpa := Nat.pow_pos (n := a) (show 0 < 3 by decide)
  have ha : a < 3 ^ a * 2 ^ b + 1 := by
    have h2 : 3 ^ a ≤ 3 ^ a * 2 ^ b := Nat.le_mul_of_pos_right _ (Nat.pow_pos (by decide))
    have h3 : a < 3 ^ a := Nat.lt_pow_self (by decide)
    omega
  have hb : b < 2 ^ b + 1 := by have : b < 2 ^ b := Nat.lt_pow_self (by decide)
                                omega
  have a0 : (0 : ℝ) ≤ a := Nat.cast_nonneg a
  have b0 : (0 : ℝ) ≤ b := Nat.cast_nonneg b
  unfold fftTol at hab ⊢
  obtain ⟨u1, f1, f2, f3⟩ := stageErr5 A v hA z T hT.c5 (3 ^ a * 2 ^ b) y0 y1 S (by rw [← e]; exact hS) hF (by rw [← e]; exact hC) (by omega) (by omega)
  obtain ⟨sw, s2, d2, g1, g2, g3⟩ := loop3_err A v hA z T _ S hF b a 0 (3 ^ a * 2 ^ b + 1) 5 (110 / 10 ^ 8) false u1 y0 ha (by decide)
    (by positivity) (by linarith) (by rw [← e]; exact hS) (fun i hi => by rw [Nat.zero_add]; exact hT.bf3 i hi) (by rw [← e]; exact hC) (by omega) (by omega) f3
  have hL : 2 * (5 * 3 ^ a * 2 ^ b) ≤ s2.length ∧ 2 * (5 * 3 ^ a * 2 ^ b) ≤ d2.length := by
    by_cases hsw : sw = false
    · rw [if_pos hsw] at g2; omega
    · rw [if_neg hsw] at g2; omega
  obtain ⟨sw', s3, d3, k1, k2, k3⟩ := loop2_err A v hA z T _ S hF a b 0 (2 ^ b + 1) (5 * 3 ^ a) (110 / 10 ^ 8 + a * (90 / 10 ^ 8)) sw s2 d2 hb (by omega)
    (by positivity) hab hS (fun i hi => by rw [Nat.zero_add]; exact hT.bf2 i hi) hC hL.1 hL.2 g3
  refine ⟨sw', if sw' then s3 else d3, if sw' then d3 else s3, ?_, ?_, ?_, ?_⟩
  · unfold fft
    rw [show 5 * 3 ^ a * 2 ^ b / 5 = 3 ^ a * 2 ^ b by omega, f1]
    dsimp only [bind, Option.bind]
    rw [g1]
    dsimp only
    rw [Nat.zero_add, k1]
    cases sw' <;> rfl
  · revert g2 k2; rw [f2]; cases sw <;> cases sw' <;> simp <;> intros <;> omega
  · revert g2 k2; rw [f2]; cases sw <;> cases sw' <;> simp <;> intros <;> omega
  · intro k hk
    have := k3 0 k (by decide) hk
    rw [Nat.zero_mul, Nat.zero_add] at this
    simp only [Nat.zero_add, Nat.mul_one] at this
    rw [show (if sw' = true then (if sw' = true then s3 else d3) else (if sw' = true then d3 else s3)) = s3 by cases sw' <;> rfl]
    exact this

theorem fftOk (A : Arith R) (v : R → ℝ) (hA : Approx A v) (z : R) (T : MdctTables R) (a b m : ℕ) (hm : m = 5 * 3 ^ a * 2 ^ b) (hT : NearFft v z T a b)
    (hab : fftTol a b ≤ 1 / 1000) : FftOk v z (fft A T m) m (fftTol a b) := by
  subst hm
  exact fun y0 y1 S hS hF hC h0 h1 => fft_err A v hA z T a b hT hab y0 y1 S hS hF hC h0 h1

end LC3
