import Verif.Lemmas.Twiddle
import Verif.Lemmas.LtpfAnalysis
import Verif.Model.SnsTables
import Verif.Props.LtpfStable
import Verif.Model.Shaping
import Verif.Model.Tns
import Verif.Model.Frame
import Mathlib.Analysis.SpecialFunctions.Pow.Real
import Mathlib.Algebra.BigOperators.Intervals

/-!
# C75: the constants are those of their formulas

The tables of the resampler, of the interpolators, of TNS, of the cosine transform of the scale factors, of the pre-emphasis and of the gains are
compared, entry by entry, to the formulas they come from (tables/mktables.py and the specification).
-/

namespace LC3

/-! ### Trigonometric functions -/

/-- `exp(2 i pi k / n)` in fixed point. -/
def powI (n : Nat) : Nat → Int × Int
  | 0 => (2 ^ 64, 0)
  | k + 1 => cmulI (powI n k) (rootI n)

theorem powI_err (n : Nat) (hn : 10 ≤ n) : ∀ k ≤ 1000,
    ‖fx (powI n k) - Complex.exp (((2 * Real.pi * k / n : ℝ) : ℂ) * Complex.I)‖ ≤ k / 2 ^ 40
  | 0, _ => by
    have h := one_err
    simpa [powI] using h
  | k + 1, hk => by
    have ih := powI_err n hn k (by omega)
    have h := walk_step (rootI n) (powI n k) _ _ (le_of_eq (Complex.norm_exp_ofReal_mul_I _)) (le_of_eq (Complex.norm_exp_ofReal_mul_I _)) (root_err n hn)
      (k / 2 ^ 40) (by
        have : (k : ℝ) ≤ 1000 := by exact_mod_cast (by omega : k ≤ 1000)
        rw [div_le_iff₀ (by positivity)]; linarith) ih
    rw [← Complex.exp_add] at h
    have e : (((2 * Real.pi * k / n : ℝ) : ℂ) * Complex.I + ((2 * Real.pi / n : ℝ) : ℂ) * Complex.I) =
        ((2 * Real.pi * (k + 1 : ℕ) / n : ℝ) : ℂ) * Complex.I := by push_cast; ring
    rw [e] at h
    refine h.trans (le_of_eq ?_)
    push_cast; ring

theorem powI_cos (n : Nat) (hn : 10 ≤ n) (k : Nat) (hk : k ≤ 1000) :
    |((powI n k).1 : ℝ) / 2 ^ 64 - Real.cos (2 * Real.pi * k / n)| ≤ (k : ℝ) / 2 ^ 40 := by
  refine le_trans ?_ (powI_err n hn k hk)
  refine le_trans (le_of_eq ?_) (Complex.abs_re_le_norm _)
  rw [Complex.sub_re, Complex.exp_ofReal_mul_I_re]; rfl

theorem powI_sin (n : Nat) (hn : 10 ≤ n) (k : Nat) (hk : k ≤ 1000) :
    |((powI n k).2 : ℝ) / 2 ^ 64 - Real.sin (2 * Real.pi * k / n)| ≤ (k : ℝ) / 2 ^ 40 := by
  refine le_trans ?_ (powI_err n hn k hk)
  refine le_trans (le_of_eq ?_) (Complex.abs_im_le_norm _)
  rw [Complex.sub_im, Complex.exp_ofReal_mul_I_im]; rfl

/-- A rational number near a number in fixed point. -/
def nearQ (v : Rat) (c : Int) (tol : Rat) : Bool := decide (|v - (c : Rat) / 2 ^ 64| ≤ tol)

theorem nearQ_real (v : Rat) (c : Int) (tol : Rat) (h : nearQ v c tol = true) : |(v : ℝ) - (c : ℝ) / 2 ^ 64| ≤ (tol : ℝ) := by
  have := of_decide_eq_true h
  exact_mod_cast this

theorem near_sin (n k : Nat) (hn : 10 ≤ n) (hk : k ≤ 1000) (v tol : Rat) (h : nearQ v (powI n k).2 tol = true) :
    |(v : ℝ) - Real.sin (2 * Real.pi * k / n)| ≤ tol + k / 2 ^ 40 :=
  le_trans (abs_sub_le _ _ _) (add_le_add (nearQ_real _ _ _ h) (powI_sin n hn k hk))

theorem near_cos (n k : Nat) (hn : 10 ≤ n) (hk : k ≤ 1000) (v tol : Rat) (h : nearQ v (powI n k).1 tol = true) :
    |(v : ℝ) - Real.cos (2 * Real.pi * k / n)| ≤ tol + k / 2 ^ 40 :=
  le_trans (abs_sub_le _ _ _) (add_le_add (nearQ_real _ _ _ h) (powI_cos n hn k hk))

theorem tnsThr_check : ∀ i < 8, nearQ (tnsThr.getD i 0) (powI 68 (2 * i + 1)).2 (1 / 65536 - 1 / 2 ^ 30) = true := by decide +kernel

theorem tnsInv_check : ∀ i < 9, nearQ (tnsInv.getD i 0) (powI 68 (2 * i)).2 (1 / 65536 - 1 / 2 ^ 30) = true := by decide +kernel

/-- **C75.** The thresholds of the quantisation of the reflection coefficients of TNS are the sines of the middles of the steps of an arc divided by 17,
rounded to 15 bits. -/
theorem C75_tns_thresholds : tnsThr.length = 8 ∧ ∀ i < 8, |((tnsThr.getD i 0 : Rat) : ℝ) - Real.sin ((i + 1 / 2) * Real.pi / 17)| < 1 / 2 ^ 16 := by
  refine ⟨rfl, fun i hi => ?_⟩
  have h := near_sin 68 (2 * i + 1) (by norm_num) (by omega) _ _ (tnsThr_check i hi)
  rw [show (i + 1 / 2 : ℝ) * Real.pi / 17 = 2 * Real.pi * ((2 * i + 1 : ℕ) : ℝ) / (68 : ℕ) by push_cast; ring]
  refine lt_of_le_of_lt h ?_
  have : ((2 * i + 1 : ℕ) : ℝ) ≤ 15 := by exact_mod_cast (by omega : 2 * i + 1 ≤ 15)
  have h2 : ((2 * i + 1 : ℕ) : ℝ) / 2 ^ 40 ≤ 15 / 2 ^ 40 := div_le_div_of_nonneg_right this (by positivity)
  push_cast at h2 ⊢
  norm_num at h2 ⊢
  linarith

/-- **C75.** The quantised reflection coefficients of TNS are the sines of the ends of these steps, rounded to 15 bits. -/
theorem C75_tns_values : tnsInv.length = 9 ∧ ∀ i < 9, |((tnsInv.getD i 0 : Rat) : ℝ) - Real.sin (i * Real.pi / 17)| < 1 / 2 ^ 16 := by
  refine ⟨rfl, fun i hi => ?_⟩
  have h := near_sin 68 (2 * i) (by norm_num) (by omega) _ _ (tnsInv_check i hi)
  rw [show (i : ℝ) * Real.pi / 17 = 2 * Real.pi * ((2 * i : ℕ) : ℝ) / (68 : ℕ) by push_cast; ring]
  refine lt_of_le_of_lt h ?_
  have : ((2 * i : ℕ) : ℝ) ≤ 16 := by exact_mod_cast (by omega : 2 * i ≤ 16)
  have h2 : ((2 * i : ℕ) : ℝ) / 2 ^ 40 ≤ 16 / 2 ^ 40 := div_le_div_of_nonneg_right this (by positivity)
  push_cast at h2 ⊢
  norm_num at h2 ⊢
  linarith

example : tnsThr.getD 3 0 = 19747 / 32768 := by decide +kernel

/-- The cosine in fixed point, multiplied by the square root of 1/8. -/
def dctI (m : Nat) : Rat := (((powI 64 ((m + 8) % 64)).1 + (powI 64 ((m + 56) % 64)).1 : Int) : Rat) / 2 ^ 66

theorem dct_check : ∀ j < 16, ∀ k < 16, 0 < k → |(dct16M.getD j []).getD k 0 - dctI (k * (2 * j + 1) % 64)| ≤ 1 / 10 ^ 9 := by decide +kernel

theorem dct_check0 : ∀ j < 16, (dct16M.getD j []).getD 0 0 = 1 / 4 := by decide +kernel

theorem cos_mod (m : Nat) : Real.cos (2 * Real.pi * ((m % 64 : ℕ) : ℝ) / (64 : ℕ)) = Real.cos (2 * Real.pi * (m : ℝ) / 64) := by
  have h := Nat.mod_add_div m 64
  have e : 2 * Real.pi * (m : ℝ) / 64 = 2 * Real.pi * ((m % 64 : ℕ) : ℝ) / (64 : ℕ) + ((m / 64 : ℕ) : ℝ) * (2 * Real.pi) := by
    conv_lhs => rw [← h]
    push_cast; ring
  rw [e, Real.cos_add_nat_mul_two_pi]

theorem dctI_real (m : Nat) : |((dctI m : Rat) : ℝ) - Real.sqrt (1 / 8) * Real.cos (2 * Real.pi * m / 64)| ≤ 1 / 10 ^ 9 := by
  have h1 := powI_cos 64 (by norm_num) ((m + 8) % 64) (by omega)
  have h2 := powI_cos 64 (by norm_num) ((m + 56) % 64) (by omega)
  rw [cos_mod] at h1 h2
  have c1 : (((m + 8) % 64 : ℕ) : ℝ) / 2 ^ 40 ≤ 1 / 10 ^ 10 := by
    have : (((m + 8) % 64 : ℕ) : ℝ) ≤ 64 := by exact_mod_cast (by omega : (m + 8) % 64 ≤ 64)
    rw [div_le_iff₀ (by positivity)]; norm_num; linarith
  have c2 : (((m + 56) % 64 : ℕ) : ℝ) / 2 ^ 40 ≤ 1 / 10 ^ 10 := by
    have : (((m + 56) % 64 : ℕ) : ℝ) ≤ 64 := by exact_mod_cast (by omega : (m + 56) % 64 ≤ 64)
    rw [div_le_iff₀ (by positivity)]; norm_num; linarith
  have hs : Real.sqrt (1 / 8) = Real.cos (Real.pi / 4) / 2 := by
    rw [Real.cos_pi_div_four, show (1 / 8 : ℝ) = (Real.sqrt 2 / 2 / 2) ^ 2 by
      rw [div_pow, div_pow, Real.sq_sqrt (by norm_num)]; norm_num, Real.sqrt_sq (by positivity)]
  have e1 : Real.cos (2 * Real.pi * ((m + 8 : ℕ) : ℝ) / 64) = Real.cos (2 * Real.pi * m / 64 + Real.pi / 4) := by congr 1; push_cast; ring
  have e2 : Real.cos (2 * Real.pi * ((m + 56 : ℕ) : ℝ) / 64) = Real.cos (2 * Real.pi * m / 64 - Real.pi / 4) := by
    rw [← Real.cos_add_two_pi (2 * Real.pi * m / 64 - Real.pi / 4)]
    congr 1; push_cast; ring
  rw [e1, Real.cos_add] at h1
  rw [e2, Real.cos_sub] at h2
  unfold dctI
  rw [hs]
  push_cast
  generalize ((powI 64 ((m + 8) % 64)).1 : ℝ) = P at *
  generalize ((powI 64 ((m + 56) % 64)).1 : ℝ) = Q at *
  generalize Real.cos (2 * Real.pi * m / 64) = C at *
  generalize Real.cos (Real.pi / 4) = D at *
  generalize Real.sin (2 * Real.pi * m / 64) * Real.sin (Real.pi / 4) = S at *
  rw [abs_le] at h1 h2 ⊢
  have e : (P + Q) / 2 ^ 66 - D / 2 * C = ((P / 2 ^ 64 - (C * D - S)) + (Q / 2 ^ 64 - (C * D + S))) / 4 := by ring
  rw [e]
  constructor
  · have := h1.1; have := h2.1; norm_num at *; linarith
  · have := h1.2; have := h2.2; norm_num at *; linarith

/-- **C75.** The matrix of the cosine transform of the scale factors is the orthogonal one, with an error of two units of the ninth decimal at most. -/
theorem C75_dct (j k : Nat) (hj : j < 16) (hk : k < 16) :
    |(((dct16M.getD j []).getD k 0 : Rat) : ℝ) - Real.sqrt ((if k = 0 then 1 else 2) / 16) * Real.cos (Real.pi * k * (2 * j + 1) / 32)| ≤ 2 / 10 ^ 9 := by
  by_cases h0 : k = 0
  · subst h0
    rw [dct_check0 j hj, if_pos rfl, show (1 / 16 : ℝ) = (1 / 4) ^ 2 by norm_num, Real.sqrt_sq (by norm_num)]
    norm_num
  · rw [if_neg h0, show (2 / 16 : ℝ) = 1 / 8 by norm_num]
    have h1 := dct_check j hj k hk (by omega)
    have h1' : |(((dct16M.getD j []).getD k 0 : Rat) : ℝ) - ((dctI (k * (2 * j + 1) % 64) : Rat) : ℝ)| ≤ 1 / 10 ^ 9 := by
      have : ((|(dct16M.getD j []).getD k 0 - dctI (k * (2 * j + 1) % 64)| : Rat) : ℝ) ≤ ((1 / 10 ^ 9 : Rat) : ℝ) := Rat.cast_le.mpr h1
      push_cast at this; exact this
    have h2 := dctI_real (k * (2 * j + 1) % 64)
    have h3 := cos_mod (k * (2 * j + 1))
    rw [show ((64 : ℕ) : ℝ) = 64 by norm_num] at h3
    rw [h3, show 2 * Real.pi * ((k * (2 * j + 1) : ℕ) : ℝ) / 64 = Real.pi * k * (2 * j + 1) / 32 by push_cast; ring] at h2
    refine le_trans (abs_sub_le _ _ _) (le_trans (add_le_add h1' h2) (by norm_num))

/-! ### Powers -/

/-- `v` is `b^(p/q)` within `v 5.1e-9`. -/
def nearPow (v : Rat) (b p q : Nat) : Bool :=
  decide (0 < v.num) && Nat.ble (((10 ^ 10 - 51) * v.num.natAbs) ^ q) (b ^ p * (10 ^ 10 * v.den) ^ q) &&
    Nat.ble (b ^ p * (10 ^ 10 * v.den) ^ q) (((10 ^ 10 + 51) * v.num.natAbs) ^ q)

theorem nearPow_real (v : Rat) (b p q : Nat) (hb : 0 < b) (hq : 0 < q) (h : nearPow v b p q = true) :
    |(v : ℝ) - (b : ℝ) ^ ((p : ℝ) / q)| ≤ 51 / 10 ^ 10 * v := by
  unfold nearPow at h
  rw [Bool.and_eq_true, Bool.and_eq_true, decide_eq_true_eq] at h
  obtain ⟨⟨h0, h1⟩, h2⟩ := h
  have h1 := Nat.le_of_ble_eq_true h1
  have h2 := Nat.le_of_ble_eq_true h2
  have hv : (v : ℝ) = (v.num.natAbs : ℝ) / v.den := by
    conv_lhs => rw [← Rat.num_div_den v]
    push_cast
    congr 1
    have : (v.num.natAbs : ℤ) = v.num := Int.natAbs_of_nonneg h0.le
    rw [← Int.cast_natCast, this]
  have hd : (0 : ℝ) < v.den := by exact_mod_cast v.den_pos
  have hn : (0 : ℝ) < v.num.natAbs := by exact_mod_cast (Int.natAbs_pos.mpr h0.ne')
  generalize v.num.natAbs = n at *
  generalize v.den = d at *
  have hb' : (0 : ℝ) < b := by exact_mod_cast hb
  set r : ℝ := (b : ℝ) ^ ((p : ℝ) / q) with hr
  have r0 : 0 ≤ r := (Real.rpow_pos_of_pos hb' _).le
  have rq : r ^ q = (b : ℝ) ^ p := by
    rw [hr, ← Real.rpow_natCast, ← Real.rpow_mul hb'.le, div_mul_cancel₀ _ (by exact_mod_cast hq.ne'), Real.rpow_natCast]
  have h1' : (((10 : ℝ) ^ 10 - 51) * n) ^ q ≤ (r * (10 ^ 10 * d)) ^ q := by
    rw [mul_pow r, rq]
    have : ((((10 ^ 10 - 51) * n) ^ q : ℕ) : ℝ) ≤ ((b ^ p * (10 ^ 10 * d) ^ q : ℕ) : ℝ) := Nat.cast_le.mpr h1
    push_cast at this
    norm_num at this ⊢
    exact this
  have h2' : (r * (10 ^ 10 * d)) ^ q ≤ (((10 : ℝ) ^ 10 + 51) * n) ^ q := by
    rw [mul_pow r, rq]
    have : ((b ^ p * (10 ^ 10 * d) ^ q : ℕ) : ℝ) ≤ ((((10 ^ 10 + 51) * n) ^ q : ℕ) : ℝ) := Nat.cast_le.mpr h2
    push_cast at this
    norm_num at this ⊢
    exact this
  have g1 := (pow_le_pow_iff_left₀ (by norm_num) (by positivity) hq.ne').mp h1'
  have g2 := (pow_le_pow_iff_left₀ (by positivity) (by positivity) hq.ne').mp h2'
  rw [hv]
  rw [abs_le]
  have e : r = (r * (10 ^ 10 * d)) / (10 ^ 10 * d) := by field_simp
  constructor
  · rw [e, ← sub_nonneg]
    have : (n : ℝ) / d - r * (10 ^ 10 * d) / (10 ^ 10 * d) - -(51 / 10 ^ 10 * (n / d)) = (((10 : ℝ) ^ 10 + 51) * n - r * (10 ^ 10 * d)) / (10 ^ 10 * d) := by
      field_simp; ring
    rw [this]
    exact div_nonneg (by linarith) (by positivity)
  · rw [e, ← sub_nonneg]
    have : 51 / 10 ^ 10 * ((n : ℝ) / d) - ((n : ℝ) / d - r * (10 ^ 10 * d) / (10 ^ 10 * d)) = (r * (10 ^ 10 * d) - ((10 : ℝ) ^ 10 - 51) * n) / (10 ^ 10 * d) := by
      field_simp; ring
    rw [this]
    exact div_nonneg (by linarith) (by positivity)

/-- The tilt, in dB, of the pre-emphasis of the scale factors. -/
def tilt : Srate → Nat
  | .k8 => 14
  | .k16 => 18
  | .k24 => 22
  | .k32 => 26
  | .k48 | .k48hr => 30
  | .k96hr => 34

theorem ge_check (sr : Srate) : (geTable sr).length = 64 ∧ ∀ i < 64, nearPow ((geTable sr).getD i 0) 10 (i * tilt sr) 630 = true := by
  cases sr <;> decide +kernel

/-- **C75.** The pre-emphasis raises the energy of the 64 bands by a slope of `tilt` dB over 63 bands. -/
theorem C75_tilt (sr : Srate) : (geTable sr).length = 64 ∧
    ∀ i < 64, |(((geTable sr).getD i 0 : Rat) : ℝ) - (10 : ℝ) ^ (((i * tilt sr : ℕ) : ℝ) / 630)| ≤ 51 / 10 ^ 10 * ((geTable sr).getD i 0 : Rat) := by
  obtain ⟨h1, h2⟩ := ge_check sr
  exact ⟨h1, fun i hi => by simpa using nearPow_real _ 10 _ 630 (by norm_num) (by norm_num) (h2 i hi)⟩

theorem iq_check : iqTable.length = 28 ∧ ∀ i < 28, nearPow (iqTable.getD i 0) 10 i 28 = true := by decide +kernel

/-- **C75.** The steps of the gain are those of a decade divided by 28. -/
theorem C75_gain : iqTable.length = 28 ∧
    ∀ i < 28, |((iqTable.getD i 0 : Rat) : ℝ) - (10 : ℝ) ^ ((i : ℝ) / 28)| ≤ 51 / 10 ^ 10 * (iqTable.getD i 0 : Rat) :=
  ⟨iq_check.1, fun i hi => by simpa using nearPow_real _ 10 _ 28 (by norm_num) (by norm_num) (iq_check.2 i hi)⟩

/-! ### Window of the autocorrelation -/

/-- `exp(-0.0002 pi^2)`, approached. -/
def lagBase : Rat := 998028026020 / 10 ^ 12

theorem lag_base : |Real.exp (-(2 / 10000 * Real.pi ^ 2)) - (lagBase : ℝ)| ≤ 3 / 10 ^ 12 := by
  have p1 := Real.pi_gt_d20
  have p2 := Real.pi_lt_d20
  have hx : |(-(2 / 10000 * Real.pi ^ 2))| ≤ 1 / 500 := by
    rw [abs_neg, abs_of_nonneg (by positivity)]; nlinarith
  have h := Real.exp_bound (x := -(2 / 10000 * Real.pi ^ 2)) (le_trans hx (by norm_num)) (n := 5) (by norm_num)
  have hs : |(-(2 / 10000 * Real.pi ^ 2))| ^ 5 * ((5 : ℕ).succ / ((5 : ℕ).factorial * (5 : ℕ)) : ℝ) ≤ 1 / 10 ^ 12 := by
    have : |(-(2 / 10000 * Real.pi ^ 2))| ^ 5 ≤ (1 / 500) ^ 5 := pow_le_pow_left₀ (abs_nonneg _) hx 5
    refine le_trans (mul_le_mul_of_nonneg_right this (by positivity)) ?_
    norm_num [Nat.factorial]
  have h2 := le_trans h hs
  simp only [Finset.sum_range_succ, Finset.sum_range_zero, Nat.factorial] at h2
  set a : ℝ := 2 / 10000 * Real.pi ^ 2 with ha
  have q1 : (19739208802178 / 10 ^ 16 : ℝ) ≤ a := by rw [ha]; nlinarith
  have q2 : a ≤ (19739208802179 / 10 ^ 16 : ℝ) := by rw [ha]; nlinarith
  have a0 : 0 ≤ a := le_trans (by norm_num) q1
  have b2 := pow_le_pow_left₀ (by norm_num) q1 2
  have b3 := pow_le_pow_left₀ (by norm_num) q1 3
  have b4 := pow_le_pow_left₀ (by norm_num) q1 4
  have c2 := pow_le_pow_left₀ a0 q2 2
  have c3 := pow_le_pow_left₀ a0 q2 3
  have c4 := pow_le_pow_left₀ a0 q2 4
  have e : ∀ E : ℝ, E - (1 - a + a ^ 2 / 2 - a ^ 3 / 6 + a ^ 4 / 24) = E - (0 + (-a) ^ 0 / ((1 : ℕ) : ℝ) + (-a) ^ 1 / (((0 + 1) * 1 : ℕ) : ℝ) +
      (-a) ^ 2 / (((1 + 1) * ((0 + 1) * 1) : ℕ) : ℝ) + (-a) ^ 3 / (((2 + 1) * ((1 + 1) * ((0 + 1) * 1)) : ℕ) : ℝ) +
      (-a) ^ 4 / (((3 + 1) * ((2 + 1) * ((1 + 1) * ((0 + 1) * 1))) : ℕ) : ℝ)) := by
    intro E; norm_num; ring
  rw [← e] at h2
  generalize a ^ 2 = a2 at *
  generalize a ^ 3 = a3 at *
  generalize a ^ 4 = a4 at *
  generalize Real.exp (-a) = E at h2 ⊢
  rw [abs_le] at h2 ⊢
  unfold lagBase
  norm_num at *
  constructor <;> linarith

theorem lag_check : ∀ i < 9, lagWindow.getD i 0 - 6 / 10 ^ 10 ≤ (lagBase - 3 / 10 ^ 12) ^ (i * i) ∧
    (lagBase + 3 / 10 ^ 12) ^ (i * i) ≤ lagWindow.getD i 0 + 6 / 10 ^ 10 := by
  intro i hi
  interval_cases i <;> norm_num [lagWindow, lagBase]

/-- **C75.** The window of the autocorrelation of TNS is the gaussian `exp(-(0.02 pi i)^2 / 2)`, to the ninth decimal. -/
theorem C75_lag_window : lagWindow.length = 9 ∧
    ∀ i < 9, |((lagWindow.getD i 0 : Rat) : ℝ) - Real.exp (-(2 / 100 * Real.pi * i) ^ 2 / 2)| ≤ 6 / 10 ^ 10 := by
  refine ⟨rfl, fun i hi => ?_⟩
  have h := lag_base
  obtain ⟨h1, h2⟩ := lag_check i hi
  have e : Real.exp (-(2 / 100 * Real.pi * i) ^ 2 / 2) = Real.exp (-(2 / 10000 * Real.pi ^ 2)) ^ (i * i) := by
    rw [← Real.exp_nat_mul]; congr 1; push_cast; ring
  rw [e]
  generalize Real.exp (-(2 / 10000 * Real.pi ^ 2)) = E at *
  have h1' : (((lagWindow.getD i 0 - 6 / 10 ^ 10 : Rat)) : ℝ) ≤ (((lagBase - 3 / 10 ^ 12) ^ (i * i) : Rat) : ℝ) := Rat.cast_le.mpr h1
  have h2' : (((lagBase + 3 / 10 ^ 12) ^ (i * i) : Rat) : ℝ) ≤ ((lagWindow.getD i 0 + 6 / 10 ^ 10 : Rat) : ℝ) := Rat.cast_le.mpr h2
  push_cast at h1' h2'
  rw [abs_le] at h
  have g0 : (0 : ℝ) ≤ (lagBase : ℝ) - 3 / 10 ^ 12 := by unfold lagBase; norm_num
  have g1 := pow_le_pow_left₀ g0 (show (lagBase : ℝ) - 3 / 10 ^ 12 ≤ E by linarith [h.1]) (i * i)
  have g2 := pow_le_pow_left₀ (le_trans g0 (show (lagBase : ℝ) - 3 / 10 ^ 12 ≤ E by linarith [h.1])) (show E ≤ (lagBase : ℝ) + 3 / 10 ^ 12 by linarith [h.2]) (i * i)
  rw [abs_le]
  constructor <;> linarith

/-! ### Resampling at 12.8 kHz -/

/-- The half of the prototype filter, from its centre, in units of 1e-13: `LTPF_H12K8` of tables/mktables.py:21-85; the values under 1e-17 are zeros. -/
def protoHalf : List Int := [
  667132287000, 662161245000, 647385023000, 623209727000, 590297032000, 549542017000, 502043309000, 449066644000, 392003203000, 332324245000,
  271533724000, 211120585000, 152512477000, 97032490000, 45860442200, 0, -39747302100, -72800364000, -98808673200, -117654154000, -129444881000,
  -134501120000, -133334458000, -126621006000, -115169871000, -99888238600, -81744489500, -61730803700, -40826688600, -19964761900, 0, 18316528400,
  34358635100, 47640127300, 57823752100, 64723923400, 68303427000, 68664539900, 66035202500, 60751053100, 53234267200, 43970227700, 33483092700,
  22311319700, 10984154500, 0, -10192543300, -19210330500, -26747555500, -32583585100, -36586655800, -38713523100, -39005324700, -37580067200,
  -34622268700, -30370383000, -25102692500, -19122383900, -12742514000, -6271537300, 0, 5811080620, 10939742600, 15210218800, 18497524900,
  20729454600, 21886062500, 21996824500, 21135759100, 19414867500, 16976308000, 13983747300, 10613344700, 7044808710, 3452937600, 0, -3170746540,
  -5940177660, -8216921900, -9939415630, -11076409700, -11626016900, -11613452200, -11087670600, -10117145100, -8785052320, -7184140230, -5411552310,
  -3563859650, -1732527130, 0, 1563446670, 2902002170, 3975713800, 4760984240, 5250221550, 5450729180, 5382955230, 5078242940, 4576238490,
  3922117380, 3163786500, 2349207770, 1523970760, 729218021, 0, -635893034, -1158603650, -1556394270, -1825383320, -1968886860, -1996438190,
  -1922569600, -1765445670, -1545438300, -1283728480, -1001011130, -716366399, -446345894, -204305583]

/-- Period of the samples, in periods of 192 kHz. -/
def period192 : Srate → Nat
  | .k8 => 24
  | .k16 => 12
  | .k24 => 8
  | .k32 => 6
  | .k48 | .k48hr => 4
  | .k96hr => 2

/-- Gain of the resampling: the period, halved at 8 kHz. -/
def protoGain : Srate → Int
  | .k8 => 12
  | sr => period192 sr

/-- The symmetric prototype filter at the distance `d` of its centre, in periods of 192 kHz, rounded to the nearest in 15 fractional bits. -/
def protoQ (sr : Srate) (d : Int) : Int :=
  if d.natAbs < 120 then (2 * (protoHalf.getD d.natAbs 0 * protoGain sr * 2 ^ 15) + 10 ^ 13) / (2 * 10 ^ 13) else 0

theorem proto_all : allRates.all (fun sr => let r := resampler sr
    (List.range r.p).all fun k => (List.range r.w).all fun j =>
      decide (r.h.getD (k * r.w + j) 0 = protoQ sr ((period192 sr : Int) * (j + 1) - 120 - (15 / r.inc : Nat) * k))) = true := by
  decide +kernel

theorem accumulate_sum : ∀ (xs hs : List Int) (un v : Int), xs.length = hs.length → accumulate un xs hs = some v →
    v = un + ∑ j ∈ Finset.range xs.length, xs.getD j 0 * hs.getD j 0
  | [], hs, un, v, _, h => by
    have : accumulate un [] hs = some un := by cases hs <;> rfl
    rw [this] at h
    simp [Option.some.inj h]
  | x :: xs, [], un, v, hl, h => by simp at hl
  | x :: xs, y :: hs, un, v, hl, h => by
    unfold accumulate at h
    obtain ⟨p, e1, h⟩ := Option.bind_eq_some_iff.mp h
    obtain ⟨u, e2, h⟩ := Option.bind_eq_some_iff.mp h
    have h1 : p = x * y := by
      unfold i32 at e1; split at e1
      · exact (Option.some.inj e1).symm
      · cases e1
    have h2 : u = un + p := by
      unfold i32 at e2; split at e2
      · exact (Option.some.inj e2).symm
      · cases e2
    have := accumulate_sum xs hs u v (by simpa using hl) h
    rw [this, h2, h1, List.length_cons, Finset.sum_range_succ']
    simp only [List.getD_cons_succ, List.getD_cons_zero]
    ring

theorem getD_slice' (l : List Int) (d n i : Nat) (hi : i < n) : ((l.drop d).take n).getD i 0 = l.getD (d + i) 0 := by
  rw [List.getD_eq_getElem?_getD, List.getElem?_take_of_lt hi, List.getElem?_drop, ← List.getD_eq_getElem?_getD]

/-- **C75.** Resampling from any rate: the output sample `n` is the sum of the samples weighted by one and the same prototype filter, at the distance, in
periods of 192 kHz, between the input sample, of time `192 kHz / rate` per sample, and the output sample, of time 15 per sample, with a delay of
120. The rows of the coefficients of each rate are the phases of this filter. -/
theorem C75_resample (dt : Dt) (sr : Srate) (buf : List Int) (base n : Nat)
    (hb : ∀ v ∈ buf, -32768 ≤ v ∧ v ≤ 32767) (h1 : nt sr ≤ base) (h2 : base + ns dt sr ≤ buf.length) (hn : n < (1 + dt.idx) * 32) :
    resampleAcc (resampler sr) buf base n =
      some (∑ m ∈ Finset.range buf.length, buf.getD m 0 * protoQ sr ((period192 sr : Int) * ((m : Int) - base) - 15 * n + 120)) := by
  obtain ⟨v, ev, -⟩ := resampleAcc_some dt sr buf base n hb h1 h2 hn
  rw [ev]
  congr 1
  obtain ⟨r1, r2, r3, r4, r5⟩ := rows sr
  have hp := pos_lt dt sr n hn
  have hk := Nat.mod_lt ((resampler sr).inc * n) r1
  have hc := List.all_eq_true.mp proto_all sr (mem_allRates sr)
  have hc := List.all_eq_true.mp hc _ (List.mem_range.mpr hk)
  have hc : ∀ j < (resampler sr).w, _ := fun j hj => of_decide_eq_true (List.all_eq_true.mp hc j (List.mem_range.mpr hj))
  have hkw : ((resampler sr).inc * n % (resampler sr).p) * (resampler sr).w + (resampler sr).w ≤ (resampler sr).h.length := by
    rw [r2, ← Nat.succ_mul]
    exact Nat.mul_le_mul_right _ hk
  unfold resampleAcc at ev
  dsimp only at ev
  obtain ⟨s1, s1'⟩ := slice?_eq (resampler sr).h ((resampler sr).inc * n % (resampler sr).p * (resampler sr).w) 0
    (resampler sr).w (Nat.zero_le _) (by omega)
  have hJ := Nat.zero_le ((resampler sr).inc * n / (resampler sr).p)
  obtain ⟨s2, s2'⟩ := slice?_eq buf (base + (resampler sr).inc * n / (resampler sr).p) ((resampler sr).w - 1) (resampler sr).w (by omega) (by omega)
  rw [s1, s2] at ev
  simp only [Option.bind_eq_bind, Option.bind_some, Nat.sub_zero] at ev s1'
  have hv := accumulate_sum _ _ _ _ (by rw [s1', s2']) ev
  rw [hv, s2', Int.zero_add]
  set s := base + (resampler sr).inc * n / (resampler sr).p - ((resampler sr).w - 1) with hs
  have hsub : Finset.Ico s (s + (resampler sr).w) ⊆ Finset.range buf.length := by
    intro m hm
    rw [Finset.mem_Ico] at hm
    rw [Finset.mem_range]
    omega
  rw [← Finset.sum_subset hsub, Finset.sum_Ico_eq_sum_range, Nat.add_sub_cancel_left]
  · refine Finset.sum_congr rfl fun j hj => ?_
    rw [Finset.mem_range] at hj
    rw [getD_slice' _ _ _ _ hj, getD_slice' _ _ _ _ hj, hc j hj]
    congr 2
    clear hv ev s1 s2 s1' s2' hsub hc r5 hkw h2 hp hb r2
    cases sr <;> simp only [resampler, period192] at * <;> omega
  · intro m hm hm2
    rw [Finset.mem_Ico] at hm2
    have : protoQ sr ((period192 sr : Int) * ((m : Int) - base) - 15 * n + 120) = 0 := by
      unfold protoQ
      rw [if_neg]
      clear hv ev s1 s2 s1' s2' hsub hc r5 hkw h2 hp hb r2
      cases sr <;> simp only [resampler, period192] at * <;> omega
    rw [this, Int.mul_zero]

/-- An impulse at 48 kHz: 8 output samples later, the centre of the prototype. -/
example : resampleAcc (resampler .k48) ((List.range 180).map fun m => if m = 60 then (1 : Int) else 0) 60 8 = some (protoQ .k48 0) ∧ protoQ .k48 0 = 8744 := by
  decide +kernel

/-! ### High-pass filter -/

/-- The coefficients of the Butterworth filter of second order, high-pass at 50 Hz for a rate of 12.8 kHz, with the bilinear transform. -/
noncomputable def butterK : ℝ := Real.tan (Real.pi * 50 / 12800)

theorem butter : (1 / (1 + Real.sqrt 2 * butterK + butterK ^ 2) = (1 + Real.cos (2 * Real.pi * (1 : ℕ) / (256 : ℕ))) / 2 / (1 + Real.sqrt 2 / 2 * Real.sin (2 * Real.pi * (1 : ℕ) / (256 : ℕ)))) ∧
    (2 * (butterK ^ 2 - 1) / (1 + Real.sqrt 2 * butterK + butterK ^ 2) = -2 * Real.cos (2 * Real.pi * (1 : ℕ) / (256 : ℕ)) / (1 + Real.sqrt 2 / 2 * Real.sin (2 * Real.pi * (1 : ℕ) / (256 : ℕ)))) ∧
    ((1 - Real.sqrt 2 * butterK + butterK ^ 2) / (1 + Real.sqrt 2 * butterK + butterK ^ 2) =
      (1 - Real.sqrt 2 / 2 * Real.sin (2 * Real.pi * (1 : ℕ) / (256 : ℕ))) / (1 + Real.sqrt 2 / 2 * Real.sin (2 * Real.pi * (1 : ℕ) / (256 : ℕ)))) := by
  have hθ : Real.pi * 50 / 12800 = Real.pi / 256 := by ring
  have h2 : 2 * Real.pi * ((1 : ℕ) : ℝ) / ((256 : ℕ) : ℝ) = 2 * (Real.pi / 256) := by push_cast; ring
  have p1 := Real.pi_gt_three
  have p2 := Real.pi_lt_four
  have hc : 0 < Real.cos (Real.pi / 256) := Real.cos_pos_of_mem_Ioo ⟨by linarith, by linarith⟩
  have hs : 0 < Real.sin (Real.pi / 256) := Real.sin_pos_of_pos_of_lt_pi (by linarith) (by linarith)
  have hcs := Real.sin_sq_add_cos_sq (Real.pi / 256)
  unfold butterK
  rw [hθ, h2, Real.cos_two_mul, Real.sin_two_mul, Real.tan_eq_sin_div_cos]
  generalize Real.sin (Real.pi / 256) = S at *
  generalize Real.cos (Real.pi / 256) = C at *
  have hq : 0 ≤ Real.sqrt 2 := Real.sqrt_nonneg 2
  generalize Real.sqrt 2 = q at *
  have hD : (1 + q * (S / C) + (S / C) ^ 2) = (1 + q / 2 * (2 * S * C)) / C ^ 2 := by
    field_simp; nlinarith
  have hD0 : 0 < 1 + q / 2 * (2 * S * C) := by positivity
  have hN : (1 - q * (S / C) + (S / C) ^ 2) = (1 - q / 2 * (2 * S * C)) / C ^ 2 := by
    field_simp; nlinarith
  have hM : (S / C) ^ 2 - 1 = -(2 * C ^ 2 - 1) / C ^ 2 := by
    field_simp; nlinarith
  rw [hD, hN, hM]
  refine ⟨?_, ?_, ?_⟩ <;> field_simp <;> ring

/-- **C75.** The high-pass filter before the pitch analysis is the Butterworth filter of second order at 50 Hz, with coefficients of 30 fractional bits:
the recursion, with the output rounded down, and the accuracy of the coefficients. -/
theorem C75_hp50 : ∃ a1 a2 b1 b2 : Int,
    |(b2 : ℝ) / 2 ^ 30 - 1 / (1 + Real.sqrt 2 * butterK + butterK ^ 2)| ≤ 1 / 2 ^ 30 ∧
    |(b1 : ℝ) / 2 ^ 30 - -2 * (1 / (1 + Real.sqrt 2 * butterK + butterK ^ 2))| ≤ 1 / 2 ^ 30 ∧
    |(a1 : ℝ) / 2 ^ 30 - 2 * (butterK ^ 2 - 1) / (1 + Real.sqrt 2 * butterK + butterK ^ 2)| ≤ 1 / 2 ^ 30 ∧
    |(a2 : ℝ) / 2 ^ 30 - (1 - Real.sqrt 2 * butterK + butterK ^ 2) / (1 + Real.sqrt 2 * butterK + butterK ^ 2)| ≤ 1 / 2 ^ 30 ∧
    ∀ (h0 h1 h2 h3 : Hp50) (u0 u1 u2 y0 y1 y2 : Int), filterHp50 h0 u0 = some (y0, h1) → filterHp50 h1 u1 = some (y1, h2) →
      filterHp50 h2 u2 = some (y2, h3) → y2 = toI32 ((b2 * u2 + b1 * u1 + b2 * u0 - a1 * y1 - a2 * y0) / 2 ^ 30) := by
  refine ⟨-2110217691, 1037111617, -2110535566, 1055267782, ?_⟩
  obtain ⟨e1, e2, e3⟩ := butter
  rw [e1, e2, e3]
  have hC := powI_cos 256 (by norm_num) 1 (by norm_num)
  have hS := powI_sin 256 (by norm_num) 1 (by norm_num)
  have hI : powI 256 1 = (18441188259278645724, 452705761816582861) := by decide +kernel
  rw [hI] at hC hS
  dsimp only at hC hS
  have q1 : (141421356237 / 10 ^ 11 : ℝ) ≤ Real.sqrt 2 := Real.le_sqrt_of_sq_le (by norm_num)
  have q2 : Real.sqrt 2 ≤ (141421356238 / 10 ^ 11 : ℝ) := Real.sqrt_le_iff.mpr ⟨by norm_num, by norm_num⟩
  generalize Real.cos (2 * Real.pi * (1 : ℕ) / (256 : ℕ)) = C at *
  generalize Real.sin (2 * Real.pi * (1 : ℕ) / (256 : ℕ)) = S at *
  generalize Real.sqrt 2 = q at *
  rw [abs_le] at hC hS
  obtain ⟨c1, c2⟩ := hC
  obtain ⟨s1, s2⟩ := hS
  have s1' : (24541228521 / 10 ^ 12 : ℝ) ≤ S := by norm_num at s1 s2 ⊢; linarith
  have s2' : S ≤ (24541228525 / 10 ^ 12 : ℝ) := by norm_num at s1 s2 ⊢; linarith
  have c1' : (999698818695 / 10 ^ 12 : ℝ) ≤ C := by norm_num at c1 c2 ⊢; linarith
  have c2' : C ≤ (999698818698 / 10 ^ 12 : ℝ) := by norm_num at c1 c2 ⊢; linarith
  have S0 : 0 ≤ S := le_trans (by norm_num) s1'
  have p1 : (141421356237 / 10 ^ 11 : ℝ) / 2 * (24541228521 / 10 ^ 12) ≤ q / 2 * S :=
    mul_le_mul (by linarith) s1' (by norm_num) (by linarith [show (0 : ℝ) ≤ 141421356237 / 10 ^ 11 by norm_num])
  have p2 : q / 2 * S ≤ (141421356238 / 10 ^ 11 : ℝ) / 2 * (24541228525 / 10 ^ 12) :=
    mul_le_mul (by linarith) s2' S0 (by norm_num)
  generalize q / 2 * S = P at *
  have key : ∀ (x N : ℝ) , |x * (1 + P) - N| ≤ 1 / 2 ^ 30 → |x - N / (1 + P)| ≤ 1 / 2 ^ 30 := by
    intro x N h
    have hD : 1 ≤ 1 + P := by norm_num at p1; linarith
    rw [show x - N / (1 + P) = (x * (1 + P) - N) / (1 + P) by field_simp, abs_div, abs_of_pos (by linarith : 0 < 1 + P)]
    exact le_trans (div_le_self (abs_nonneg _) hD) h
  refine ⟨key _ _ ?_, ?_, key _ _ ?_, key _ _ ?_, ?_⟩
  · rw [abs_le]; norm_num at *; constructor <;> linarith
  · rw [show -2 * ((1 + C) / 2 / (1 + P)) = -(1 + C) / (1 + P) by ring]
    apply key
    rw [abs_le]; norm_num at *; constructor <;> linarith
  · rw [abs_le]; norm_num at *; constructor <;> linarith
  · rw [abs_le]; norm_num at *; constructor <;> linarith
  · intro h0 h1 h2 h3 u0 u1 u2 y0 y1 y2 g0 g1 g2
    have step : ∀ (h h' : Hp50) (u y : Int), filterHp50 h u = some (y, h') → y = toI32 ((h.s1 + u * 1055267782) / 1073741824) ∧
        h'.s1 = h.s2 + u * -2110535566 - y * -2110217691 ∧ h'.s2 = u * 1055267782 - y * 1037111617 := by
      intro h h' u y e
      unfold filterHp50 at e
      obtain ⟨v, f1, e⟩ := Option.bind_eq_some_iff.mp e
      obtain ⟨t, f2, e⟩ := Option.bind_eq_some_iff.mp e
      obtain ⟨w1, f3, e⟩ := Option.bind_eq_some_iff.mp e
      obtain ⟨w2, f4, e⟩ := Option.bind_eq_some_iff.mp e
      have inv : ∀ a b : Int, i64 a = some b → b = a := by
        intro a b hh
        unfold i64 at hh; split at hh
        · exact (Option.some.inj hh).symm
        · cases hh
      obtain ⟨e1, e2⟩ := Prod.mk.inj (Option.some.inj e)
      rw [← e2, inv _ _ f3, inv _ _ f4, inv _ _ f2, ← e1, inv _ _ f1]
      exact ⟨rfl, rfl, rfl⟩
    obtain ⟨-, -, z0⟩ := step _ _ _ _ g0
    obtain ⟨-, z1, -⟩ := step _ _ _ _ g1
    obtain ⟨z2, -, -⟩ := step _ _ _ _ g2
    rw [z2, z1, z0]
    congr 2
    ring

/-- The filter is defined on a constant signal, and reduces it. -/
example : (hpRun (List.replicate 200 (1000 * 65536)) ⟨0, 0⟩).map (fun r => (r.1.getD 0 0, r.1.getD 199 0)) = some (983, -20) := by decide +kernel

/-! ### Interpolations -/

/-- The half of the interpolation filter of the post filter at 12.8 and 16 kHz, from its centre, by quarters of a sample, in units of 1e-11: `LTPF_HI` of
tables/mktables.py:87-92. -/
def interHalf : List Int := [58352757500, 55007500200, 45922093000, 33569062500, 20988046300, 10699918600, 3967114780, 669885837]

/-- The filter at the distance `d` of its centre. -/
def interV (d : Int) : Rat := (interHalf.getD d.natAbs 0 : Rat) / 10 ^ 11

/-- The same, rounded to the nearest in 15 fractional bits. -/
def interQ (d : Int) : Int := (2 * (interHalf.getD d.natAbs 0 * 2 ^ 15) + 10 ^ 11) / (2 * 10 ^ 11)

theorem h4q15_check : ∀ d < 4, (h4q15.getD d []).length = 4 ∧ ∀ k < 4, (h4q15.getD d []).getD k 0 = interQ (4 * ((k : Int) - 1) - d) := by decide +kernel

theorem interQ_zero (d : Int) (h : 8 ≤ d.natAbs) : interQ d = 0 := by
  unfold interQ
  rw [List.getD_eq_getElem?_getD, List.getElem?_eq_none (by simpa [interHalf] using h)]
  decide

theorem interpolateFrom_val (buf : List Int) (base : Nat) (h : List Int) (hl : h.length = 4) : ∀ (k i : Nat) (y : List Int),
    interpolateFrom buf base h k i = some y → ∀ t < k, 2 ≤ base + i + t ∧ base + i + t + 1 < buf.length ∧
      y.getD t 0 = toI16 ((∑ j ∈ Finset.range 4, buf.getD (base + i + t - 2 + j) 0 * h.getD (3 - j) 0) / 32768)
  | 0, _, _, _, t, ht => by omega
  | k + 1, i, y, e, t, ht => by
    obtain ⟨h0, h1, h2, h3, rfl⟩ : ∃ a b c d, h = [a, b, c, d] := four h hl
    unfold interpolateFrom at e
    obtain ⟨l, e1, e⟩ := Option.bind_eq_some_iff.mp e
    by_cases hc : 2 ≤ base + i ∧ base + i - 2 + 4 ≤ buf.length
    · obtain ⟨s1, s2⟩ := slice?_eq buf (base + i) 2 4 hc.1 hc.2
      rw [s1] at e1
      have e1 := Option.some.inj e1
      have hg : ∀ j < 4, l.getD j 0 = buf.getD (base + i - 2 + j) 0 := fun j hj => by rw [← e1, getD_slice' _ _ _ _ hj]
      rw [e1] at s2
      obtain ⟨x3, x2, x1, x0, rfl⟩ := four l s2
      obtain ⟨p0, f0, e⟩ := Option.bind_eq_some_iff.mp e
      obtain ⟨p1, f1, e⟩ := Option.bind_eq_some_iff.mp e
      obtain ⟨p2, f2, e⟩ := Option.bind_eq_some_iff.mp e
      obtain ⟨p3, f3, e⟩ := Option.bind_eq_some_iff.mp e
      obtain ⟨q1, f4, e⟩ := Option.bind_eq_some_iff.mp e
      obtain ⟨q2, f5, e⟩ := Option.bind_eq_some_iff.mp e
      obtain ⟨q3, f6, e⟩ := Option.bind_eq_some_iff.mp e
      obtain ⟨r, f7, e⟩ := Option.bind_eq_some_iff.mp e
      have inv : ∀ a b : Int, i32 a = some b → b = a := by
        intro a b hh
        unfold i32 at hh; split at hh
        · exact (Option.some.inj hh).symm
        · cases hh
      have e := Option.some.inj e
      subst e
      cases t with
      | zero =>
        refine ⟨by omega, by omega, ?_⟩
        simp only [Finset.sum_range_succ, Finset.sum_range_zero, Nat.add_zero, ← hg 0 (by omega), ← hg 1 (by omega), ← hg 2 (by omega),
          ← hg 3 (by omega), List.getD_cons_zero, List.getD_cons_succ, Nat.sub_zero, Nat.reduceSub]
        rw [show base + i - 2 = base + i - 2 + 0 by omega, ← hg 0 (by omega), List.getD_cons_zero, inv _ _ f6, inv _ _ f5, inv _ _ f4, inv _ _ f3, inv _ _ f2,
          inv _ _ f1, inv _ _ f0]
        congr 2
        ring
      | succ t =>
        obtain ⟨g1, g2, g3⟩ := interpolateFrom_val buf base [h0, h1, h2, h3] hl k (i + 1) r f7 t (by omega)
        refine ⟨by omega, by omega, ?_⟩
        rw [List.getD_cons_succ, g3]
        simp only [show base + (i + 1) + t = base + i + (t + 1) by omega]
    · unfold slice? at e1
      rw [if_neg hc] at e1
      cases e1

/-- **C75.** The delayed signal of the pitch analysis, by `back` samples and `d` quarters: each sample is the sum of the samples weighted by one
symmetric filter, at their distance in quarters of a sample. -/
theorem C75_interpolate (buf : List Int) (base back n d : Nat) (hd : d < 4) (y : List Int) (h : interpolate buf base back n d = some y) :
    ∀ i < n, y.getD i 0 = toI16 ((∑ m ∈ Finset.range buf.length, buf.getD m 0 * interQ (4 * ((base : Int) - back + i - m) - d)) / 2 ^ 15) := by
  intro i hi
  unfold interpolate at h
  obtain ⟨hr, e1, h⟩ := Option.bind_eq_some_iff.mp h
  obtain ⟨k1, k2⟩ := h4q15_check d hd
  have e2 : h4q15.getD d [] = hr := by rw [List.getD_eq_getElem?_getD, e1]; rfl
  rw [e2] at k1 k2
  by_cases hb : back ≤ base
  · rw [if_pos hb] at h
    obtain ⟨g1, g2, g3⟩ := interpolateFrom_val buf (base - back) hr k1 n 0 y h i hi
    rw [g3]
    congr 2
    simp only [Nat.add_zero] at g1 g2 ⊢
    have hsub : Finset.Ico (base - back + i - 2) (base - back + i - 2 + 4) ⊆ Finset.range buf.length := by
      intro m hm
      rw [Finset.mem_Ico] at hm
      rw [Finset.mem_range]
      omega
    rw [← Finset.sum_subset hsub, Finset.sum_Ico_eq_sum_range, Nat.add_sub_cancel_left]
    · refine Finset.sum_congr rfl fun j hj => ?_
      rw [Finset.mem_range] at hj
      rw [k2 (3 - j) (by omega)]
      congr 2
      omega
    · intro m hm hm2
      rw [Finset.mem_Ico] at hm2
      rw [interQ_zero _ (by omega), Int.mul_zero]
  · rw [if_neg hb] at h; cases h

/-- A ramp, delayed by two samples and a half. -/
example : interpolate ((List.range 20).map fun m => (100 * m : Int)) 10 2 4 2 = some [748, 848, 947, 1047] := by decide +kernel

/-- The half of the interpolation filter of the correlation, from its centre, by quarters. -/
def corrHalf : List Rat := [dec 898638285 9, dec 817488686 9, dec 603297008 9, dec 330182571 9, dec 835788573 10, dec (-754404636) 10, dec (-130305021) 9,
  dec (-105835916) 9, dec (-472963246) 10, dec 459833449 11, dec 295038503 10, dec 286823405 10, dec 153572770 10, dec 274547165 11, dec (-300125103) 11,
  dec (-287456116) 11]

theorem corr_check : [(-3 : Int), -2, -1, 0, 1, 2, 3].all (fun d => (List.range 9).all fun i =>
    decide (corrHalf.getD (4 * ((i : Int) - 4) - d).natAbs 0 = if d < 0 then (h4.getD ((4 + d) % 4).toNat []).getD i 0 else
      if i = 0 then 0 else (h4.getD ((4 + d) % 4).toNat []).getD (i - 1) 0)) = true := by decide +kernel

/-- **C75.** The interpolation of the correlation at `pos + d/4`, in exact arithmetic: the sum of the values weighted by one symmetric filter, at their
distance in quarters. -/
theorem C75_correlation (r : List Rat) (pos : Nat) (d : Int) (hd : -3 ≤ d ∧ d ≤ 3) (h1 : 4 ≤ pos) (h2 : pos + 5 ≤ r.length) :
    interpolateCorr Arith.exact r pos d = some (∑ i ∈ Finset.range 9, r.getD (pos - 4 + i) 0 * corrHalf.getD (4 * ((i : Int) - 4) - d).natAbs 0) := by
  obtain ⟨s1, s2⟩ := slice?_eq r pos 4 9 h1 (by omega)
  have hg : ∀ i < 9, r.getD (pos - 4 + i) 0 = ((r.drop (pos - 4)).take 9).getD i 0 := fun i hi => (getD_slice r _ _ _ hi).symm
  rw [Finset.sum_congr rfl fun i hi => by rw [hg i (Finset.mem_range.mp hi)]]
  unfold interpolateCorr
  rw [s1]
  generalize (r.drop (pos - 4)).take 9 = x at *
  obtain ⟨x0, x1, x2, x3, x4, x5, x6, x7, x8, rfl⟩ : ∃ a b c d e f g h i, x = [a, b, c, d, e, f, g, h, i] := by
    match x, s2 with
    | [a, b, c, d, e, f, g, h, i], _ => exact ⟨a, b, c, d, e, f, g, h, i, rfl⟩
  obtain ⟨h, eh, lh⟩ := h4_rows d hd
  have hc := List.all_eq_true.mp corr_check d (by simp; omega)
  have hc : ∀ i < 9, _ := fun i hi => of_decide_eq_true (List.all_eq_true.mp hc i (List.mem_range.mpr hi))
  have e2 : h4.getD ((4 + d) % 4).toNat [] = h := by rw [List.getD_eq_getElem?_getD, eh]; rfl
  rw [e2] at hc
  rw [Finset.sum_congr rfl fun i hi => by rw [hc i (Finset.mem_range.mp hi)], eh]
  obtain ⟨y0, y1, y2, y3, y4, y5, y6, y7, rfl⟩ : ∃ a b c d e f g i, h = [a, b, c, d, e, f, g, i] := by
    match h, lh with
    | [a, b, c, d, e, f, g, i], _ => exact ⟨a, b, c, d, e, f, g, i, rfl⟩
  have h7 : d = 0 → y7 = 0 := by
    intro h0
    subst h0
    exact (hc 8 (by omega)).symm
  clear hc e2 eh hg s1
  simp only [Finset.sum_range_succ, Finset.sum_range_zero]
  by_cases c1 : d < 0
  · simp only [if_pos c1]
    refine congrArg some (?_ : x0 * y0 + (x1 * y1 + x2 * y2 + x3 * y3 + x4 * y4 + x5 * y5 + x6 * y6 + x7 * y7) =
      0 + x0 * y0 + x1 * y1 + x2 * y2 + x3 * y3 + x4 * y4 + x5 * y5 + x6 * y6 + x7 * y7 + x8 * 0)
    ring
  · simp only [if_neg c1]
    by_cases c2 : 0 < d
    · simp only [if_pos c2]
      refine congrArg some (?_ : x8 * y7 + (x1 * y0 + x2 * y1 + x3 * y2 + x4 * y3 + x5 * y4 + x6 * y5 + x7 * y6) =
        0 + x0 * 0 + x1 * y0 + x2 * y1 + x3 * y2 + x4 * y3 + x5 * y4 + x6 * y5 + x7 * y6 + x8 * y7)
      ring
    · simp only [if_neg c2]
      have h7 := h7 (by omega)
      refine congrArg some (?_ : ((0 : Int) : Rat) + (x1 * y0 + x2 * y1 + x3 * y2 + x4 * y3 + x5 * y4 + x6 * y5 + x7 * y6) =
        0 + x0 * 0 + x1 * y0 + x2 * y1 + x3 * y2 + x4 * y3 + x5 * y4 + x6 * y5 + x7 * y6 + x8 * y7)
      rw [h7, Int.cast_zero]
      ring

example : ∃ v, interpolateCorr Arith.exact (List.replicate 9 1) 4 2 = some v ∧ |v - 1| ≤ 2 / 1000 := by
  refine ⟨_, C75_correlation _ 4 2 (by decide) (by decide) (by decide), ?_⟩
  decide +kernel

/-- The rates of the post filter. -/
theorem den_check : [Srate.k8, .k16].all (fun sr => (List.range 4).all fun p => (List.range 4).all fun k =>
    decide (((ltpfCden sr).getD p []).getD k 0 = interV (4 * ((k : Int) - 1) - p))) = true := by decide +kernel

/-- Entry of the denominators. -/
def denV (sr : Srate) (p k : Nat) : Rat := ((ltpfCden sr).getD p []).getD k 0

theorem den_sym_check : [Srate.k8, .k16, .k24, .k32, .k48].all (fun sr => (List.range 4).all fun p => (List.range (ltpfWidth sr)).all fun k =>
    (List.range 4).all fun p' => (List.range (ltpfWidth sr)).all fun k' =>
    !decide ((4 * ((k : Int) + 1 - (ltpfWidth sr / 2 : Nat)) - p).natAbs = (4 * ((k' : Int) + 1 - (ltpfWidth sr / 2 : Nat)) - p').natAbs) ||
      decide (denV sr p k = denV sr p' k')) = true := by decide +kernel

theorem num_check : [Srate.k8, .k16, .k24, .k32, .k48].all (fun sr => (List.range 4).all fun g =>
    decide (|((ltpfCnum sr).getD g []).sum - ((ltpfCden sr).getD 0 []).sum| ≤ 2 / 10 ^ 9)) = true := by decide +kernel

theorem mem_postRates (sr : Srate) (h : sr.hr = false) : sr ∈ [Srate.k8, .k16, .k24, .k32, .k48] := by
  cases sr <;> first | (exfalso; revert h; decide) | simp

/-- **C75.** The coefficients of the post filter. At 8 and 16 kHz the denominators are the interpolation filter of the pitch analysis; at each rate, the
phases are samples of one symmetric filter, at the distance to the lag in quarters of a sample: two coefficients at opposite distances are
equal. The numerators of all the gains have the sum of the denominators of the null phase. -/
theorem C75_post_filter (sr : Srate) (hsr : sr.hr = false) :
    ((sr = .k8 ∨ sr = .k16) → ∀ p < 4, ∀ k < 4, ((ltpfCden sr).getD p []).getD k 0 = interV (4 * ((k : Int) - 1) - p)) ∧
    (∀ p : Nat, p < 4 → ∀ k < ltpfWidth sr, ∀ p' : Nat, p' < 4 → ∀ k' < ltpfWidth sr,
      (4 * ((k : Int) + 1 - (ltpfWidth sr / 2 : Nat)) - p).natAbs = (4 * ((k' : Int) + 1 - (ltpfWidth sr / 2 : Nat)) - p').natAbs →
      ((ltpfCden sr).getD p []).getD k 0 = ((ltpfCden sr).getD p' []).getD k' 0) ∧
    ∀ g < 4, |((ltpfCnum sr).getD g []).sum - ((ltpfCden sr).getD 0 []).sum| ≤ 2 / 10 ^ 9 := by
  refine ⟨fun h p hp k hk => ?_, fun p hp k hk p' hp' k' hk' h => ?_, fun g hg => ?_⟩
  · have := List.all_eq_true.mp den_check sr (by rcases h with rfl | rfl <;> simp)
    have := List.all_eq_true.mp this p (List.mem_range.mpr hp)
    exact of_decide_eq_true (List.all_eq_true.mp this k (List.mem_range.mpr hk))
  · have := List.all_eq_true.mp den_sym_check sr (mem_postRates sr hsr)
    have := List.all_eq_true.mp this p (List.mem_range.mpr hp)
    have := List.all_eq_true.mp this k (List.mem_range.mpr hk)
    have := List.all_eq_true.mp this p' (List.mem_range.mpr hp')
    have := List.all_eq_true.mp this k' (List.mem_range.mpr hk')
    rw [Bool.or_eq_true] at this
    rcases this with hh | hh
    · rw [Bool.not_eq_true', decide_eq_false_iff_not] at hh; exact absurd h hh
    · exact of_decide_eq_true hh
  · have := List.all_eq_true.mp num_check sr (mem_postRates sr hsr)
    exact of_decide_eq_true (List.all_eq_true.mp this g (List.mem_range.mpr hg))

end LC3
