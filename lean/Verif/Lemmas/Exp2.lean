import Mathlib.Analysis.Complex.ExponentialBounds
import Mathlib.Analysis.SpecialFunctions.Pow.Real
import Verif.Lemmas.F32Round

/-!
The error of `lc3_exp2f`.
-/

namespace LC3

/-! ### Reduction of the operand -/

theorem exp2_reduce (x : Rat) (hx : |x| ≤ 100) :
    ∃ K : Int, |8 * x - K| ≤ 1 / 2 ∧ |K| ≤ 800 ∧ (F32.round (x + exp2C) : Int) = 1237319680 + K ∧
      fl (F32.value (F32.round (x + exp2C)) - exp2C) = K / 8 := by
  obtain ⟨x1, x2⟩ := abs_le.mp hx
  have hC : exp2C = 1572864 := rfl
  have ha : 0 < x + exp2C := by rw [hC]; linarith
  have hb : x + exp2C ≤ pow2 126 := by
    have : (2000000 : Rat) ≤ pow2 126 := by decide +kernel
    rw [hC]; linarith
  have he : rneExp (x + exp2C) = 20 := by
    refine rneExp_unique _ ha 20 ?_ ?_
    · rw [show pow2 20 = 1048576 by decide +kernel, hC]; linarith
    · rw [show pow2 (20 + 1) = 2097152 by decide +kernel, hC]; linarith
  have he' : F32.expOf (x + exp2C) = 20 := by rw [expOf_eq, he]; rfl
  obtain ⟨s1, s2, s3, s4, s5⟩ := roundPos_spec _ ha hb
  have hr : F32.round (x + exp2C) = F32.roundPos (x + exp2C) := by
    unfold F32.round; rw [if_neg (not_lt.mpr (le_of_lt ha))]
  rw [he'] at s4 s5
  have hn := rneInt_near ((x + exp2C) * pow2 (23 - 20))
  generalize hN : rneInt ((x + exp2C) * pow2 (23 - 20)) = N at s4 s5 hn
  rw [show pow2 (23 - 20) = 8 by decide +kernel, hC] at hn
  obtain ⟨n1, n2⟩ := abs_le.mp hn
  have b1 : (-1601 : Rat) / 2 ≤ ((N - 12582912 : Int) : Rat) := by push_cast; linarith
  have b2 : ((N - 12582912 : Int) : Rat) ≤ 1601 / 2 := by push_cast; linarith
  have c1 : -801 < N - 12582912 := by
    have : ((-801 : Int) : Rat) < ((N - 12582912 : Int) : Rat) := by push_cast at b1 ⊢; linarith
    exact_mod_cast this
  have c2 : N - 12582912 < 801 := by
    have : ((N - 12582912 : Int) : Rat) < ((801 : Int) : Rat) := by push_cast at b2 ⊢; linarith
    exact_mod_cast this
  have hv : F32.value (F32.round (x + exp2C)) - exp2C = ((N - 12582912 : Int) : Rat) * pow2 (-3) := by
    rw [hr]; unfold F32.value; rw [s3]
    show F32.mag _ - _ = _
    rw [s5, hC, show pow2 (20 - 23) = 1 / 8 by decide +kernel, show pow2 (-3) = 1 / 8 by decide +kernel]
    push_cast; ring
  refine ⟨N - 12582912, ?_, abs_le.mpr ⟨by omega, by omega⟩, ?_, ?_⟩
  · rw [abs_le]; push_cast; constructor <;> linarith
  · rw [hr, s4]; norm_num; omega
  · rw [hv]
    have e8 : ((N - 12582912 : Int) : Rat) * pow2 (-3) = ((N - 12582912 : Int) : Rat) / 8 := by
      rw [show pow2 (-3) = 1 / 8 by decide +kernel]; ring
    by_cases h0 : N - 12582912 = 0
    · rw [h0]; decide +kernel
    · rw [fl_normal, rne24_exact _ _ (by omega), e8]
      · rw [abs_mul, abs_of_pos (pow2_pos (-3))]
        have : (1 : Rat) ≤ |((N - 12582912 : Int) : Rat)| := by
          have := Int.one_le_abs h0
          exact_mod_cast this
        have p1 : pow2 (-126) ≤ pow2 (-3) := by decide +kernel
        have := pow2_pos (-3)
        nlinarith
      · rw [e8]
        have : (1000 : Rat) ≤ pow2 126 := by decide +kernel
        rw [abs_le]; constructor <;> linarith

/-! ### Rounding errors of the polynomial -/

theorem exp2P_fl : fl (exp2P 0) = 42131 / 4194304 ∧ fl (exp2P 1) = 3721611 / 67108864 ∧
    fl (exp2P 2) = 16121479 / 67108864 ∧ fl (exp2P 3) = 11629079 / 16777216 := by
  decide +kernel

/-- The polynomial without the rounding of the operations. -/
def exp2Q (x : Rat) : Rat :=
  (((42131 / 4194304 * x + 3721611 / 67108864) * x + 16121479 / 67108864) * x + 11629079 / 16777216) * x

theorem exp2Poly_error (x : Rat) (hx : |x| ≤ 626 / 10000) : |exp2Poly x - exp2Q x| ≤ 6 / 10 ^ 9 ∧ |exp2Q x| ≤ 45 / 1000 := by
  obtain ⟨q0, q1, q2, q3⟩ := exp2P_fl
  obtain ⟨x1, x2⟩ := abs_le.mp hx
  unfold exp2Poly exp2Q
  rw [q0, q1, q2, q3]
  dsimp only
  -- magnitudes
  have m0 : |(42131 / 4194304 : Rat) * x| ≤ 63 / 100000 := by
    rw [abs_le]; constructor <;> linarith
  obtain ⟨m0a, m0b⟩ := abs_le.mp m0
  have m1 : |(42131 / 4194304 : Rat) * x + 3721611 / 67108864| ≤ 562 / 10000 := by
    rw [abs_le]; constructor <;> linarith
  have m1' : |((42131 / 4194304 : Rat) * x + 3721611 / 67108864) * x| ≤ 352 / 100000 := by
    rw [abs_mul]
    calc _ ≤ (562 / 10000 : Rat) * (626 / 10000) := mul_le_mul m1 hx (abs_nonneg _) (by norm_num)
      _ ≤ _ := by norm_num
  obtain ⟨m1a, m1b⟩ := abs_le.mp m1'
  have m2 : |((42131 / 4194304 : Rat) * x + 3721611 / 67108864) * x + 16121479 / 67108864| ≤ 244 / 1000 := by
    rw [abs_le]; constructor <;> linarith
  have m2' : |(((42131 / 4194304 : Rat) * x + 3721611 / 67108864) * x + 16121479 / 67108864) * x| ≤ 153 / 10000 := by
    rw [abs_mul]
    calc _ ≤ (244 / 1000 : Rat) * (626 / 10000) := mul_le_mul m2 hx (abs_nonneg _) (by norm_num)
      _ ≤ _ := by norm_num
  obtain ⟨m2a, m2b⟩ := abs_le.mp m2'
  have m3 : |(((42131 / 4194304 : Rat) * x + 3721611 / 67108864) * x + 16121479 / 67108864) * x + 11629079 / 16777216| ≤
      709 / 1000 := by
    rw [abs_le]; constructor <;> linarith
  -- errors
  have e0 : |fl (42131 / 4194304 * x) - 42131 / 4194304 * x| ≤ 42 / 10 ^ 12 :=
    fl_mul_near _ _ x 0 (626 / 10000) (11 / 1000) _ (by norm_num) hx (by rw [abs_of_pos] <;> norm_num) (by norm_num) (by norm_num)
  have e1 := fl_add_near _ _ (3721611 / 67108864) _ _ (34 / 10 ^ 10) e0 m1 (by norm_num) (by norm_num)
  have e1' := fl_mul_near _ _ x _ _ _ (43 / 10 ^ 11) e1 hx m1 (by norm_num) (by norm_num)
  have e2 := fl_add_near _ _ (16121479 / 67108864) _ _ (150 / 10 ^ 10) e1' m2 (by norm_num) (by norm_num)
  have e2' := fl_mul_near _ _ x _ _ _ (186 / 10 ^ 11) e2 hx m2 (by norm_num) (by norm_num)
  have e3 := fl_add_near _ _ (11629079 / 16777216) _ _ (4420 / 10 ^ 11) e2' m3 (by norm_num) (by norm_num)
  have e3' := fl_mul_near _ _ x _ _ _ (6 / 10 ^ 9) e3 hx m3 (by norm_num) (by norm_num)
  refine ⟨e3', ?_⟩
  rw [abs_mul]
  calc _ ≤ (709 / 1000 : Rat) * (626 / 10000) := mul_le_mul m3 hx (abs_nonneg _) (by norm_num)
    _ ≤ _ := by norm_num

/-! ### The polynomial against the power -/

open Real in
theorem exp2Q_real (x : ℚ) (hx : |x| ≤ 626 / 10000) :
    |((exp2Q x : ℚ) : ℝ) + 1 - (2 : ℝ) ^ (x : ℝ)| ≤ 35 / 10 ^ 9 := by
  have hx' : |(x : ℝ)| ≤ 626 / 10000 := by
    have : ((|x| : ℚ) : ℝ) ≤ ((626 / 10000 : ℚ) : ℝ) := by exact_mod_cast hx
    push_cast at this; exact this
  have hQ : ((exp2Q x : ℚ) : ℝ) =
      (((42131 / 4194304 * (x : ℝ) + 3721611 / 67108864) * x + 16121479 / 67108864) * x + 11629079 / 16777216) * x := by
    unfold exp2Q; push_cast; ring
  rw [hQ]
  generalize (x : ℝ) = y at hx'
  have l1 := Real.log_two_gt_d9
  have l2 := Real.log_two_lt_d9
  rw [Real.rpow_def_of_pos (by norm_num)]
  generalize Real.log 2 = L at l1 l2
  have L0 : 0 < L := by linarith
  have ht : |L * y| ≤ 434 / 10000 := by
    rw [abs_mul, abs_of_pos L0]
    calc L * |y| ≤ 0.6931471808 * (626 / 10000) := mul_le_mul (le_of_lt l2) hx' (abs_nonneg _) (by norm_num)
      _ ≤ _ := by norm_num
  have hb := Real.exp_bound (x := L * y) (by linarith) (n := 6) (by norm_num)
  have h6 : |L * y| ^ 6 ≤ (434 / 10000) ^ 6 := pow_le_pow_left₀ (abs_nonneg _) ht 6
  have hb2 : |Real.exp (L * y) - ∑ m ∈ Finset.range 6, (L * y) ^ m / m.factorial| ≤ 2 / 10 ^ 11 := by
    refine le_trans hb ?_
    have : ((Nat.succ 6 : ℕ) : ℝ) / ((Nat.factorial 6 : ℕ) * (6 : ℕ)) = 7 / 4320 := by
      norm_num [Nat.factorial]
    rw [this]
    calc |L * y| ^ 6 * (7 / 4320) ≤ (434 / 10000) ^ 6 * (7 / 4320) := by
          apply mul_le_mul_of_nonneg_right h6 (by norm_num)
      _ ≤ _ := by norm_num
  have hs : ∑ m ∈ Finset.range 6, (L * y) ^ m / m.factorial =
      1 + L * y + L ^ 2 / 2 * y ^ 2 + L ^ 3 / 6 * y ^ 3 + L ^ 4 / 24 * y ^ 4 + L ^ 5 / 120 * y ^ 5 := by
    simp only [Finset.sum_range_succ, Finset.sum_range_zero, Nat.factorial]
    push_cast
    ring
  rw [hs] at hb2
  obtain ⟨h1, h2⟩ := abs_le.mp hb2
  have low (n : ℕ) : (0.6931471803 : ℝ) ^ n ≤ L ^ n := pow_le_pow_left₀ (by norm_num) (le_of_lt l1) n
  have upp (n : ℕ) : L ^ n ≤ (0.6931471808 : ℝ) ^ n := pow_le_pow_left₀ (le_of_lt L0) (le_of_lt l2) n
  have yp (n : ℕ) : |y ^ n| ≤ (626 / 10000) ^ n := by
    rw [abs_pow]; exact pow_le_pow_left₀ (abs_nonneg _) hx' n
  have term (r δ X B : ℝ) (z : ℝ) (hr : |r| ≤ δ) (hz : |z| ≤ X) (hB : δ * X ≤ B) : |r * z| ≤ B := by
    rw [abs_mul]
    exact le_trans (mul_le_mul hr hz (abs_nonneg _) (le_trans (abs_nonneg _) hr)) hB
  have t1 : |(L - 11629079 / 16777216) * y| ≤ 37 / 10 ^ 10 := by
    refine term _ (58 / 10 ^ 9) (626 / 10000) _ y ?_ hx' (by norm_num)
    rw [abs_le]; constructor <;> linarith
  have t2 : |(L ^ 2 / 2 - 16121479 / 67108864) * y ^ 2| ≤ 90 / 10 ^ 10 := by
    refine term _ (2256 / 10 ^ 9) _ _ _ ?_ (yp 2) (by norm_num)
    have a := low 2
    have b := upp 2
    norm_num at a b
    rw [abs_le]; constructor <;> linarith
  have t3 : |(L ^ 3 / 6 - 3721611 / 67108864) * y ^ 3| ≤ 118 / 10 ^ 10 := by
    refine term _ (4780 / 10 ^ 8) _ _ _ ?_ (yp 3) (by norm_num)
    have a := low 3
    have b := upp 3
    norm_num at a b
    rw [abs_le]; constructor <;> linarith
  have t4 : |(L ^ 4 / 24 - 42131 / 4194304) * y ^ 4| ≤ 66 / 10 ^ 10 := by
    refine term _ (42672 / 10 ^ 8) _ _ _ ?_ (yp 4) (by norm_num)
    have a := low 4
    have b := upp 4
    norm_num at a b
    rw [abs_le]; constructor <;> linarith
  have t5 : |L ^ 5 / 120 * y ^ 5| ≤ 13 / 10 ^ 10 := by
    refine term _ (1334 / 10 ^ 6) _ _ _ ?_ (yp 5) (by norm_num)
    have b := upp 5
    have : 0 ≤ L ^ 5 := by positivity
    norm_num at b
    rw [abs_le]; constructor <;> linarith
  obtain ⟨t1a, t1b⟩ := abs_le.mp t1
  obtain ⟨t2a, t2b⟩ := abs_le.mp t2
  obtain ⟨t3a, t3b⟩ := abs_le.mp t3
  obtain ⟨t4a, t4b⟩ := abs_le.mp t4
  obtain ⟨t5a, t5b⟩ := abs_le.mp t5
  have ring1 : (((42131 / 4194304 * y + 3721611 / 67108864) * y + 16121479 / 67108864) * y + 11629079 / 16777216) * y + 1 =
      (1 + L * y + L ^ 2 / 2 * y ^ 2 + L ^ 3 / 6 * y ^ 3 + L ^ 4 / 24 * y ^ 4 + L ^ 5 / 120 * y ^ 5) -
      ((L - 11629079 / 16777216) * y + (L ^ 2 / 2 - 16121479 / 67108864) * y ^ 2 + (L ^ 3 / 6 - 3721611 / 67108864) * y ^ 3 +
        (L ^ 4 / 24 - 42131 / 4194304) * y ^ 4 + L ^ 5 / 120 * y ^ 5) := by ring
  rw [ring1]
  rw [abs_le]
  constructor <;> linarith

/-! ### The table -/

theorem exp2E_pow : ∀ i : Fin 8, 9/10 ≤ fl (exp2E.getD i 0) ∧ fl (exp2E.getD i 0) ^ 8 ≤ 2 ^ (i : Nat) * (1 + 33 / 10 ^ 9) ^ 8 ∧
    2 ^ (i : Nat) * (1 - 33 / 10 ^ 9) ^ 8 ≤ fl (exp2E.getD i 0) ^ 8 := by
  decide +kernel

theorem exp2E_real (i : Nat) (hi : i < 8) :
    |((fl (exp2E.getD i 0) : ℚ) : ℝ) - (2 : ℝ) ^ ((i : ℝ) / 8)| ≤ 33 / 10 ^ 9 * (2 : ℝ) ^ ((i : ℝ) / 8) := by
  obtain ⟨h0, h1, h2⟩ := exp2E_pow ⟨i, hi⟩
  simp only at h0 h1 h2
  generalize fl (exp2E.getD i 0) = q at h0 h1 h2
  have r0 : (0 : ℝ) < (2 : ℝ) ^ ((i : ℝ) / 8) := by positivity
  have r8 : ((2 : ℝ) ^ ((i : ℝ) / 8)) ^ 8 = 2 ^ i := by
    rw [← Real.rpow_natCast ((2 : ℝ) ^ ((i : ℝ) / 8)) 8, ← Real.rpow_mul (by norm_num)]
    rw [show (i : ℝ) / 8 * ((8 : ℕ) : ℝ) = (i : ℝ) by push_cast; ring, Real.rpow_natCast]
  generalize (2 : ℝ) ^ ((i : ℝ) / 8) = r at r0 r8
  have q0 : (0 : ℝ) ≤ (q : ℝ) := by
    have : ((9/10 : ℚ) : ℝ) ≤ (q : ℝ) := by exact_mod_cast h0
    push_cast at this; linarith
  have h1' : (q : ℝ) ^ 8 ≤ (r * (1 + 33 / 10 ^ 9)) ^ 8 := by
    rw [mul_pow, r8]
    have : ((q ^ 8 : ℚ) : ℝ) ≤ ((2 ^ i * (1 + 33 / 10 ^ 9) ^ 8 : ℚ) : ℝ) := by exact_mod_cast h1
    push_cast at this; exact this
  have h2' : (r * (1 - 33 / 10 ^ 9)) ^ 8 ≤ (q : ℝ) ^ 8 := by
    rw [mul_pow, r8]
    have : ((2 ^ i * (1 - 33 / 10 ^ 9) ^ 8 : ℚ) : ℝ) ≤ ((q ^ 8 : ℚ) : ℝ) := by exact_mod_cast h2
    push_cast at this; exact this
  have g1 := le_of_pow_le_pow_left₀ (by norm_num) (by positivity) h1'
  have g2 := le_of_pow_le_pow_left₀ (by norm_num) q0 h2'
  rw [abs_le]
  constructor <;> linarith

theorem exp2E_bounds (i : Nat) (hi : i < 8) : 1 ≤ fl (exp2E.getD i 0) ∧ fl (exp2E.getD i 0) ≤ 184 / 100 := by
  have : ∀ i : Fin 8, 1 ≤ fl (exp2E.getD i 0) ∧ fl (exp2E.getD i 0) ≤ 184 / 100 := by decide +kernel
  exact this ⟨i, hi⟩

/-- The power, in the reduced range. -/
theorem rpow_small (d : ℝ) (hd : |d| ≤ 1 / 16) : 956 / 1000 ≤ (2 : ℝ) ^ d ∧ (2 : ℝ) ^ d ≤ 1046 / 1000 := by
  have l1 := Real.log_two_gt_d9
  have l2 := Real.log_two_lt_d9
  rw [Real.rpow_def_of_pos (by norm_num)]
  generalize Real.log 2 = L at l1 l2
  obtain ⟨d1, d2⟩ := abs_le.mp hd
  have a1 := Real.add_one_le_exp (L * d)
  have a2 := Real.add_one_le_exp (-(L * d))
  have ep := Real.exp_pos (L * d)
  have em : Real.exp (L * d) * Real.exp (-(L * d)) = 1 := by rw [← Real.exp_add]; simp
  have b1 : -(434 / 10000) ≤ L * d := by nlinarith
  have b2 : L * d ≤ 434 / 10000 := by nlinarith
  refine ⟨by linarith, ?_⟩
  have : Real.exp (L * d) * (1 - 434 / 10000) ≤ 1 := by
    calc _ ≤ Real.exp (L * d) * Real.exp (-(L * d)) := by
          apply mul_le_mul_of_nonneg_left _ (le_of_lt ep); linarith
      _ = 1 := em
  nlinarith

/-- The effect of the rounding of the operand. -/
theorem rpow_shift (a d : ℝ) (hd : |d| ≤ 1 / 16) (h : |a - d| ≤ 4 / 10 ^ 9) : |(2 : ℝ) ^ a - (2 : ℝ) ^ d| ≤ 6 / 10 ^ 9 := by
  have l1 := Real.log_two_gt_d9
  have l2 := Real.log_two_lt_d9
  obtain ⟨p1, p2⟩ := rpow_small d hd
  have e : (2 : ℝ) ^ a - (2 : ℝ) ^ d = (2 : ℝ) ^ d * ((2 : ℝ) ^ (a - d) - 1) := by
    rw [mul_sub, ← Real.rpow_add (by norm_num), mul_one]; congr 2; ring
  rw [e, abs_mul, abs_of_pos (by linarith), Real.rpow_def_of_pos (by norm_num : (0 : ℝ) < 2) (a - d)]
  have hs : |Real.log 2 * (a - d)| ≤ 28 / 10 ^ 10 := by
    rw [abs_mul, abs_of_pos (by linarith)]
    calc _ ≤ 0.6931471808 * (4 / 10 ^ 9) := mul_le_mul (le_of_lt l2) h (abs_nonneg _) (by norm_num)
      _ ≤ _ := by norm_num
  have := Real.abs_exp_sub_one_le (x := Real.log 2 * (a - d)) (by linarith)
  have h0 : 0 ≤ |Real.exp (Real.log 2 * (a - d)) - 1| := abs_nonneg _
  calc _ ≤ 1046 / 1000 * (2 * (28 / 10 ^ 10)) := mul_le_mul p2 (by linarith) h0 (by norm_num)
    _ ≤ _ := by norm_num

/-- The mantissa before the last rounding, and after it. -/
theorem exp2_mantissa (d : ℚ) (hd : |d| ≤ 1 / 16) (i : Nat) (hi : i < 8) :
    let z := fl (exp2Poly (fl d) + 1)
    let w := z * fl (exp2E.getD i 0)
    (9 / 10 ≤ w ∧ w ≤ 194 / 100) ∧
    |((fl w : ℚ) : ℝ) - (2 : ℝ) ^ ((i : ℝ) / 8) * (2 : ℝ) ^ (d : ℝ)| ≤ 22 / 10 ^ 8 * ((2 : ℝ) ^ ((i : ℝ) / 8) * (2 : ℝ) ^ (d : ℝ)) := by
  intro z w
  have h126 : (1000 : Rat) ≤ pow2 126 := by decide +kernel
  have hd' : |(d : ℝ)| ≤ 1 / 16 := by
    have : ((|d| : ℚ) : ℝ) ≤ ((1 / 16 : ℚ) : ℝ) := by exact_mod_cast hd
    push_cast at this; exact this
  -- the operand
  have f1 : |fl d - d| ≤ 4 / 10 ^ 9 :=
    fl_near d d 0 (1 / 16) _ (by norm_num) hd (by norm_num) (by norm_num)
  have f2 : |fl d| ≤ 626 / 10000 := by
    rw [abs_le] at f1 hd ⊢; constructor <;> linarith
  have f1' : |((fl d : ℚ) : ℝ) - (d : ℝ)| ≤ 4 / 10 ^ 9 := by
    have : ((|fl d - d| : ℚ) : ℝ) ≤ ((4 / 10 ^ 9 : ℚ) : ℝ) := by exact_mod_cast f1
    push_cast at this; exact this
  -- the polynomial
  obtain ⟨g1, g2⟩ := exp2Poly_error (fl d) f2
  have g3 : |exp2Q (fl d) + 1| ≤ 1045 / 1000 := by
    rw [abs_le] at g2 ⊢; constructor <;> linarith
  have g4 : |z - (exp2Q (fl d) + 1)| ≤ 69 / 10 ^ 9 :=
    fl_add_near _ _ 1 _ _ _ g1 g3 (by norm_num) (by norm_num)
  have g4' : |(z : ℝ) - (((exp2Q (fl d) : ℚ) : ℝ) + 1)| ≤ 69 / 10 ^ 9 := by
    have : ((|z - (exp2Q (fl d) + 1)| : ℚ) : ℝ) ≤ ((69 / 10 ^ 9 : ℚ) : ℝ) := by exact_mod_cast g4
    push_cast at this; exact this
  have g5 := exp2Q_real (fl d) f2
  have g6 := rpow_shift ((fl d : ℚ) : ℝ) d hd' f1'
  obtain ⟨p1, p2⟩ := rpow_small (d : ℝ) hd'
  have hz : |(z : ℝ) - (2 : ℝ) ^ (d : ℝ)| ≤ 11 / 10 ^ 8 := by
    rw [abs_le] at g4' g5 g6 ⊢
    constructor <;> linarith
  -- the product
  have he := exp2E_real i hi
  obtain ⟨q1, q2⟩ := exp2E_bounds i hi
  have r1 : (1 : ℝ) ≤ (2 : ℝ) ^ ((i : ℝ) / 8) := Real.one_le_rpow (by norm_num) (by positivity)
  have hw : w = z * fl (exp2E.getD i 0) := rfl
  have zb : 955 / 1000 ≤ z ∧ z ≤ 1047 / 1000 := by
    rw [abs_le] at hz
    constructor
    · have : ((955 / 1000 : ℚ) : ℝ) ≤ (z : ℝ) := by push_cast; linarith
      exact_mod_cast this
    · have : (z : ℝ) ≤ ((1047 / 1000 : ℚ) : ℝ) := by push_cast; linarith
      exact_mod_cast this
  have wb : 9 / 10 ≤ w ∧ w ≤ 194 / 100 := by
    rw [hw]
    constructor <;> nlinarith
  refine ⟨wb, ?_⟩
  have hf : |fl w - w| ≤ w / 2 ^ 24 + 1 / 2 ^ 100 := by
    have h1 := fl_error w (by rw [abs_of_pos (by linarith)]; linarith)
    rw [abs_of_pos (show 0 < w by linarith)] at h1
    have : pow2 (-150) ≤ 1 / 2 ^ 100 := by decide +kernel
    linarith
  have hf' : |((fl w : ℚ) : ℝ) - (w : ℝ)| ≤ (w : ℝ) * (6 / 10 ^ 8) := by
    have h2 : |fl w - w| ≤ w * (6 / 10 ^ 8) := by
      refine le_trans hf ?_
      norm_num
      linarith
    have : ((|fl w - w| : ℚ) : ℝ) ≤ ((w * (6 / 10 ^ 8) : ℚ) : ℝ) := by exact_mod_cast h2
    push_cast at this; exact this
  have hwr : (w : ℝ) = (z : ℝ) * ((fl (exp2E.getD i 0) : ℚ) : ℝ) := by rw [hw]; push_cast; ring
  have zb' : (955 / 1000 : ℝ) ≤ z ∧ (z : ℝ) ≤ 1047 / 1000 := by
    rw [abs_le] at hz
    constructor <;> linarith
  clear_value w
  clear_value z
  generalize ((fl (exp2E.getD i 0) : ℚ) : ℝ) = E at he hwr
  generalize (2 : ℝ) ^ ((i : ℝ) / 8) = e at he r1 ⊢
  generalize (2 : ℝ) ^ (d : ℝ) = D at hz p1 p2 ⊢
  generalize (w : ℝ) = W at hwr hf' ⊢
  generalize ((fl w : ℚ) : ℝ) = y at hf' ⊢
  generalize (z : ℝ) = Z at hz zb' hwr
  have e0 : 0 < e := by linarith
  -- |W - e D| <= e * 1.46e-7
  have k1 : |W - e * D| ≤ e * (146 / 10 ^ 9) := by
    have : W - e * D = Z * (E - e) + e * (Z - D) := by rw [hwr]; ring
    rw [this]
    refine le_trans (abs_add_le _ _) ?_
    rw [abs_mul, abs_mul, abs_of_pos e0, abs_of_pos (show 0 < Z by linarith)]
    have a1 : Z * |E - e| ≤ 1047 / 1000 * (33 / 10 ^ 9 * e) := mul_le_mul zb'.2 he (abs_nonneg _) (by norm_num)
    have a2 : e * |Z - D| ≤ e * (11 / 10 ^ 8) := mul_le_mul_of_nonneg_left hz (le_of_lt e0)
    linarith
  have k2 : W ≤ e * (105 / 100) := by
    rw [abs_le] at k1
    have : e * D ≤ e * (1046 / 1000) := mul_le_mul_of_nonneg_left p2 (le_of_lt e0)
    nlinarith [k1.2]
  have k3 : e * (956 / 1000) ≤ e * D := mul_le_mul_of_nonneg_left p1 (le_of_lt e0)
  rw [abs_le] at hf' k1 ⊢
  constructor <;> nlinarith [hf'.1, hf'.2, k1.1, k1.2]

end LC3
