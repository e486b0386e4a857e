import Verif.Lemmas.Db

/-!
C66: accuracy and monotony of `lc3_db_q16` of `src/fastmath.h`.
-/

namespace LC3

/-- The terms of the error. -/
theorem db_combine (t V V' lo s I A A' X : ℝ) (h1 : lo ≤ 65536 * s) (h2 : 65536 * s ≤ lo + 1) (h3 : t * lo < (I + 1) * 65536)
    (h4 : I * 65536 ≤ t * lo) (h5 : t ≤ V' - V + 1) (h6 : V' - V - 1 ≤ t) (h7 : 1 ≤ t) (h8 : t ≤ 4379) (h9 : |V - A| ≤ 1)
    (h10 : |V' - A'| ≤ 1) (h11 : (1 - s) * A + s * A' ≤ X) (h12 : X ≤ (1 - s) * A + s * A' + 70) (h13 : 0 ≤ s) (h14 : s ≤ 1) :
    |V + I - X| ≤ 74 := by
  have a1 : t * lo ≤ t * (65536 * s) := mul_le_mul_of_nonneg_left h1 (by linarith)
  have a2 : t * (65536 * s) ≤ t * (lo + 1) := mul_le_mul_of_nonneg_left h2 (by linarith)
  have b1 : s * t ≤ s * (V' - V + 1) := mul_le_mul_of_nonneg_left h5 h13
  have b2 : s * (V' - V - 1) ≤ s * t := mul_le_mul_of_nonneg_left h6 h13
  rw [abs_le] at h9 h10
  have c1 : s * (V' - A') ≤ s * 1 := mul_le_mul_of_nonneg_left h10.2 h13
  have c2 : s * -1 ≤ s * (V' - A') := mul_le_mul_of_nonneg_left h10.1 h13
  have c3 : (1 - s) * (V - A) ≤ (1 - s) * 1 := mul_le_mul_of_nonneg_left h9.2 (by linarith)
  have c4 : (1 - s) * -1 ≤ (1 - s) * (V - A) := mul_le_mul_of_nonneg_left h9.1 (by linarith)
  rw [abs_le]
  constructor <;> linarith

/-- The result by octave, with the table `dbV`. -/
theorem dbQ16_eq (E M : Nat) (f3 : M < 2 ^ 23) :
    dbQ16 (E * 2 ^ 23 + M) =
      ((E : Int) - 127) * 98642 + dbV (M / 2 ^ 18) + ((dbTable.getD (M / 2 ^ 18) (0, 0)).2 * (M % 2 ^ 18 / 4) / 65536 : Nat) := by
  have hh : M / 2 ^ 18 < 32 := by omega
  have d1 : (E * 2 ^ 23 + M) >>> 22 = 2 * E + M / 2 ^ 22 := by rw [Nat.shiftRight_eq_div_pow]; omega
  have d2 : ((E * 2 ^ 23 + M) >>> 18) % 32 = M / 2 ^ 18 := by rw [Nat.shiftRight_eq_div_pow]; omega
  have d3 : ((E * 2 ^ 23 + M) >>> 2) % 65536 = (M % 2 ^ 18) / 4 := by rw [Nat.shiftRight_eq_div_pow]; omega
  have hV : (dbV (M / 2 ^ 18) : Int) = ((dbTable.getD (M / 2 ^ 18) (0, 0)).1 : Int) + (M / 2 ^ 22 : Nat) * 49321 := by
    unfold dbV
    rw [if_neg (by omega)]
    by_cases c : 16 ≤ M / 2 ^ 18
    · rw [if_pos c, show M / 2 ^ 22 = 1 by omega]; push_cast; ring
    · rw [if_neg c, show M / 2 ^ 22 = 0 by omega]; push_cast; ring
  unfold dbQ16
  dsimp only
  rw [d1, d2, d3, hV, Nat.shiftRight_eq_div_pow]
  generalize (dbTable.getD (M / 2 ^ 18) (0, 0)) = t
  generalize M / 2 ^ 22 = k
  generalize M % 2 ^ 18 / 4 = l
  push_cast
  ring

/-- The logarithm by octave. -/
theorem db_log (E h r M : Nat) (hM : M = h * 2 ^ 18 + r) :
    2 ^ 15 * (10 * Real.logb 10 (((((2 ^ 23 + M : Nat) : Rat) * pow2 ((E : Int) - 150) : ℚ)) : ℝ)) =
      ((E : ℝ) - 127) * dbA 32 + 327680 * Real.logb 10 ((32 + (h : ℝ) + (r : ℝ) / 2 ^ 18) / 32) := by
  have hp : ((pow2 ((E : Int) - 150) : ℚ) : ℝ) = (2 : ℝ) ^ ((E : ℝ) - 127) * (1 / 2 ^ 23) := by
    rw [pow2_eq]
    push_cast
    rw [show (E : Int) - 150 = ((E : Int) - 127) + (-23) by ring, zpow_add₀ (by norm_num), ← Real.rpow_intCast]
    push_cast
    norm_num
  have hM' : (M : ℝ) = h * 2 ^ 18 + r := by rw [hM]; push_cast; ring
  have e : (((((2 ^ 23 + M : Nat) : Rat) * pow2 ((E : Int) - 150) : ℚ)) : ℝ) =
      (2 : ℝ) ^ ((E : ℝ) - 127) * ((32 + (h : ℝ) + (r : ℝ) / 2 ^ 18) / 32) := by
    push_cast
    rw [hp, hM']
    ring
  have e32 : dbA 32 = 327680 * Real.logb 10 2 := by unfold dbA; norm_num
  rw [e, Real.logb_mul (by positivity) (by positivity), Real.logb_rpow_eq_mul_logb_of_pos (by norm_num), e32]
  ring

/-- **C66.** `lc3_db_q16` from the square: within 138 units of `2^-15` dB (0.0043 dB) of `10 log10`, for any positive normal number. -/
theorem C66_db_square (u : Nat) (hu : F32.Finite u) (hs : F32.sign u = false) (hn : F32.exp u ≠ 0) :
    |(dbQ16 u : ℝ) - 2 ^ 15 * (10 * Real.logb 10 ((F32.value u : ℚ) : ℝ))| ≤ 138 := by
  obtain ⟨f1, f2, f3⟩ := f32_fields u hu.1
  have h254 := hu.2
  rw [hs] at f1
  simp only [Bool.false_eq_true, if_false, Nat.zero_add] at f1
  have hv : F32.value u = ((2 ^ 23 + F32.mant u : Nat) : Rat) * pow2 ((F32.exp u : Int) - 150) := by
    rw [f32_value_normal u hn, hs]; simp
  rw [hv]
  generalize F32.exp u = E at f1 f2 hn h254
  generalize F32.mant u = M at f1 f3
  rw [f1, dbQ16_eq E M f3]
  obtain ⟨h, r, hr, hM⟩ : ∃ h r : Nat, r < 2 ^ 18 ∧ M = h * 2 ^ 18 + r := ⟨M / 2 ^ 18, M % 2 ^ 18, by omega, by omega⟩
  have hh : h < 32 := by omega
  rw [db_log E h r M hM, show M / 2 ^ 18 = h by omega, show M % 2 ^ 18 = r by omega]
  clear hM f1 f3 hv
  obtain ⟨sl1, sl2, sl3, sl4, sl5⟩ := dbSlope_ok ⟨h, hh⟩
  simp only at sl1 sl2 sl3 sl4 sl5
  have hs0 : (0 : ℝ) ≤ (r : ℝ) / 2 ^ 18 := by positivity
  have hs1 : (r : ℝ) / 2 ^ 18 ≤ 1 := by
    rw [div_le_iff₀ (by positivity), one_mul]
    exact_mod_cast (show r ≤ 2 ^ 18 by omega)
  obtain ⟨c1, c2⟩ := db_chord h ((r : ℝ) / 2 ^ 18) hs0 hs1
  have n1 := dbA_near h (by omega)
  have n2 := dbA_near (h + 1) (by omega)
  have n3 := dbA_octave
  generalize (dbTable.getD h (0, 0)).2 = t at *
  generalize dbV h = V at *
  generalize dbV (h + 1) = V' at *
  have key : |(V : ℝ) + ((t * (r / 4) / 65536 : Nat) : ℝ) - 327680 * Real.logb 10 ((32 + (h : ℝ) + (r : ℝ) / 2 ^ 18) / 32)| ≤ 74 := by
    have p1 : t * (r / 4) < (t * (r / 4) / 65536 + 1) * 65536 := by omega
    have p2 : (t * (r / 4) / 65536) * 65536 ≤ t * (r / 4) := by omega
    refine db_combine t V V' ((r / 4 : Nat) : ℝ) ((r : ℝ) / 2 ^ 18) _ (dbA h) (dbA (h + 1)) _ ?_ ?_ ?_ ?_ ?_ ?_ ?_ ?_ n1 n2 c1 c2 hs0 hs1
    · have : (((r / 4 : Nat) * 4 : Nat) : ℝ) ≤ (r : ℝ) := by exact_mod_cast (show r / 4 * 4 ≤ r by omega)
      push_cast at this ⊢; linarith
    · have : (r : ℝ) ≤ (((r / 4 : Nat) * 4 + 4 : Nat) : ℝ) := by exact_mod_cast (show r ≤ r / 4 * 4 + 4 by omega)
      push_cast at this ⊢; linarith
    · exact_mod_cast p1
    · exact_mod_cast p2
    · have : ((t + V : Nat) : ℝ) ≤ ((V' + 1 : Nat) : ℝ) := by exact_mod_cast (show t + V ≤ V' + 1 by omega)
      push_cast at this; linarith
    · have : ((V' : Nat) : ℝ) ≤ ((V + t + 1 : Nat) : ℝ) := by exact_mod_cast sl2
      push_cast at this; linarith
    · exact_mod_cast sl3
    · exact_mod_cast sl5
  generalize 327680 * Real.logb 10 ((32 + (h : ℝ) + (r : ℝ) / 2 ^ 18) / 32) = X at key
  generalize t * (r / 4) / 65536 = I at key
  generalize dbA 32 = A at n3
  have hE1 : |(E : ℝ) - 127| ≤ 127 := by
    have a : (E : ℝ) ≤ 254 := by exact_mod_cast (show E ≤ 254 by omega)
    have b : (0 : ℝ) ≤ E := by positivity
    rw [abs_le]; constructor <;> linarith
  have hoct : |((E : ℝ) - 127) * 98642 - ((E : ℝ) - 127) * A| ≤ 127 / 2 := by
    rw [← mul_sub, abs_mul]
    calc _ ≤ 127 * (1 / 2 : ℝ) := mul_le_mul hE1 n3 (abs_nonneg _) (by norm_num)
      _ = _ := by norm_num
  push_cast
  rw [abs_le] at key hoct ⊢
  constructor <;> linarith

/-- The square of a number of the range is a normal number. -/
theorem square_normal (x : Rat) (h1 : pow2 (-63) ≤ |x|) (h2 : |x| ≤ pow2 63) :
    F32.Finite (F32.round (x * x)) ∧ F32.sign (F32.round (x * x)) = false ∧ F32.exp (F32.round (x * x)) ≠ 0 ∧
    |fl (x * x) - x * x| ≤ x * x / 2 ^ 24 ∧ 0 < x * x := by
  have hp := pow2_pos (-63)
  have e : x * x = |x| * |x| := (abs_mul_abs_self x).symm
  have a1 : pow2 (-126) ≤ x * x := by
    rw [e, show (-126 : Int) = -63 + -63 by ring, pow2_add]
    exact mul_le_mul h1 h1 (le_of_lt hp) (abs_nonneg _)
  have a2 : x * x ≤ pow2 126 := by
    rw [e, show (126 : Int) = 63 + 63 by ring, pow2_add]
    exact mul_le_mul h2 h2 (abs_nonneg _) (le_of_lt (pow2_pos _))
  have a0 : 0 < x * x := lt_of_lt_of_le (pow2_pos _) a1
  have ea : |x * x| = x * x := abs_of_pos a0
  obtain ⟨hf, -⟩ := fl_cases (x * x) (by rw [ea]; exact a2)
  have hr : fl (x * x) = rne24 (x * x) := fl_normal _ (by rw [ea]; exact a1) (by rw [ea]; exact a2)
  have hlow : pow2 (-126) ≤ fl (x * x) := by
    rw [hr]
    have := rne24_mono _ _ a1
    have e1 := rne24_exact 1 (-126) (by decide)
    rw [Int.cast_one, one_mul] at e1
    rwa [e1] at this
  obtain ⟨s1, s2, s3, -, -⟩ := roundPos_spec (x * x) a0 a2
  have hro : F32.round (x * x) = F32.roundPos (x * x) := by
    unfold F32.round; rw [if_neg (not_lt.mpr (le_of_lt a0))]
  refine ⟨hf, by rw [hro]; exact s3, ?_, ?_, a0⟩
  · intro c
    have hm := f32_mag_sub _ hf.1 c
    rw [← f32_mag_eq] at hm
    have : F32.value (F32.round (x * x)) = fl (x * x) := rfl
    rw [this, abs_of_pos (lt_of_lt_of_le (pow2_pos _) hlow)] at hm
    linarith
  · rw [hr]
    have := rne24_error (x * x)
    rwa [ea] at this

/-- **C66.** `lc3_db_q16`: for any number of magnitude `2^-63` to `2^63`, the result, in units of `2^-16` dB, is within 139 units
(0.0022 dB) of `10 log10 |x|`. -/
theorem C66_db (u : Nat) (h1 : pow2 (-63) ≤ |F32.value u|) (h2 : |F32.value u| ≤ pow2 63) :
    |(dbQ16Of u : ℝ) - 2 ^ 16 * (10 * Real.logb 10 |((F32.value u : ℚ) : ℝ)|)| ≤ 139 := by
  obtain ⟨f1, f2, f3, f4, f5⟩ := square_normal _ h1 h2
  have h := C66_db_square _ f1 f2 f3
  unfold dbQ16Of
  have hfl : F32.value (F32.round (F32.value u * F32.value u)) = fl (F32.value u * F32.value u) := rfl
  rw [hfl] at h
  generalize F32.round (F32.value u * F32.value u) = w at h
  generalize hx : F32.value u = x at h f4 f5 ⊢
  have x0 : (0 : ℝ) < (x : ℝ) * x := by exact_mod_cast f5
  have f4' : |((fl (x * x) : ℚ) : ℝ) - (x : ℝ) * x| ≤ (x : ℝ) * x / 2 ^ 24 := by
    have : ((|fl (x * x) - x * x| : ℚ) : ℝ) ≤ ((x * x / 2 ^ 24 : ℚ) : ℝ) := by exact_mod_cast f4
    push_cast at this; exact this
  have e : 2 ^ 16 * (10 * Real.logb 10 |(x : ℝ)|) = 2 ^ 15 * (10 * Real.logb 10 ((x : ℝ) * x)) := by
    rw [← abs_mul_abs_self, ← pow_two, Real.logb_pow]; push_cast; ring
  rw [e]
  generalize ((fl (x * x) : ℚ) : ℝ) = X at h f4'
  generalize (x : ℝ) * x = Y at x0 f4'
  have X0 : 0 < X := by rw [abs_le] at f4'; linarith [f4'.1]
  have ten : (2 : ℝ) < Real.log 10 := by
    have l1 := Real.log_two_gt_d9
    have : Real.log ((2 : ℝ) ^ 33) ≤ Real.log ((10 : ℝ) ^ 10) := Real.log_le_log (by positivity) (by norm_num)
    rw [Real.log_pow, Real.log_pow] at this
    push_cast at this
    linarith
  have g1 : Real.log X - Real.log Y ≤ 1 / 2 ^ 23 := by
    rw [← Real.log_div (by linarith) (by linarith)]
    refine le_trans (Real.log_le_sub_one_of_pos (by positivity)) ?_
    rw [abs_le] at f4'
    rw [sub_le_iff_le_add, div_le_iff₀ x0]
    linarith [f4'.2]
  have g2 : Real.log Y - Real.log X ≤ 1 / 2 ^ 23 := by
    rw [← Real.log_div (by linarith) (by linarith)]
    refine le_trans (Real.log_le_sub_one_of_pos (by positivity)) ?_
    rw [abs_le] at f4'
    rw [sub_le_iff_le_add, div_le_iff₀ X0]
    linarith [f4'.1]
  have g3 : |Real.logb 10 X - Real.logb 10 Y| ≤ 1 / 2 ^ 23 := by
    unfold Real.logb
    rw [← sub_div, abs_div, abs_of_pos (show 0 < Real.log 10 by linarith), div_le_iff₀ (by linarith), abs_le]
    constructor <;> nlinarith
  rw [abs_le] at h g3 ⊢
  constructor <;> linarith [h.1, h.2, g3.1, g3.2]

/-- Non-vacuity, and the value documented for 0: -191 dB. -/
example : (pow2 (-63) ≤ |F32.value 0x41200000| ∧ |F32.value 0x41200000| ≤ pow2 63) ∧ F32.value 0x41200000 = 10 ∧
    dbQ16Of 0x41200000 = 655363 ∧ dbQ16Of 0 = -12527534 := by
  decide +kernel

/-- Steps of the table. -/
theorem dbStep_ok : ∀ q : Fin 32, ((q : Nat) / 16 * 49321 + (dbTable.getD q (0, 0)).1 + (dbTable.getD q (0, 0)).2 - 1 ≤
      ((q + 1 : Nat) / 16) * 49321 + (dbTable.getD ((q + 1 : Nat) % 32) (0, 0)).1) ∧ 1 ≤ (dbTable.getD q (0, 0)).2 := by
  decide +kernel

/-- **C66.** `lc3_db_q16` is monotone: a greater square never gives a lower level, on all the representations. -/
theorem C66_db_mono (u v : Nat) (h : u ≤ v) : dbQ16 u ≤ dbQ16 v := by
  have form : ∀ u, dbQ16 u = ((u / 2 ^ 18 / 16 : Nat) : Int) * 49321 - 254 * 49321 +
      ((dbTable.getD (u / 2 ^ 18 % 32) (0, 0)).1 + (dbTable.getD (u / 2 ^ 18 % 32) (0, 0)).2 * (u / 4 % 65536) / 65536 : Nat) := by
    intro u
    unfold dbQ16
    dsimp only
    rw [Nat.shiftRight_eq_div_pow, Nat.shiftRight_eq_div_pow, Nat.shiftRight_eq_div_pow, Nat.shiftRight_eq_div_pow,
      show u / 2 ^ 22 = u / 2 ^ 18 / 16 by omega]
    generalize dbTable.getD (u / 2 ^ 18 % 32) (0, 0) = t
    generalize u / 2 ^ 18 / 16 = k
    push_cast
    ring
  -- one step
  have step : ∀ q l, l < 65536 → ∀ q' l', q < q' →
      ((q / 16 : Nat) : Int) * 49321 + ((dbTable.getD (q % 32) (0, 0)).1 + (dbTable.getD (q % 32) (0, 0)).2 * l / 65536 : Nat) ≤
      ((q' / 16 : Nat) : Int) * 49321 + ((dbTable.getD (q' % 32) (0, 0)).1 + (dbTable.getD (q' % 32) (0, 0)).2 * l' / 65536 : Nat) := by
    have one : ∀ q, ((q / 16 : Nat) : Int) * 49321 + ((dbTable.getD (q % 32) (0, 0)).1 + (dbTable.getD (q % 32) (0, 0)).2 - 1 : Nat) ≤
        (((q + 1) / 16 : Nat) : Int) * 49321 + ((dbTable.getD ((q + 1) % 32) (0, 0)).1 : Nat) := by
      intro q
      obtain ⟨h1, h2⟩ := dbStep_ok ⟨q % 32, by omega⟩
      simp only at h1 h2
      rw [show (q % 32 + 1) % 32 = (q + 1) % 32 by omega] at h1
      have e1 : q / 16 = 2 * (q / 32) + q % 32 / 16 := by omega
      have e2 : (q + 1) / 16 = 2 * (q / 32) + (q % 32 + 1) / 16 := by omega
      rw [e1, e2]
      generalize (dbTable.getD (q % 32) (0, 0)) = t at *
      generalize (dbTable.getD ((q + 1) % 32) (0, 0)) = t' at *
      generalize q % 32 / 16 = a at *
      generalize (q % 32 + 1) / 16 = b at *
      push_cast
      omega
    have low : ∀ q, 1 ≤ (dbTable.getD (q % 32) (0, 0)).2 := fun q => (dbStep_ok ⟨q % 32, by omega⟩).2
    have many : ∀ d q, ((q / 16 : Nat) : Int) * 49321 + ((dbTable.getD (q % 32) (0, 0)).1 + (dbTable.getD (q % 32) (0, 0)).2 - 1 : Nat) ≤
        (((q + d + 1) / 16 : Nat) : Int) * 49321 + ((dbTable.getD ((q + d + 1) % 32) (0, 0)).1 : Nat) := by
      intro d
      induction d with
      | zero => exact one
      | succ d ih =>
        intro q
        have a := ih q
        have b := one (q + d + 1)
        have c := low (q + d + 1)
        rw [show q + (d + 1) + 1 = q + d + 1 + 1 by omega]
        omega
    intro q l hl q' l' hq
    obtain ⟨d, rfl⟩ : ∃ d, q' = q + d + 1 := ⟨q' - q - 1, by omega⟩
    have m := many d q
    have c := low q
    have : (dbTable.getD (q % 32) (0, 0)).2 * l / 65536 ≤ (dbTable.getD (q % 32) (0, 0)).2 - 1 := by
      have : (dbTable.getD (q % 32) (0, 0)).2 * l / 65536 < (dbTable.getD (q % 32) (0, 0)).2 := by
        rw [Nat.div_lt_iff_lt_mul (by omega)]
        exact Nat.mul_lt_mul_of_pos_left hl (by omega)
      omega
    omega
  rw [form u, form v]
  by_cases c : u / 2 ^ 18 = v / 2 ^ 18
  · rw [c]
    have : (dbTable.getD (v / 2 ^ 18 % 32) (0, 0)).2 * (u / 4 % 65536) / 65536 ≤
        (dbTable.getD (v / 2 ^ 18 % 32) (0, 0)).2 * (v / 4 % 65536) / 65536 :=
      Nat.div_le_div_right (Nat.mul_le_mul_left _ (by omega))
    omega
  · have := step (u / 2 ^ 18) (u / 4 % 65536) (by omega) (v / 2 ^ 18) (v / 4 % 65536) (by omega)
    omega

end LC3
