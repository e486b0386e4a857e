import Verif.Model.Fastmath
import Verif.Lemmas.Float
import Verif.Lemmas.Pcm

/-!
The rounding of binary32 with its representation, and the error of the operations.
-/

namespace LC3

theorem expOf_eq (a : Rat) : F32.expOf a = max (rneExp a) (-126) := rfl

/-- The magnitude of the representation made of a scaled mantissa. -/
theorem f32_of_scaled (E : Int) (n : Int) (hE : -126 ≤ E) (hE' : E ≤ 126) (h0 : 0 ≤ n) (hn : n ≤ 2 ^ 24)
    (hs : -126 < E → 2 ^ 23 ≤ n) :
    let p := ((E + 126) * 2 ^ 23 + n).toNat
    p < 255 * 2 ^ 23 ∧ F32.exp p < 255 ∧ F32.sign p = false ∧ F32.mag p = n * pow2 (E - 23) := by
  intro p
  obtain ⟨e, he⟩ := Int.eq_ofNat_of_zero_le (show 0 ≤ E + 126 by omega)
  obtain ⟨m, rfl⟩ := Int.eq_ofNat_of_zero_le h0
  have hp : p = e * 2 ^ 23 + m := by
    simp only [p]; rw [he]
    show ((e : Int) * 2 ^ 23 + (m : Int)).toNat = _
    omega
  have hE2 : E = (e : Int) - 126 := by omega
  subst hE2
  clear_value p
  subst hp
  norm_num at hn hs hE' ⊢
  have hm : m ≤ 16777216 := by exact_mod_cast hn
  have h1 : F32.sign (e * 8388608 + m) = false := by
    unfold F32.sign; rw [decide_eq_false_iff_not]; omega
  refine ⟨by omega, ?_, h1, ?_⟩
  · unfold F32.exp; omega
  · unfold F32.mag
    by_cases c : m < 8388608
    · have e0 : e = 0 := by
        by_contra c0
        have := hs (by omega)
        have : 8388608 ≤ m := by exact_mod_cast this
        omega
      subst e0
      have x0 : F32.exp (0 * 8388608 + m) = 0 := by unfold F32.exp; omega
      have x1 : F32.mant (0 * 8388608 + m) = m := by unfold F32.mant; omega
      rw [if_pos x0, x1]
      norm_num
    · by_cases c2 : m = 16777216
      · have x0 : F32.exp (e * 8388608 + m) = e + 2 := by unfold F32.exp; omega
        have x1 : F32.mant (e * 8388608 + m) = 0 := by unfold F32.mant; omega
        rw [if_neg (by omega), x0, x1]
        have : pow2 (((e + 2 : Nat) : Int) - 150) = 2 * pow2 ((e : Int) - 126 - 23) := by
          rw [show (2 : Rat) = pow2 (1 : Nat) by rw [pow2_nat]; norm_num, ← pow2_add]
          congr 1; push_cast; ring
        rw [this, c2]
        push_cast
        ring
      · have x0 : F32.exp (e * 8388608 + m) = e + 1 := by unfold F32.exp; omega
        have x1 : 2 ^ 23 + F32.mant (e * 8388608 + m) = m := by unfold F32.mant; omega
        rw [if_neg (by omega), x0, x1]
        have : ((e + 1 : Nat) : Int) - 150 = (e : Int) - 126 - 23 := by push_cast; ring
        rw [this]

/-- The scaled mantissa of a rounding. -/
theorem scaled_bounds (a : Rat) (ha : 0 < a) :
    0 ≤ rneInt (a * pow2 (23 - F32.expOf a)) ∧ rneInt (a * pow2 (23 - F32.expOf a)) ≤ 2 ^ 24 ∧
    (-126 < F32.expOf a → 2 ^ 23 ≤ rneInt (a * pow2 (23 - F32.expOf a))) := by
  obtain ⟨g1, g2⟩ := rneExp_spec a ha
  obtain ⟨s1, s2⟩ := scaled_range a ha
  have hp := pow2_pos (23 - F32.expOf a)
  have hle : pow2 (23 - F32.expOf a) ≤ pow2 (23 - rneExp a) := pow2_le (by rw [expOf_eq]; omega)
  refine ⟨?_, ?_, ?_⟩
  · have := rneInt_mono (show ((0 : Int) : Rat) ≤ a * pow2 (23 - F32.expOf a) by push_cast; positivity)
    rwa [rneInt_int] at this
  · have := rneInt_mono (show a * pow2 (23 - F32.expOf a) ≤ (((2 ^ 24 : Int)) : Rat) by
      push_cast
      have := mul_le_mul_of_nonneg_left hle (le_of_lt ha)
      linarith)
    rwa [rneInt_int] at this
  · intro h
    have he : F32.expOf a = rneExp a := by rw [expOf_eq] at h ⊢; omega
    rw [he]
    have := rneInt_mono (show (((2 ^ 23 : Int)) : Rat) ≤ a * pow2 (23 - rneExp a) by push_cast; exact s1)
    rwa [rneInt_int] at this

/-- The representation of a positive number up to `2^126`. -/
theorem roundPos_spec (a : Rat) (ha : 0 < a) (hb : a ≤ pow2 126) :
    F32.roundPos a < 255 * 2 ^ 23 ∧ F32.exp (F32.roundPos a) < 255 ∧ F32.sign (F32.roundPos a) = false ∧
    F32.roundPos a = ((F32.expOf a + 126) * 2 ^ 23 + rneInt (a * pow2 (23 - F32.expOf a))).toNat ∧
    F32.mag (F32.roundPos a) = rneInt (a * pow2 (23 - F32.expOf a)) * pow2 (F32.expOf a - 23) := by
  obtain ⟨b1, b2, b3⟩ := scaled_bounds a ha
  have hE : -126 ≤ F32.expOf a := by rw [expOf_eq]; omega
  have hE' : F32.expOf a ≤ 126 := by
    obtain ⟨g1, -⟩ := rneExp_spec a ha
    have := pow2_lt_iff (lt_of_le_of_lt (le_trans g1 hb) (pow2_lt (show (126 : Int) < 127 by omega)))
    rw [expOf_eq]; omega
  obtain ⟨s1, s2, s3, s4⟩ := f32_of_scaled (F32.expOf a) _ hE hE' b1 b2 b3
  have he : F32.roundPos a = ((F32.expOf a + 126) * 2 ^ 23 + rneInt (a * pow2 (23 - F32.expOf a))).toNat := by
    unfold F32.roundPos
    rw [if_neg (ne_of_gt ha)]
    exact Nat.min_eq_left (le_of_lt s1)
  rw [he]
  exact ⟨s1, s2, s3, rfl, s4⟩

theorem roundPos_error (a : Rat) (ha : 0 < a) (hb : a ≤ pow2 126) :
    |F32.mag (F32.roundPos a) - a| ≤ a / 2 ^ 24 + pow2 (-150) := by
  obtain ⟨-, -, -, -, s⟩ := roundPos_spec a ha hb
  rw [s]
  have hn := rneInt_near (a * pow2 (23 - F32.expOf a))
  have hp := pow2_pos (F32.expOf a - 23)
  have e : (rneInt (a * pow2 (23 - F32.expOf a)) : Rat) * pow2 (F32.expOf a - 23) - a =
      ((rneInt (a * pow2 (23 - F32.expOf a)) : Rat) - a * pow2 (23 - F32.expOf a)) * pow2 (F32.expOf a - 23) := by
    rw [sub_mul, unscale]
  rw [e, abs_mul, abs_of_pos hp]
  have h1 : |(rneInt (a * pow2 (23 - F32.expOf a)) : Rat) - a * pow2 (23 - F32.expOf a)| * pow2 (F32.expOf a - 23)
      ≤ 1/2 * pow2 (F32.expOf a - 23) := mul_le_mul_of_nonneg_right hn (le_of_lt hp)
  by_cases c : rneExp a ≤ -126
  · have : F32.expOf a = -126 := by rw [expOf_eq]; omega
    rw [this] at h1 ⊢
    have e2 : (1/2 : Rat) * pow2 (-126 - 23) = pow2 (-150) := by
      rw [show (1/2 : Rat) = pow2 (-1) by rw [pow2_eq]; norm_num, ← pow2_add]; rfl
    rw [e2] at h1
    have : 0 ≤ a / 2 ^ 24 := by positivity
    exact le_trans h1 (le_add_of_nonneg_left this)
  · have he : F32.expOf a = rneExp a := by rw [expOf_eq]; omega
    rw [he] at h1 ⊢
    obtain ⟨g1, -⟩ := rneExp_spec a ha
    have e2 : pow2 (rneExp a) = 8388608 * pow2 (rneExp a - 23) := by
      rw [show (8388608 : Rat) = pow2 (23 : Nat) by rw [pow2_nat]; norm_num, ← pow2_add]; congr 1; push_cast; ring
    rw [e2] at g1
    have := pow2_pos (-150)
    norm_num at h1 ⊢
    linarith

theorem f32_neg (p : Nat) (hp : p < 2 ^ 31) : F32.exp (2 ^ 31 + p) = F32.exp p ∧ F32.mag (2 ^ 31 + p) = F32.mag p ∧
    F32.sign (2 ^ 31 + p) = true ∧ F32.sign p = false := by
  have h1 : F32.exp (2 ^ 31 + p) = F32.exp p := by unfold F32.exp; omega
  have h2 : F32.mant (2 ^ 31 + p) = F32.mant p := by unfold F32.mant; omega
  refine ⟨h1, by unfold F32.mag; rw [h1, h2], ?_, ?_⟩
  · unfold F32.sign; rw [decide_eq_true_iff]; omega
  · unfold F32.sign; rw [decide_eq_false_iff_not]; omega

/-- The value of a rounding. -/
theorem fl_cases (x : Rat) (hx : |x| ≤ pow2 126) :
    F32.Finite (F32.round x) ∧
    ((x = 0 ∧ fl x = 0) ∨ (0 < x ∧ fl x = F32.mag (F32.roundPos x)) ∨ (x < 0 ∧ fl x = -F32.mag (F32.roundPos (-x)))) := by
  rcases lt_trichotomy x 0 with h | h | h
  · have ha : 0 < -x := by linarith
    obtain ⟨s1, s2, s3, -, -⟩ := roundPos_spec (-x) ha (by rwa [abs_of_neg h] at hx)
    obtain ⟨n1, n2, n3, -⟩ := f32_neg (F32.roundPos (-x)) (by omega)
    have hr : F32.round x = 2 ^ 31 + F32.roundPos (-x) := by unfold F32.round; rw [if_pos h]
    refine ⟨?_, Or.inr (Or.inr ⟨h, ?_⟩)⟩
    · rw [hr]; exact ⟨by omega, by rw [n1]; exact s2⟩
    · unfold fl; rw [hr]; unfold F32.value; rw [n3, n2]; rfl
  · subst h
    have hr : F32.round 0 = 0 := by decide +kernel
    refine ⟨?_, Or.inl ⟨rfl, ?_⟩⟩
    · rw [hr]; exact ⟨by decide, by decide⟩
    · unfold fl; rw [hr]; decide +kernel
  · obtain ⟨s1, s2, s3, -, -⟩ := roundPos_spec x h (by rwa [abs_of_pos h] at hx)
    have hr : F32.round x = F32.roundPos x := by unfold F32.round; rw [if_neg (not_lt.mpr (le_of_lt h))]
    refine ⟨?_, Or.inr (Or.inl ⟨h, ?_⟩)⟩
    · rw [hr]; exact ⟨by omega, s2⟩
    · unfold fl; rw [hr]; unfold F32.value; rw [s3]; rfl

/-- Error of an operation, in the range of the normal and subnormal numbers. -/
theorem fl_error (x : Rat) (hx : |x| ≤ pow2 126) : |fl x - x| ≤ |x| / 2 ^ 24 + pow2 (-150) := by
  rcases (fl_cases x hx).2 with ⟨h, e⟩ | ⟨h, e⟩ | ⟨h, e⟩
  · rw [e, h]; have := pow2_pos (-150); norm_num; exact le_of_lt this
  · rw [e, abs_of_pos h]; exact roundPos_error x h (by rwa [abs_of_pos h] at hx)
  · rw [e, abs_of_neg h, show -F32.mag (F32.roundPos (-x)) - x = -(F32.mag (F32.roundPos (-x)) - -x) by ring, abs_neg]
    exact roundPos_error (-x) (by linarith) (by rwa [abs_of_neg h] at hx)

/-- In the range of the normal numbers, the rounding to 24 bits. -/
theorem fl_normal (x : Rat) (h1 : pow2 (-126) ≤ |x|) (h2 : |x| ≤ pow2 126) : fl x = rne24 x := by
  have main : ∀ a, 0 < a → pow2 (-126) ≤ a → a ≤ pow2 126 → F32.mag (F32.roundPos a) = rne24 a := by
    intro a ha g1 g2
    obtain ⟨-, -, -, -, s⟩ := roundPos_spec a ha g2
    obtain ⟨-, b⟩ := rneExp_spec a ha
    have := pow2_lt_iff (lt_of_le_of_lt g1 b)
    have he : F32.expOf a = rneExp a := by rw [expOf_eq]; omega
    rw [s, he, rne24_pos a ha]
    rfl
  rcases (fl_cases x h2).2 with ⟨h, e⟩ | ⟨h, e⟩ | ⟨h, e⟩
  · rw [h, abs_zero] at h1; have := pow2_pos (-126); linarith
  · rw [abs_of_pos h] at h1 h2; rw [e]; exact main x h h1 h2
  · rw [abs_of_neg h] at h1 h2
    rw [e, main (-x) (by linarith) h1 h2, rne24_neg, neg_neg]

/-- An operation on an approximate operand. -/
theorem fl_near (a A ε M B : Rat) (h : |a - A| ≤ ε) (hM : |A| ≤ M) (h1 : M + ε ≤ 1000)
    (hB : ε + (M + ε) / 2 ^ 24 + 1 / 2 ^ 100 ≤ B) : |fl a - A| ≤ B := by
  have ha : |a| ≤ M + ε := by
    have : |a| ≤ |a - A| + |A| := by
      calc |a| = |(a - A) + A| := by congr 1; ring
        _ ≤ _ := abs_add_le _ _
    linarith
  have hb : |a| ≤ pow2 126 := by
    have : (1000 : Rat) ≤ pow2 126 := by decide +kernel
    linarith
  have he := fl_error a hb
  have hp : pow2 (-150) ≤ 1 / 2 ^ 100 := by decide +kernel
  have : |fl a - A| ≤ |fl a - a| + |a - A| := by
    calc |fl a - A| = |(fl a - a) + (a - A)| := by congr 1; ring
      _ ≤ _ := abs_add_le _ _
  have h3 : |a| / 2 ^ 24 ≤ (M + ε) / 2 ^ 24 := by
    apply div_le_div_of_nonneg_right ha; positivity
  linarith

/-- A product by an exact factor. -/
theorem fl_mul_near (a A x ε X M B : Rat) (h : |a - A| ≤ ε) (hx : |x| ≤ X) (hM : |A| ≤ M) (h1 : M * X + ε * X ≤ 1000)
    (hB : ε * X + (M * X + ε * X) / 2 ^ 24 + 1 / 2 ^ 100 ≤ B) : |fl (a * x) - A * x| ≤ B := by
  have e0 : 0 ≤ ε := le_trans (abs_nonneg _) h
  have e1 : 0 ≤ M := le_trans (abs_nonneg _) hM
  refine fl_near (a * x) (A * x) (ε * X) (M * X) B ?_ ?_ h1 hB
  · rw [← sub_mul, abs_mul]; exact mul_le_mul h hx (abs_nonneg _) e0
  · rw [abs_mul]; exact mul_le_mul hM hx (abs_nonneg _) e1

/-- A sum with a constant. -/
theorem fl_add_near (a A c ε M B : Rat) (h : |a - A| ≤ ε) (hM : |A + c| ≤ M) (h1 : M + ε ≤ 1000)
    (hB : ε + (M + ε) / 2 ^ 24 + 1 / 2 ^ 100 ≤ B) : |fl (a + c) - (A + c)| ≤ B :=
  fl_near (a + c) (A + c) ε M B (by rwa [add_sub_add_right_eq_sub]) hM h1 hB

end LC3
