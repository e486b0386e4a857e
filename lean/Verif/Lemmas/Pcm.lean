import Verif.Lemmas.Float
import Verif.Model.Pcm

/-! The representation of `float` numbers. -/

namespace LC3

/-- The fields of a representation. -/
theorem f32_fields (u : Nat) (hu : u < 2 ^ 32) :
    u = (if F32.sign u then 2 ^ 31 else 0) + F32.exp u * 2 ^ 23 + F32.mant u ∧ F32.exp u < 256 ∧ F32.mant u < 2 ^ 23 := by
  unfold F32.sign F32.exp F32.mant
  by_cases h : 2 ^ 31 ≤ u
  · rw [if_pos (by simpa using h)]; omega
  · rw [if_neg (by simpa using h)]; omega

theorem f32_of_fields (s : Bool) (e m : Nat) (he : e < 256) (hm : m < 2 ^ 23) :
    let u := (if s then 2 ^ 31 else 0) + e * 2 ^ 23 + m
    u < 2 ^ 32 ∧ F32.sign u = s ∧ F32.exp u = e ∧ F32.mant u = m := by
  intro u
  simp only [u]
  unfold F32.sign F32.exp F32.mant
  cases s
  · simp only [Bool.false_eq_true, if_false, decide_eq_false_iff_not]; omega
  · simp only [if_true, decide_eq_true_iff]; omega

/-- The value of a normal number. -/
theorem f32_value_normal (u : Nat) (h : F32.exp u ≠ 0) :
    F32.value u = (if F32.sign u then -1 else 1) * ((2 ^ 23 + F32.mant u : Nat) : Rat) * pow2 ((F32.exp u : Int) - 150) := by
  unfold F32.value F32.mag
  rw [if_neg h]
  split <;> ring

theorem f32_value_sub (u : Nat) (h : F32.exp u = 0) :
    F32.value u = (if F32.sign u then -1 else 1) * (F32.mant u : Rat) * pow2 (-149) := by
  unfold F32.value F32.mag
  rw [if_pos h]
  split <;> ring

theorem f32_mag_eq (u : Nat) : |F32.value u| = F32.mag u := by
  have h : 0 ≤ F32.mag u := by
    unfold F32.mag
    have := pow2_pos (-149)
    have := pow2_pos ((F32.exp u : Int) - 150)
    split <;> positivity
  unfold F32.value
  split
  · rw [abs_neg, abs_of_nonneg h]
  · exact abs_of_nonneg h

/-- The binade of a normal number. -/
theorem f32_mag_normal (u : Nat) (hu : u < 2 ^ 32) (h : F32.exp u ≠ 0) :
    pow2 ((F32.exp u : Int) - 127) ≤ F32.mag u ∧ F32.mag u < pow2 ((F32.exp u : Int) - 126) := by
  obtain ⟨_, _, hm⟩ := f32_fields u hu
  unfold F32.mag
  rw [if_neg h]
  have hp := pow2_pos ((F32.exp u : Int) - 150)
  have e1 : pow2 ((F32.exp u : Int) - 127) = 8388608 * pow2 ((F32.exp u : Int) - 150) := by
    rw [show (8388608 : Rat) = pow2 (23 : Nat) by rw [pow2_nat]; norm_num, ← pow2_add]; congr 1; push_cast; ring
  have e2 : pow2 ((F32.exp u : Int) - 126) = 16777216 * pow2 ((F32.exp u : Int) - 150) := by
    rw [show (16777216 : Rat) = pow2 (24 : Nat) by rw [pow2_nat]; norm_num, ← pow2_add]; congr 1; push_cast; ring
  have hm' : (F32.mant u : Rat) < 8388608 := by exact_mod_cast (show F32.mant u < 8388608 by omega)
  have hm0 : (0 : Rat) ≤ F32.mant u := by positivity
  rw [e1, e2]
  push_cast
  constructor <;> nlinarith

theorem f32_mag_sub (u : Nat) (hu : u < 2 ^ 32) (h : F32.exp u = 0) : F32.mag u < pow2 (-126) := by
  obtain ⟨_, _, hm⟩ := f32_fields u hu
  unfold F32.mag
  rw [if_pos h]
  have hp := pow2_pos (-149)
  have e1 : pow2 (-126) = 8388608 * pow2 (-149) := by
    rw [show (8388608 : Rat) = pow2 (23 : Nat) by rw [pow2_nat]; norm_num, ← pow2_add]; rfl
  have hm' : (F32.mant u : Rat) < 8388608 := by exact_mod_cast (show F32.mant u < 8388608 by omega)
  rw [e1]
  nlinarith

/-- A finite number has 24 significant bits. -/
theorem f32_repr (u : Nat) (hu : u < 2 ^ 32) : ∃ k j : Int, k.natAbs ≤ 2 ^ 24 - 1 ∧ F32.value u = k * pow2 j ∧ -149 ≤ j := by
  obtain ⟨_, _, hm⟩ := f32_fields u hu
  by_cases h : F32.exp u = 0
  · refine ⟨(if F32.sign u then -1 else 1) * (F32.mant u : Int), -149, ?_, ?_, by omega⟩
    · split <;> omega
    · rw [f32_value_sub u h]; split <;> push_cast <;> ring
  · refine ⟨(if F32.sign u then -1 else 1) * ((2 ^ 23 + F32.mant u : Nat) : Int), (F32.exp u : Int) - 150, ?_, ?_, by omega⟩
    · split <;> omega
    · rw [f32_value_normal u h]; split <;> push_cast <;> ring

theorem wrap_neg (E M : Nat) (hE : E < 256) (hM : M < 2 ^ 23) :
    (((E : Int) * 2 ^ 23 + M - 2 ^ 31) % 2 ^ 32).toNat = 2 ^ 31 + E * 2 ^ 23 + M := by
  rw [← Int.add_emod_right, Int.emod_eq_of_lt (by omega) (by omega)]
  omega

theorem wrap_pos (E M : Nat) (hE : E < 256) (hM : M < 2 ^ 23) :
    (((E : Int) * 2 ^ 23 + M) % 2 ^ 32).toNat = 0 + E * 2 ^ 23 + M := by
  rw [Int.emod_eq_of_lt (by omega) (by omega)]
  omega

/-- `lc3_ldexpf` multiplies by the power of two, when the result is a normal number. -/
theorem ldexp_normal (u : Nat) (hu : u < 2 ^ 32) (k : Int) (h0 : F32.exp u ≠ 0) (h1 : 1 ≤ (F32.exp u : Int) + k)
    (h2 : (F32.exp u : Int) + k ≤ 254) :
    ∃ w, ldexpBits u k = some w ∧ F32.Finite w ∧ (F32.exp w : Int) = F32.exp u + k ∧ F32.sign w = F32.sign u ∧
      F32.mant w = F32.mant u ∧ F32.value w = F32.value u * pow2 k := by
  obtain ⟨f1, f2, f3⟩ := f32_fields u hu
  generalize hE : F32.exp u = E at *
  generalize hM : F32.mant u = M at *
  obtain ⟨E', hE'⟩ := Int.eq_ofNat_of_zero_le (show 0 ≤ (E : Int) + k by omega)
  obtain ⟨g0, g1, g2, g3⟩ := f32_of_fields (F32.sign u) E' M (by omega) f3
  refine ⟨(if F32.sign u then 2 ^ 31 else 0) + E' * 2 ^ 23 + M, ?_, ⟨g0, by omega⟩, by omega, g1, g3, ?_⟩
  · unfold ldexpBits
    rw [hE, if_pos h0]
    have hs : F32.signed u + k * 2 ^ 23 = if F32.sign u then (E' : Int) * 2 ^ 23 + M - 2 ^ 31 else (E' : Int) * 2 ^ 23 + M := by
      unfold F32.signed
      by_cases hsg : F32.sign u
      · rw [if_pos hsg] at f1 ⊢
        rw [if_neg (by omega)]; omega
      · rw [if_neg hsg] at f1 ⊢
        rw [if_pos (by omega)]; omega
    rw [hs]
    unfold i32
    by_cases hsg : F32.sign u
    · rw [if_pos hsg, if_pos hsg, if_pos (by omega), Option.map_some]
      have e : (((E' : Int) * 2 ^ 23 + M - 2 ^ 31) % 2 ^ 32).toNat = 2 ^ 31 + E' * 2 ^ 23 + M :=
        wrap_neg E' M (by omega) f3
      rw [e]
    · rw [if_neg hsg, if_neg hsg, if_pos (by omega), Option.map_some]
      have e : (((E' : Int) * 2 ^ 23 + M) % 2 ^ 32).toNat = 0 + E' * 2 ^ 23 + M :=
        wrap_pos E' M (by omega) f3
      rw [e]
  · rw [f32_value_normal _ (by omega), f32_value_normal u (by omega), g1, g2, g3, hE, hM]
    rw [mul_assoc, mul_assoc, mul_assoc, ← pow2_add]
    congr 3; omega

theorem ldexp_sub (u : Nat) (k : Int) (h0 : F32.exp u = 0) : ldexpBits u k = some u := by
  unfold ldexpBits; rw [if_neg (by simpa using h0)]

/-- Conversion of an integer of 24 significant bits. -/
theorem floatOfInt_spec (p : Int) (h0 : p ≠ 0) (s : Nat) (q : Int) (hq : p = q * 2 ^ s) (hb : q.natAbs ≤ 2 ^ 24 - 1) (hs : s ≤ 32) :
    F32.Finite (floatOfInt p) ∧ F32.exp (floatOfInt p) = 127 + Nat.log2 p.natAbs ∧ F32.value (floatOfInt p) = p ∧
    F32.sign (floatOfInt p) = decide (p < 0) := by
  have hn0 : p.natAbs ≠ 0 := by omega
  obtain ⟨l1, l2⟩ := (Nat.log2_eq_iff hn0).mp rfl
  have hnq : p.natAbs = q.natAbs * 2 ^ s := by rw [hq, Int.natAbs_mul]; norm_num
  have hl : Nat.log2 p.natAbs < 24 + s := by
    have h1 : 2 ^ Nat.log2 p.natAbs < 2 ^ (24 + s) := by
      refine lt_of_le_of_lt l1 ?_
      rw [hnq, pow_add]
      exact Nat.mul_lt_mul_of_pos_right (by omega) (by positivity)
    exact (Nat.pow_lt_pow_iff_right (by norm_num)).mp h1
  -- the division is exact
  have hdiv : p.natAbs * 2 ^ 23 / 2 ^ Nat.log2 p.natAbs * 2 ^ Nat.log2 p.natAbs = p.natAbs * 2 ^ 23 := by
    apply Nat.div_mul_cancel
    rw [hnq, mul_assoc, ← pow_add]
    apply dvd_mul_of_dvd_right
    exact pow_dvd_pow 2 (by rw [← hnq]; omega)
  have hM1 : 2 ^ 23 ≤ p.natAbs * 2 ^ 23 / 2 ^ Nat.log2 p.natAbs := by
    rw [Nat.le_div_iff_mul_le (by positivity), mul_comm]
    exact Nat.mul_le_mul_right _ l1
  have hM2 : p.natAbs * 2 ^ 23 / 2 ^ Nat.log2 p.natAbs < 2 ^ 24 := by
    rw [Nat.div_lt_iff_lt_mul (by positivity)]
    rw [pow_succ] at l2
    omega
  generalize hM : p.natAbs * 2 ^ 23 / 2 ^ Nat.log2 p.natAbs = M at *
  generalize hL : Nat.log2 p.natAbs = L at *
  have hu : floatOfInt p = (if decide (p < 0) then 2 ^ 31 else 0) + (127 + L) * 2 ^ 23 + (M - 2 ^ 23) := by
    unfold floatOfInt
    dsimp only
    rw [if_neg hn0, hL, hM]
    simp only [decide_eq_true_eq]
    split <;> omega
  obtain ⟨g0, g1, g2, g3⟩ := f32_of_fields (decide (p < 0)) (127 + L) (M - 2 ^ 23) (by omega) (by omega)
  rw [← hu] at g0 g1 g2 g3
  refine ⟨⟨g0, by omega⟩, g2, ?_, g1⟩
  rw [f32_value_normal _ (by omega), g1, g2, g3]
  have hMe : (2 ^ 23 + (M - 2 ^ 23) : Nat) = M := by omega
  rw [hMe]
  have hcast : (M : Rat) * pow2 (L : Nat) = (p.natAbs : Rat) * pow2 (23 : Nat) := by
    rw [pow2_nat, pow2_nat]; exact_mod_cast hdiv
  have e1 : pow2 (((127 + L : Nat) : Int) - 150) = pow2 (L : Nat) * pow2 (-23) := by
    rw [← pow2_add, show ((127 + L : Nat) : Int) - 150 = (L : Nat) + -23 by omega]
  have e2 : pow2 (23 : Nat) * pow2 (-23) = 1 := by simp only [pow2_eq]; norm_num
  have e3 : (M : Rat) * pow2 (((127 + L : Nat) : Int) - 150) = (p.natAbs : Rat) := by
    rw [e1, ← mul_assoc, hcast, mul_assoc, e2, mul_one]
  rw [mul_assoc, e3]
  by_cases hp : p < 0
  · simp only [hp, decide_true, if_true]
    have h1 : (p.natAbs : Rat) = -p := by
      rw [← Int.cast_natCast, show (p.natAbs : Int) = -p by omega]; push_cast; rfl
    rw [h1]; ring
  · simp only [hp, decide_false, Bool.false_eq_true, if_false]
    have h1 : (p.natAbs : Rat) = p := by
      rw [← Int.cast_natCast, show (p.natAbs : Int) = p by omega]
    rw [h1]; ring

end LC3
