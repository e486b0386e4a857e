import Verif.Lemmas.Exp2
import Verif.Lemmas.Log2

/-!
C66: accuracy of the functions of `src/fastmath.h`, on all the numbers of their range.
-/

namespace LC3

theorem exp2_near (u : Nat) (hx : |F32.value u| ≤ 100) :
    F32.Finite (exp2Bits u) ∧
    |((F32.value (exp2Bits u) : ℚ) : ℝ) - (2 : ℝ) ^ ((F32.value u : ℚ) : ℝ)| ≤ 22 / 10 ^ 8 * (2 : ℝ) ^ ((F32.value u : ℚ) : ℝ) := by
  obtain ⟨K, k1, k2, k3, k4⟩ := exp2_reduce (F32.value u) hx
  unfold exp2Bits
  dsimp only
  generalize F32.value u = x at hx k1 k2 k3 k4
  rw [k4]
  obtain ⟨K1, K2⟩ := abs_le.mp k2
  have hsig : F32.signed (F32.round (x + exp2C)) = 1237319680 + K := by
    unfold F32.signed; rw [if_pos (by omega), k3]
  rw [hsig]
  have hmod : (1237319680 + K) % 8 = K % 8 := by omega
  rw [hmod]
  have hd : |x - (K : ℚ) / 8| ≤ 1 / 16 := by
    rw [abs_le] at k1 ⊢; constructor <;> linarith
  obtain ⟨i, hi⟩ := Int.eq_ofNat_of_zero_le (show 0 ≤ K % 8 by omega)
  have hi8 : i < 8 := by omega
  rw [hi, Int.toNat_natCast]
  obtain ⟨⟨w1, w2⟩, hm⟩ := exp2_mantissa (x - (K : ℚ) / 8) hd i hi8
  generalize hw : fl (exp2Poly (fl (x - (K : ℚ) / 8)) + 1) * fl (exp2E.getD i 0) = w at w1 w2 hm
  have h126 : (1000 : Rat) ≤ pow2 126 := by decide +kernel
  obtain ⟨⟨y1, y2⟩, -⟩ := fl_cases w (by rw [abs_of_pos (by linarith)]; linarith)
  have hfl : |fl w - w| ≤ 1 / 1000 :=
    fl_near w w 0 (194 / 100) _ (by norm_num) (by rw [abs_of_pos] <;> linarith) (by norm_num) (by norm_num)
  have hval : F32.value (F32.round w) = fl w := rfl
  have hpos : 0 < fl w := by rw [abs_le] at hfl; linarith
  have hmag : F32.mag (F32.round w) = fl w := by rw [← f32_mag_eq, hval, abs_of_pos hpos]
  have e0 : F32.exp (F32.round w) ≠ 0 := by
    intro c
    have := f32_mag_sub _ y1 c
    rw [hmag] at this
    have : pow2 (-126) ≤ 1 / 2 := by decide +kernel
    rw [abs_le] at hfl; linarith
  obtain ⟨b1, b2⟩ := f32_mag_normal _ y1 e0
  rw [hmag] at b1 b2
  rw [abs_le] at hfl
  have e1 : (F32.exp (F32.round w) : Int) ≤ 127 := by
    have : pow2 ((F32.exp (F32.round w) : Int) - 127) < pow2 1 := by
      rw [show pow2 1 = 2 by decide +kernel]; linarith
    have := pow2_lt_iff this
    omega
  have e2 : 126 ≤ (F32.exp (F32.round w) : Int) := by
    have : pow2 (-1) < pow2 ((F32.exp (F32.round w) : Int) - 126) := by
      rw [show pow2 (-1) = 1 / 2 by decide +kernel]; linarith
    have := pow2_lt_iff this
    omega
  obtain ⟨r, r1, r2, -, -, -, r6⟩ := ldexp_normal (F32.round w) y1 (K / 8) e0 (by omega) (by omega)
  have hr : ((F32.signed (F32.round w) + (1237319680 + K) / 8 * 2 ^ 23) % 2 ^ 32).toNat = r := by
    unfold ldexpBits at r1
    rw [if_pos e0] at r1
    unfold i32 at r1
    split at r1
    · rw [Option.map_some] at r1
      rw [← Option.some.inj r1]
      congr 1
      omega
    · simp at r1
  rw [hr]
  refine ⟨r2, ?_⟩
  rw [r6, hval]
  have hpow : (2 : ℝ) ^ (x : ℝ) =
      (2 : ℝ) ^ ((i : ℝ) / 8) * (2 : ℝ) ^ ((x - (K : ℚ) / 8 : ℚ) : ℝ) * ((pow2 (K / 8) : ℚ) : ℝ) := by
    have : ((pow2 (K / 8) : ℚ) : ℝ) = (2 : ℝ) ^ (((K / 8 : Int)) : ℝ) := by
      rw [pow2_eq, Real.rpow_intCast]; push_cast; rfl
    rw [this, ← Real.rpow_add (by norm_num), ← Real.rpow_add (by norm_num)]
    congr 1
    have hK : (K : ℝ) = 8 * ((K / 8 : Int) : ℝ) + (i : ℝ) := by
      have : K = 8 * (K / 8) + (i : Int) := by omega
      exact_mod_cast this
    push_cast
    rw [hK]; ring
  rw [hpow]
  have pp : (0 : ℝ) < ((pow2 (K / 8) : ℚ) : ℝ) := by exact_mod_cast pow2_pos (K / 8)
  push_cast at hm ⊢
  rw [← sub_mul, abs_mul, abs_of_pos pp, ← mul_assoc]
  exact mul_le_mul_of_nonneg_right hm (le_of_lt pp)

/-- **C66.** `lc3_exp2f`: for any `float` from -100 to 100, the result is a finite number within `2.2e-7` of `2^x`, relatively
(documented: `4e-7`). -/
theorem C66_exp2 (u : Nat) (_hu : F32.Finite u) (hx : |F32.value u| ≤ 100) :
    F32.Finite (exp2Bits u) ∧
    |((F32.value (exp2Bits u) : ℚ) : ℝ) - (2 : ℝ) ^ ((F32.value u : ℚ) : ℝ)| ≤ 22 / 10 ^ 8 * (2 : ℝ) ^ ((F32.value u : ℚ) : ℝ) :=
  exp2_near u hx

/-- Non-vacuity: `-100`, `1/3` rounded, and the smallest number. -/
example : (F32.Finite 0xc2c80000 ∧ F32.value 0xc2c80000 = -100) ∧ F32.Finite 0x3eaaaaab ∧
    (F32.Finite 1 ∧ 0 < F32.value 1 ∧ exp2Bits 1 = 0x3f800000) := by
  refine ⟨⟨⟨by decide, by decide⟩, by decide +kernel⟩, ⟨by decide, by decide⟩, ⟨by decide, by decide⟩, by decide +kernel, by decide +kernel⟩

/-- **C66, refuted.** As the C language defines it, the shift of the exponent of `lc3_exp2f` is undefined for each operand: the
integer shifted holds the exponent of the constant `0x1.8p20f`. The compilers discard these bits. -/
theorem C66_exp2_undefined (u : Nat) (hx : |F32.value u| ≤ 100) :
    exp2Shift (F32.signed (F32.round (F32.value u + exp2C))) = none := by
  obtain ⟨K, -, k2, k3, -⟩ := exp2_reduce (F32.value u) hx
  obtain ⟨K1, K2⟩ := abs_le.mp k2
  have hsig : F32.signed (F32.round (F32.value u + exp2C)) = 1237319680 + K := by
    unfold F32.signed; rw [if_pos (by omega), k3]
  rw [hsig]
  unfold exp2Shift
  rw [if_neg (by omega)]
  unfold i32
  rw [if_neg (by omega)]

/-- **C66.** `lc3_frexpf`: the fraction is in `[1/2, 1)`, and gives the operand with the exponent, for any positive normal number. -/
theorem C66_frexp (u : Nat) (hu : F32.Finite u) (hs : F32.sign u = false) (hn : F32.exp u ≠ 0) :
    let r := frexpBits u
    1 / 2 ≤ F32.value r.1 ∧ F32.value r.1 < 1 ∧ F32.value u = F32.value r.1 * pow2 r.2 := by
  intro r
  obtain ⟨-, -, f3⟩ := f32_fields u hu.1
  have hr : r.1 = 126 * 2 ^ 23 + F32.mant u := by
    show (if F32.sign u then 2 ^ 31 else 0) + 126 * 2 ^ 23 + F32.mant u = _
    rw [hs]; simp
  have x1 : F32.exp r.1 = 126 := by rw [hr]; unfold F32.exp; omega
  have x2 : F32.mant r.1 = F32.mant u := by rw [hr]; unfold F32.mant at f3 ⊢; omega
  have x3 : F32.sign r.1 = false := by rw [hr]; unfold F32.sign; rw [decide_eq_false_iff_not]; omega
  have v1 : F32.value r.1 = ((2 ^ 23 + F32.mant u : Nat) : Rat) / 2 ^ 24 := by
    rw [f32_value_normal _ (by omega), x3, x1, x2, show pow2 (((126 : Nat) : Int) - 150) = 1 / 2 ^ 24 by decide +kernel]
    simp only [Bool.false_eq_true, if_false]; ring
  have hm : (F32.mant u : Rat) < 8388608 := by exact_mod_cast (show F32.mant u < 8388608 by omega)
  have hm0 : (0 : Rat) ≤ F32.mant u := by positivity
  refine ⟨?_, ?_, ?_⟩
  · rw [v1]; push_cast; linarith
  · rw [v1]; push_cast; linarith
  · rw [f32_value_normal u hn, hs, v1]
    have : pow2 ((F32.exp u : Int) - 150) = 1 / 2 ^ 24 * pow2 r.2 := by
      rw [show (1 / 2 ^ 24 : Rat) = pow2 (-24) by decide +kernel, ← pow2_add]
      congr 1
      show _ = -24 + ((F32.exp u : Int) - 126)
      ring
    rw [this]
    simp only [Bool.false_eq_true, if_false]; ring

/-- **C66.** `lc3_log2f`: for any positive normal number, the result is within `1.8e-4` of `log2(x)` (documented: `~1e-4`). -/
theorem C66_log2 (u : Nat) (hu : F32.Finite u) (hs : F32.sign u = false) (hn : F32.exp u ≠ 0) :
    |((log2F u : ℚ) : ℝ) - Real.logb 2 ((F32.value u : ℚ) : ℝ)| ≤ 18 / 10 ^ 5 := by
  obtain ⟨f1, f2, f3⟩ := C66_frexp u hu hs hn
  unfold log2F
  dsimp only
  have he : |((frexpBits u).2 : Rat)| ≤ 128 := by
    have h254 := hu.2
    have a : (frexpBits u).2 = (F32.exp u : Int) - 126 := rfl
    have b1 : -128 ≤ (frexpBits u).2 := by omega
    have b2 : (frexpBits u).2 ≤ 128 := by omega
    rw [abs_le]
    exact ⟨by exact_mod_cast b1, by exact_mod_cast b2⟩
  generalize F32.value u = v at f3
  generalize (frexpBits u).2 = e at f3 he
  generalize F32.value (frexpBits u).1 = m at f1 f2 f3
  have h1 := log2F_error m f1 (le_of_lt f2)
  generalize fl (fl (fl (fl (fl (fl (fl (fl (fl (log2C 0) * m) + fl (log2C 1)) * m) + fl (log2C 2)) * m) + fl (log2C 3)) * m) +
    fl (log2C 4)) = y at h1
  have m1 : (1 / 2 : ℝ) ≤ (m : ℝ) := by
    have : ((1 / 2 : ℚ) : ℝ) ≤ (m : ℝ) := by exact_mod_cast f1
    push_cast at this; exact this
  have m2 : (m : ℝ) ≤ 1 := by exact_mod_cast le_of_lt f2
  have h2 := log2Q_real (m : ℝ) m1 m2
  have hQ : ((log2Q m : ℚ) : ℝ) = log2Q (m : ℝ) := by unfold log2Q; push_cast; rfl
  -- magnitude of the polynomial
  have lb1 : Real.logb 2 (m : ℝ) ≤ 0 := Real.logb_nonpos (by norm_num) (by linarith) m2
  have lb2 : -1 ≤ Real.logb 2 (m : ℝ) := by
    rw [Real.le_logb_iff_rpow_le (by norm_num) (by linarith)]
    rw [Real.rpow_neg_one]; linarith
  have hq : |log2Q m| ≤ 2 := by
    have : |((log2Q m : ℚ) : ℝ)| ≤ ((2 : ℚ) : ℝ) := by
      rw [hQ]; push_cast
      rw [abs_le] at h2 ⊢; constructor <;> linarith
    exact_mod_cast this
  have hA : |(e : Rat) + log2Q m| ≤ 130 := le_trans (abs_add_le _ _) (by linarith)
  have h3 : |fl (e + y) - (e + log2Q m)| ≤ 12 / 10 ^ 6 :=
    fl_near (e + y) (e + log2Q m) (35 / 10 ^ 7) _ _ (by rwa [add_sub_add_left_eq_sub]) hA (by norm_num) (by norm_num)
  have h3' : |((fl (e + y) : ℚ) : ℝ) - ((e : ℝ) + log2Q (m : ℝ))| ≤ 12 / 10 ^ 6 := by
    have : ((|fl (e + y) - (e + log2Q m)| : ℚ) : ℝ) ≤ ((12 / 10 ^ 6 : ℚ) : ℝ) := by exact_mod_cast h3
    push_cast at this
    rw [hQ] at this; exact this
  have hlog : Real.logb 2 (v : ℝ) = (e : ℝ) + Real.logb 2 (m : ℝ) := by
    have hp : ((pow2 e : ℚ) : ℝ) = (2 : ℝ) ^ (e : ℝ) := by rw [pow2_eq, Real.rpow_intCast]; push_cast; rfl
    rw [f3]
    push_cast
    rw [hp, Real.logb_mul (by linarith) (by positivity), Real.logb_rpow (by norm_num) (by norm_num)]
    ring
  rw [hlog]
  rw [abs_le] at h2 h3' ⊢
  constructor <;> linarith

/-- Non-vacuity: the smallest and the greatest normal numbers. -/
example : (F32.Finite 0x00800000 ∧ F32.sign 0x00800000 = false ∧ F32.exp 0x00800000 ≠ 0) ∧
    (F32.Finite 0x7f7fffff ∧ F32.sign 0x7f7fffff = false ∧ F32.exp 0x7f7fffff ≠ 0) :=
  ⟨⟨⟨by decide, by decide⟩, by decide, by decide⟩, ⟨by decide, by decide⟩, by decide, by decide⟩

/-- **C66.** The documented error of `lc3_log2f` is exceeded by `log2(1)`, which is `0.000164`. -/
theorem C66_log2_one : F32.value 0x3f800000 = 1 ∧ log2F 0x3f800000 = 689 / 4194304 ∧ (16 / 10 ^ 5 : Rat) < 689 / 4194304 := by
  refine ⟨by decide +kernel, by decide +kernel, by norm_num⟩

/-- **C66, refuted.** The logarithm of a subnormal number, greater than 0, is not the one documented: `log2(2^-149)` is about `-127`. -/
theorem C66_log2_subnormal : F32.value 1 = pow2 (-149) ∧ (-127 : Rat) < log2F 1 := by
  refine ⟨by decide +kernel, by decide +kernel⟩

end LC3
