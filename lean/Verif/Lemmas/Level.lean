import Verif.Lemmas.Float
import Verif.Lemmas.Gain
import Mathlib.Analysis.SpecialFunctions.Pow.Real

/-!
Accuracy of the gains of `unquantize_gain`, and of the square root of `Model/Gain.lean`.
-/

namespace LC3

/-- Relative error of a rounding to the nearest with 24 significant bits. -/
def Round24 (rnd : Rat → Rat) : Prop := ∀ x, |rnd x - x| ≤ |x| / 2 ^ 24

/-- `b` is `a` after `n` roundings. -/
def Near24 (n : Nat) (a b : Rat) : Prop := (1 - 1 / 2 ^ 24) ^ n * a ≤ b ∧ b ≤ (1 + 1 / 2 ^ 24) ^ n * a

theorem Round24.near {rnd : Rat → Rat} (h : Round24 rnd) {a : Rat} (ha : 0 ≤ a) : Near24 1 a (rnd a) := by
  have := h a
  rw [abs_of_nonneg ha, abs_le] at this
  constructor <;> rw [pow_one] <;> linarith [this.1, this.2]

theorem Near24.refl (a : Rat) : Near24 0 a a := by constructor <;> rw [pow_zero, one_mul]

theorem Near24.nonneg {n : Nat} {a b : Rat} (h : Near24 n a b) (ha : 0 ≤ a) : 0 ≤ b :=
  le_trans (mul_nonneg (by positivity) ha) h.1

theorem Near24.pos {n : Nat} {a b : Rat} (h : Near24 n a b) (ha : 0 < a) : 0 < b :=
  lt_of_lt_of_le (mul_pos (by positivity) ha) h.1

theorem Near24.trans {n m : Nat} {a b c : Rat} (h : Near24 n a b) (h' : Near24 m b c) : Near24 (m + n) a c := by
  constructor
  · rw [pow_add, mul_assoc]
    exact le_trans (mul_le_mul_of_nonneg_left h.1 (by positivity)) h'.1
  · rw [pow_add, mul_assoc]
    exact le_trans h'.2 (mul_le_mul_of_nonneg_left h.2 (by positivity))

theorem Near24.mul {n m : Nat} {a b a' b' : Rat} (h : Near24 n a b) (h' : Near24 m a' b') (ha : 0 ≤ a) (ha' : 0 ≤ a') :
    Near24 (n + m) (a * a') (b * b') := by
  have hb := h.nonneg ha
  have hb' := h'.nonneg ha'
  constructor
  · calc (1 - 1 / 2 ^ 24) ^ (n + m) * (a * a') = ((1 - 1 / 2 ^ 24) ^ n * a) * ((1 - 1 / 2 ^ 24) ^ m * a') := by rw [pow_add]; ring
      _ ≤ b * b' := mul_le_mul h.1 h'.1 (mul_nonneg (by positivity) ha') hb
  · calc b * b' ≤ ((1 + 1 / 2 ^ 24) ^ n * a) * ((1 + 1 / 2 ^ 24) ^ m * a') := mul_le_mul h.2 h'.2 hb' (mul_nonneg (by positivity) ha)
      _ = (1 + 1 / 2 ^ 24) ^ (n + m) * (a * a') := by rw [pow_add]; ring

theorem Near24.mono {n m : Nat} {a b : Rat} (h : Near24 n a b) (ha : 0 ≤ a) (hm : n ≤ m) : Near24 m a b := by
  constructor
  · refine le_trans (mul_le_mul_of_nonneg_right ?_ ha) h.1
    exact pow_le_pow_of_le_one (by norm_num) (by norm_num) hm
  · refine le_trans h.2 (mul_le_mul_of_nonneg_right ?_ ha)
    exact pow_le_pow_right₀ (by norm_num) hm

/-- A product computed with a constant: two roundings more. -/
theorem Near24.step {rnd : Rat → Rat} (h : Round24 rnd) {n : Nat} {a b : Rat} (ha : 0 ≤ a) (hn : Near24 n a b) (c : Rat) (hc : 0 ≤ c) :
    Near24 (n + 2) (a * c) (rnd (b * rnd c)) := by
  have h1 := hn.mul (h.near hc) ha hc
  have h2 := h.near (h1.nonneg (mul_nonneg ha hc))
  have := h1.trans h2
  rwa [show 1 + (n + 1) = n + 2 by omega] at this

theorem gainDown_near {rnd : Rat → Rat} (h : Round24 rnd) (f : Nat) (i : Int) (hf : i.natAbs ≤ f) (n : Nat) (t g : Rat) (ht : 0 ≤ t)
    (hn : Near24 n t g) :
    ∃ s : Nat, (gainDown (Arith.rounded rnd) f i g).1 = i + 28 * s ∧ 0 ≤ i + 28 * s ∧ (s ≠ 0 → i + 28 * s < 28) ∧
      Near24 (n + 2 * s) (t / 10 ^ s) (gainDown (Arith.rounded rnd) f i g).2 := by
  induction f generalizing i n t g with
  | zero => exact ⟨0, by rw [gainDown]; simp, by omega, fun h => absurd rfl h, by rw [gainDown, pow_zero, div_one]; exact hn⟩
  | succ f ih =>
    rw [gainDown]
    by_cases c : i < 0
    · rw [if_pos c]
      by_cases c2 : i + 28 < 0
      · obtain ⟨s, h1, h2, h3, h4⟩ := ih (i + 28) (by omega) (n + 2) (t * (1 / 10)) _ (by positivity) (hn.step h ht (1 / 10) (by norm_num))
        refine ⟨s + 1, by rw [show (Arith.rounded rnd).mul g ((Arith.rounded rnd).ofRat (1 / 10)) = rnd (g * rnd (1 / 10)) from rfl, h1]; push_cast; ring,
          by push_cast; omega, fun _ => ?_, ?_⟩
        · have := h3 (by rintro rfl; push_cast at h2; omega)
          push_cast; omega
        · rw [show n + 2 * (s + 1) = n + 2 + 2 * s by ring, show t / 10 ^ (s + 1) = t * (1 / 10) / 10 ^ s by rw [pow_succ]; field_simp]
          exact h4
      · have e : ∀ (f : Nat) g', gainDown (Arith.rounded rnd) f (i + 28) g' = (i + 28, g') := by
          intro f g'
          cases f with
          | zero => rfl
          | succ f => rw [gainDown, if_neg c2]
        rw [e]
        refine ⟨1, by push_cast; ring, by push_cast; omega, fun _ => by push_cast; omega, ?_⟩
        rw [show t / 10 ^ 1 = t * (1 / 10) by ring]
        exact hn.step h ht (1 / 10) (by norm_num)
    · rw [if_neg c]
      exact ⟨0, by push_cast; ring, by push_cast; omega, fun h => absurd rfl h, by rw [pow_zero, div_one]; exact hn⟩

theorem gainUp_near {rnd : Rat → Rat} (h : Round24 rnd) (f : Nat) (i : Int) (h0 : 0 ≤ i) (hf : i < 28 + f) (n : Nat) (t g : Rat) (ht : 0 ≤ t)
    (hn : Near24 n t g) :
    ∃ s : Nat, (gainUp (Arith.rounded rnd) f i g).1 = i - 28 * s ∧ 0 ≤ i - 28 * s ∧ i - 28 * s < 28 ∧
      Near24 (n + 2 * s) (t * 10 ^ s) (gainUp (Arith.rounded rnd) f i g).2 := by
  induction f generalizing i n t g with
  | zero => exact ⟨0, by rw [gainUp]; simp, by push_cast; omega, by push_cast at *; omega, by rw [gainUp, pow_zero, mul_one]; exact hn⟩
  | succ f ih =>
    rw [gainUp]
    by_cases c : i ≥ 28
    · rw [if_pos c]
      obtain ⟨s, h1, h2, h3, h4⟩ := ih (i - 28) (by omega) (by push_cast at hf; omega) (n + 2) (t * 10) _ (by positivity) (hn.step h ht 10 (by norm_num))
      refine ⟨s + 1, by rw [show (Arith.rounded rnd).mul g ((Arith.rounded rnd).ofRat 10) = rnd (g * rnd 10) from rfl, h1]; push_cast; ring,
        by push_cast; omega, by push_cast; omega, ?_⟩
      rw [show n + 2 * (s + 1) = n + 2 + 2 * s by ring, show t * 10 ^ (s + 1) = t * 10 * 10 ^ s by rw [pow_succ]; ring]
      exact h4
    · rw [if_neg c]
      exact ⟨0, by push_cast; ring, by push_cast; omega, by push_cast; omega, by rw [pow_zero, mul_one]; exact hn⟩

/-- The table of the gains, as a function. -/
def iqVal (j : Nat) : Rat := iqTable.getD j 1

theorem iqVal_pos (j : Nat) : 1 ≤ iqVal j := by
  unfold iqVal
  by_cases h : j < 28
  · revert j; decide +kernel
  · rw [List.getD_eq_default]
    have : iqTable.length = 28 := rfl
    omega

/-- The gain without rounding. -/
def gainE (i : Int) : Rat := (10 : Rat) ^ (i / 28) * iqVal (i % 28).toNat

theorem gainE_pos (i : Int) : 0 < gainE i := mul_pos (zpow_pos (by norm_num) _) (lt_of_lt_of_le one_pos (iqVal_pos _))

theorem unquantizeGain_near {rnd : Rat → Rat} (h : Round24 rnd) (i : Int) (hi : i.natAbs ≤ 255) :
    ∃ u, unquantizeGain (Arith.rounded rnd) i = some u ∧ Near24 24 (gainE i) u := by
  obtain ⟨s, h1, h2, h3, h4⟩ := gainDown_near h i.natAbs i (Nat.le_refl _) 1 1 (rnd 1) (by norm_num) (h.near (by norm_num))
  obtain ⟨s', k1, k2, k3, k4⟩ := gainUp_near h i.natAbs (i + 28 * s) h2 (by
    by_cases c : s = 0
    · subst c; omega
    · have := h3 c; omega) (1 + 2 * s) (1 / 10 ^ s) _ (by positivity) h4
  unfold unquantizeGain
  dsimp only
  rw [show (Arith.rounded rnd).ofRat 1 = rnd 1 from rfl, h1, k1, if_neg (by omega)]
  generalize (gainUp (Arith.rounded rnd) i.natAbs (i + 28 * s) (gainDown (Arith.rounded rnd) i.natAbs i (rnd 1)).2).2 = g at *
  have hj : (i + 28 * s - 28 * s').toNat < iqTable.length := by
    have : iqTable.length = 28 := rfl
    omega
  rw [List.getElem?_eq_getElem hj, Option.map_some]
  refine ⟨_, rfl, ?_⟩
  have ev : iqTable[(i + 28 * s - 28 * s').toNat] = iqVal (i % 28).toNat := by
    unfold iqVal
    rw [show (i % 28).toNat = (i + 28 * s - 28 * s').toNat by omega, List.getD_eq_getElem _ _ hj]
  rw [ev]
  have hv : (0 : Rat) ≤ iqVal (i % 28).toNat := le_trans (by norm_num) (iqVal_pos _)
  have := k4.step h (by positivity) (iqVal (i % 28).toNat) hv
  have e : gainE i = 1 / 10 ^ s * 10 ^ s' * iqVal (i % 28).toNat := by
    unfold gainE
    rw [show i / 28 = (s' : Int) - s by omega, zpow_sub₀ (by norm_num), zpow_natCast, zpow_natCast]
    ring
  rw [e]
  refine this.mono (by positivity) ?_
  by_cases c : s = 0
  · subst c; omega
  · have := h3 c; omega

/-- The products of two values of the table. -/
theorem iqVal_mul (a b : Nat) (ha : a < 28) (hb : b < 28) :
    iqVal a * iqVal b ≤ (if a + b < 28 then iqVal (a + b) else 10 * iqVal (a + b - 28)) * (1 + 1 / 10 ^ 7) := by
  revert b; revert a
  decide +kernel

theorem gainE_mul (i j : Int) : gainE i * gainE j ≤ gainE (i + j) * (1 + 1 / 10 ^ 7) := by
  have h := iqVal_mul (i % 28).toNat (j % 28).toNat (by omega) (by omega)
  have hp : (0 : Rat) < 10 ^ (i / 28 + j / 28) := zpow_pos (by norm_num) _
  have e : gainE i * gainE j = 10 ^ (i / 28 + j / 28) * (iqVal (i % 28).toNat * iqVal (j % 28).toNat) := by
    unfold gainE
    rw [zpow_add₀ (by norm_num)]; ring
  rw [e]
  refine le_trans (mul_le_mul_of_nonneg_left h (le_of_lt hp)) (le_of_eq ?_)
  split
  · rename_i c
    unfold gainE
    rw [show (i + j) / 28 = i / 28 + j / 28 by omega, show ((i + j) % 28).toNat = (i % 28).toNat + (j % 28).toNat by omega]
    ring
  · rename_i c
    unfold gainE
    rw [show (i + j) / 28 = i / 28 + j / 28 + 1 by omega, show ((i + j) % 28).toNat = (i % 28).toNat + (j % 28).toNat - 28 by omega,
      zpow_add_one₀ (by norm_num)]
    ring

theorem iqVal_succ (a : Nat) (ha : a < 28) : iqVal a ≤ (if a + 1 < 28 then iqVal (a + 1) else 10) := by
  revert a; decide +kernel

theorem gainE_succ (i : Int) : gainE i ≤ gainE (i + 1) := by
  have h := iqVal_succ (i % 28).toNat (by omega)
  have hp : (0 : Rat) < 10 ^ (i / 28) := zpow_pos (by norm_num) _
  refine le_trans (mul_le_mul_of_nonneg_left h (le_of_lt hp)) (le_of_eq ?_)
  split
  · rename_i c
    unfold gainE
    rw [show (i + 1) / 28 = i / 28 by omega, show ((i + 1) % 28).toNat = (i % 28).toNat + 1 by omega]
  · rename_i c
    unfold gainE
    rw [show (i + 1) / 28 = i / 28 + 1 by omega, show ((i + 1) % 28).toNat = 0 by omega, zpow_add_one₀ (by norm_num)]
    rw [show iqVal 0 = 1 by decide +kernel, mul_one]

theorem gainE_mono {i j : Int} (h : i ≤ j) : gainE i ≤ gainE j := by
  obtain ⟨n, rfl⟩ := Int.le.dest h
  clear h
  induction n with
  | zero => simp
  | succ n ih =>
    refine le_trans ih ?_
    have := gainE_succ (i + n)
    rw [show i + ((n + 1 : Nat) : Int) = i + n + 1 by push_cast; ring]
    exact this

/-! ### Comparison with the powers of 10 -/

theorem iqVal_pow (a : Nat) (ha : a < 28) :
    10 ^ a * (1 - 1 / 10 ^ 8) ^ 28 ≤ iqVal a ^ 28 ∧ iqVal a ^ 28 ≤ 10 ^ a * (1 + 1 / 10 ^ 8) ^ 28 := by
  revert a; decide +kernel

theorem rpow_28 (a : Nat) : ((10 : ℝ) ^ ((a : ℝ) / 28)) ^ 28 = 10 ^ a := by
  rw [← Real.rpow_natCast, ← Real.rpow_mul (by norm_num)]
  rw [show ((a : ℝ) / 28 * ((28 : Nat) : ℝ)) = (a : ℝ) by push_cast; field_simp, Real.rpow_natCast]

theorem gainE_real (i : Int) :
    (10 : ℝ) ^ ((i : ℝ) / 28) * (1 - 1 / 10 ^ 8) ≤ ((gainE i : Rat) : ℝ) ∧
    ((gainE i : Rat) : ℝ) ≤ (10 : ℝ) ^ ((i : ℝ) / 28) * (1 + 1 / 10 ^ 8) := by
  obtain ⟨h1, h2⟩ := iqVal_pow (i % 28).toNat (by omega)
  have hq := iqVal_pos (i % 28).toNat
  have e : (10 : ℝ) ^ ((i : ℝ) / 28) = (10 : ℝ) ^ (i / 28) * (10 : ℝ) ^ (((i % 28).toNat : ℝ) / 28) := by
    rw [← Real.rpow_intCast, ← Real.rpow_add (by norm_num)]
    congr 1
    have h : i = 28 * (i / 28) + ((i % 28).toNat : Int) := by omega
    have h' : (i : ℝ) = 28 * ((i / 28 : Int) : ℝ) + ((i % 28).toNat : ℝ) := by exact_mod_cast h
    rw [h']
    field_simp
  have eg : ((gainE i : Rat) : ℝ) = (10 : ℝ) ^ (i / 28) * ((iqVal (i % 28).toNat : Rat) : ℝ) := by
    unfold gainE
    push_cast
    rfl
  rw [e, eg]
  generalize (i % 28).toNat = a at *
  have hp : (0 : ℝ) < (10 : ℝ) ^ (i / 28) := zpow_pos (by norm_num) _
  have hr : (0 : ℝ) < (10 : ℝ) ^ ((a : ℝ) / 28) := Real.rpow_pos_of_pos (by norm_num) _
  have h28 := rpow_28 a
  have hq' : (0 : ℝ) ≤ ((iqVal a : Rat) : ℝ) := by
    have : (0 : Rat) ≤ iqVal a := le_trans (by norm_num) hq
    exact_mod_cast this
  have h1' : ((10 : ℝ) ^ a * (1 - 1 / 10 ^ 8) ^ 28) ≤ ((iqVal a : Rat) : ℝ) ^ 28 := by
    have := (Rat.cast_le (K := ℝ)).mpr h1
    push_cast at this
    exact this
  have h2' : ((iqVal a : Rat) : ℝ) ^ 28 ≤ ((10 : ℝ) ^ a * (1 + 1 / 10 ^ 8) ^ 28) := by
    have := (Rat.cast_le (K := ℝ)).mpr h2
    push_cast at this
    exact this
  rw [← h28, ← mul_pow] at h1' h2'
  have l1 := le_of_pow_le_pow_left₀ (n := 28) (by norm_num) hq' h1'
  have l2 := le_of_pow_le_pow_left₀ (n := 28) (by norm_num) (by positivity) h2'
  rw [mul_assoc, mul_assoc]
  exact ⟨mul_le_mul_of_nonneg_left l1 (le_of_lt hp), mul_le_mul_of_nonneg_left l2 (le_of_lt hp)⟩

end LC3
