import Mathlib.Analysis.SpecialFunctions.Log.Base
import Mathlib.Analysis.Complex.ExponentialBounds
import Mathlib.Analysis.Convex.SpecificFunctions.Basic
import Verif.Lemmas.F32Round

/-!
The error of `lc3_db_q16`: the table against the logarithm by powers of integers, and the error of the linear interpolation.
-/

namespace LC3

/-- The table of `lc3_db_q16`, with the half octave of its second part, and its end. -/
def dbV (h : Nat) : Nat := if h = 32 then 98642 else (dbTable.getD h (0, 0)).1 + if 16 ≤ h then 49321 else 0

/-- Entry against `327680 * log10((32 + h) / 32)`, to one unit. -/
def dbEntryOk (h : Nat) : Bool :=
  Nat.ble (10 ^ (dbV h - 1) * 32 ^ 327680) ((if h = 0 then 10 else 1) * (32 + h) ^ 327680) &&
  Nat.ble ((32 + h) ^ 327680) (10 ^ (dbV h + 1) * 32 ^ 327680)

theorem dbEntry_ok : (List.range 33).all dbEntryOk = true := by decide +kernel

/-- The octave against `N * log10(2)`. -/
def octaveOk (N v : Nat) : Bool := Nat.ble (10 ^ v) (2 ^ N) && Nat.ble (2 ^ N) (10 ^ (v + 1))

theorem dbOctave_ok : octaveOk 655360 197283 = true := by decide +kernel

theorem dbSlope_ok : ∀ h : Fin 32, (dbTable.getD h (0, 0)).2 ≤ dbV (h + 1) - dbV h + 1 ∧ dbV (h + 1) ≤ dbV h + (dbTable.getD h (0, 0)).2 + 1 ∧
    1 ≤ (dbTable.getD h (0, 0)).2 ∧ dbV h ≤ dbV (h + 1) ∧ (dbTable.getD h (0, 0)).2 ≤ 4379 := by
  decide +kernel

/-! ### The table, in real numbers -/

theorem logb_of_pow_le (a b N v : Nat) (ha : 0 < a) (hb : 0 < b) (h : 10 ^ v * b ^ N ≤ a ^ N) :
    (v : ℝ) ≤ N * Real.logb 10 ((a : ℝ) / b) := by
  have ha' : (0 : ℝ) < a := by exact_mod_cast ha
  have hb' : (0 : ℝ) < b := by exact_mod_cast hb
  rw [← Real.logb_pow, Real.le_logb_iff_rpow_le (by norm_num) (by positivity), Real.rpow_natCast, div_pow,
    le_div_iff₀ (by positivity)]
  exact_mod_cast h

theorem logb_of_le_pow (a b N v : Nat) (ha : 0 < a) (hb : 0 < b) (h : a ^ N ≤ 10 ^ v * b ^ N) :
    N * Real.logb 10 ((a : ℝ) / b) ≤ v := by
  have ha' : (0 : ℝ) < a := by exact_mod_cast ha
  have hb' : (0 : ℝ) < b := by exact_mod_cast hb
  rw [← Real.logb_pow, Real.logb_le_iff_le_rpow (by norm_num) (by positivity), Real.rpow_natCast, div_pow,
    div_le_iff₀ (by positivity)]
  exact_mod_cast h

/-- The exact value of the entries of the table. -/
noncomputable def dbA (h : Nat) : ℝ := (327680 : ℕ) * Real.logb 10 (((32 + h : ℕ) : ℝ) / (32 : ℕ))

theorem dbA_near (h : Nat) (hh : h ≤ 32) : |(dbV h : ℝ) - dbA h| ≤ 1 := by
  have hok : dbEntryOk h = true := List.all_eq_true.mp dbEntry_ok h (List.mem_range.mpr (by omega))
  unfold dbEntryOk at hok
  rw [Bool.and_eq_true] at hok
  obtain ⟨o1, o2⟩ := hok
  have p2 := logb_of_le_pow (32 + h) 32 327680 (dbV h + 1) (by omega) (by omega) (Nat.le_of_ble_eq_true o2)
  change dbA h ≤ _ at p2
  by_cases h0 : h = 0
  · subst h0
    have z : dbA 0 = 0 := by unfold dbA; simp
    have v : dbV 0 = 0 := by decide
    rw [z, v]; simp
  · rw [if_neg h0, Nat.one_mul] at o1
    have p1 := logb_of_pow_le (32 + h) 32 327680 (dbV h - 1) (by omega) (by omega) (Nat.le_of_ble_eq_true o1)
    change _ ≤ dbA h at p1
    have : 1 ≤ dbV h := by
      have : ∀ i : Fin 32, 1 ≤ dbV (i + 1) := by decide
      have := this ⟨h - 1, by omega⟩
      simp only at this
      rwa [show h - 1 + 1 = h by omega] at this
    push_cast [Nat.cast_sub this] at p1 p2
    rw [abs_le]; constructor <;> linarith

theorem dbA_octave : |(98642 : ℝ) - dbA 32| ≤ 1 / 2 := by
  have key : ∀ N v : Nat, octaveOk N v = true → (v : ℝ) ≤ N * Real.logb 10 2 ∧ N * Real.logb 10 2 ≤ ((v + 1 : ℕ) : ℝ) := by
    intro N v h
    unfold octaveOk at h
    rw [Bool.and_eq_true] at h
    have p1 := logb_of_pow_le 2 1 N v (by omega) (by omega) (by rw [Nat.one_pow, Nat.mul_one]; exact Nat.le_of_ble_eq_true h.1)
    have p2 := logb_of_le_pow 2 1 N (v + 1) (by omega) (by omega) (by rw [Nat.one_pow, Nat.mul_one]; exact Nat.le_of_ble_eq_true h.2)
    rw [Nat.cast_one, div_one, Nat.cast_ofNat] at p1 p2
    exact ⟨p1, p2⟩
  obtain ⟨p1, p2⟩ := key 655360 197283 dbOctave_ok
  have e : dbA 32 = 327680 * Real.logb 10 2 := by unfold dbA; norm_num
  rw [e]
  norm_num at p1 p2
  rw [abs_le]; constructor <;> linarith

/-! ### The interpolation -/

/-- Error of the linear interpolation of the logarithm. -/
theorem log_chord (a δ s : ℝ) (ha : 1 ≤ a) (hδ : 0 < δ) (h0 : 0 ≤ s) (h1 : s ≤ 1) :
    (1 - s) * Real.log a + s * Real.log (a + δ) ≤ Real.log (a + s * δ) ∧
    Real.log (a + s * δ) ≤ (1 - s) * Real.log a + s * Real.log (a + δ) + δ ^ 2 / 2 := by
  have a0 : 0 < a := by linarith
  have b0 : 0 < a + δ := by linarith
  have x0 : 0 < a + s * δ := by positivity
  constructor
  · have := strictConcaveOn_log_Ioi.concaveOn.2 (x := a) (y := a + δ) a0 b0 (show 0 ≤ 1 - s by linarith) h0 (by ring)
    simp only [smul_eq_mul] at this
    rwa [show (1 - s) * a + s * (a + δ) = a + s * δ by ring] at this
  · -- slopes at both ends
    have u1 : Real.log (a + s * δ) - Real.log a ≤ s * (δ / a) := by
      rw [← Real.log_div (by linarith) (by linarith)]
      refine le_trans (Real.log_le_sub_one_of_pos (by positivity)) (le_of_eq ?_)
      field_simp; ring
    have u2 : Real.log (a + s * δ) - Real.log (a + δ) ≤ -((1 - s) * (δ / (a + δ))) := by
      rw [← Real.log_div (by linarith) (by linarith)]
      refine le_trans (Real.log_le_sub_one_of_pos (by positivity)) (le_of_eq ?_)
      field_simp; ring
    have c1 : δ / (a + δ) ≤ Real.log (a + δ) - Real.log a := by
      have : Real.log a - Real.log (a + δ) ≤ -(δ / (a + δ)) := by
        rw [← Real.log_div (by linarith) (by linarith)]
        refine le_trans (Real.log_le_sub_one_of_pos (by positivity)) (le_of_eq ?_)
        field_simp; ring
      linarith
    have c2 : Real.log (a + δ) - Real.log a ≤ δ / a := by
      rw [← Real.log_div (by linarith) (by linarith)]
      refine le_trans (Real.log_le_sub_one_of_pos (by positivity)) (le_of_eq ?_)
      field_simp; ring
    have gap : δ / a - δ / (a + δ) ≤ δ ^ 2 := by
      rw [div_sub_div _ _ (by linarith) (by linarith), div_le_iff₀ (by positivity)]
      have : 1 ≤ a * (a + δ) := by nlinarith
      nlinarith [sq_nonneg δ]
    by_cases c : s ≤ 1 / 2
    · have g1 : s * (δ / a - δ / (a + δ)) ≤ 1 / 2 * δ ^ 2 :=
        mul_le_mul c gap (by linarith) (by norm_num)
      have g2 : s * (δ / (a + δ)) ≤ s * (Real.log (a + δ) - Real.log a) := mul_le_mul_of_nonneg_left c1 h0
      linarith
    · have c' : 1 - s ≤ 1 / 2 := by linarith
      have g1 : (1 - s) * (δ / a - δ / (a + δ)) ≤ 1 / 2 * δ ^ 2 :=
        mul_le_mul c' gap (by linarith) (by norm_num)
      have g2 : (1 - s) * (Real.log (a + δ) - Real.log a) ≤ (1 - s) * (δ / a) :=
        mul_le_mul_of_nonneg_left c2 (by linarith)
      linarith

/-- The same for the scale of the table. -/
theorem db_chord (h : Nat) (s : ℝ) (h0 : 0 ≤ s) (h1 : s ≤ 1) :
    (1 - s) * dbA h + s * dbA (h + 1) ≤ 327680 * Real.logb 10 ((32 + h + s) / 32) ∧
    327680 * Real.logb 10 ((32 + h + s) / 32) ≤ (1 - s) * dbA h + s * dbA (h + 1) + 70 := by
  have ha : (1 : ℝ) ≤ (32 + h) / 32 := by
    rw [le_div_iff₀ (by norm_num)]
    have : (0 : ℝ) ≤ h := by positivity
    linarith
  obtain ⟨c1, c2⟩ := log_chord ((32 + h) / 32) (1 / 32) s ha (by norm_num) h0 h1
  have e1 : ((32 : ℝ) + h) / 32 + s * (1 / 32) = (32 + h + s) / 32 := by ring
  have e2 : ((32 : ℝ) + h) / 32 + 1 / 32 = ((32 + (h + 1) : ℕ) : ℝ) / (32 : ℕ) := by push_cast; ring
  have e3 : ((32 : ℝ) + h) / 32 = ((32 + h : ℕ) : ℝ) / (32 : ℕ) := by push_cast; ring
  rw [e1, e2, e3] at c1 c2
  have ten : (2287 / 1000 : ℝ) < Real.log 10 := by
    have l1 := Real.log_two_gt_d9
    have : Real.log ((2 : ℝ) ^ 33) ≤ Real.log ((10 : ℝ) ^ 10) := Real.log_le_log (by positivity) (by norm_num)
    rw [Real.log_pow, Real.log_pow] at this
    push_cast at this
    linarith
  unfold dbA
  simp only [Real.logb]
  have l0 : 0 < Real.log 10 := by linarith
  generalize Real.log 10 = T at ten l0 ⊢
  generalize Real.log (((32 + (h + 1) : ℕ) : ℝ) / (32 : ℕ)) = B at c1 c2 ⊢
  generalize Real.log (((32 + h : ℕ) : ℝ) / (32 : ℕ)) = A at c1 c2 ⊢
  generalize Real.log ((32 + (h : ℝ) + s) / 32) = X at c1 c2 ⊢
  have f : ∀ x : ℝ, (((327680 : ℕ)) : ℝ) * (x / T) = 327680 / T * x := by intro x; push_cast; ring
  rw [f, f, show (327680 : ℝ) * (X / T) = 327680 / T * X by ring]
  have k0 : 0 < 327680 / T := by positivity
  have k1 : 327680 / T ≤ 143360 := by
    rw [div_le_iff₀ l0]; linarith
  constructor
  · have := mul_le_mul_of_nonneg_left c1 (le_of_lt k0)
    linarith
  · have := mul_le_mul_of_nonneg_left c2 (le_of_lt k0)
    nlinarith

end LC3
