import Mathlib.Analysis.Complex.ExponentialBounds
import Mathlib.Analysis.SpecialFunctions.Log.Deriv
import Mathlib.Analysis.SpecialFunctions.Log.Base
import Verif.Lemmas.F32Round

/-!
The error of `lc3_log2f`. The bounds of polynomials on an interval are obtained from their expansions around the centers of
pieces of the interval.
-/

namespace LC3

/-! ### Bounds of polynomials -/

/-- Value of the polynomial of coefficients `q`, the constant first. -/
def polyEval {K : Type} [Field K] (q : List K) (x : K) : K := q.foldr (fun a y => a + x * y) 0

def polyAdd : List Rat → List Rat → List Rat
  | [], q => q
  | p, [] => p
  | a :: p, b :: q => (a + b) :: polyAdd p q

/-- The polynomial in `x - c`. -/
def polyShift (c : Rat) : List Rat → List Rat
  | [] => []
  | a :: q => polyAdd [a] (polyAdd ((polyShift c q).map (c * ·)) (0 :: polyShift c q))

/-- Bound of the magnitude up to `r`. -/
def polyAbs (q : List Rat) (r : Rat) : Rat := q.foldr (fun a y => (if a < 0 then -a else a) + r * y) 0

theorem polyEval_add (p q : List Rat) (x : ℝ) :
    polyEval ((polyAdd p q).map ((↑) : ℚ → ℝ)) x = polyEval (p.map (↑)) x + polyEval (q.map (↑)) x := by
  fun_induction polyAdd p q with
  | case1 q => simp [polyEval]
  | case2 p h => simp [polyEval]
  | case3 a p b q ih =>
    simp only [List.map_cons, polyEval, List.foldr_cons] at ih ⊢
    rw [ih]; push_cast; ring

theorem polyEval_scale (c : Rat) (q : List Rat) (x : ℝ) :
    polyEval ((q.map (c * ·)).map ((↑) : ℚ → ℝ)) x = c * polyEval (q.map (↑)) x := by
  induction q with
  | nil => simp [polyEval]
  | cons a q ih =>
    simp only [List.map_cons, polyEval, List.foldr_cons] at ih ⊢
    rw [ih]; push_cast; ring

theorem polyEval_shift (c : Rat) (q : List Rat) (x : ℝ) :
    polyEval ((polyShift c q).map ((↑) : ℚ → ℝ)) (x - c) = polyEval (q.map (↑)) x := by
  induction q with
  | nil => simp [polyShift, polyEval]
  | cons a q ih =>
    rw [polyShift, polyEval_add, polyEval_add, polyEval_scale, ih]
    simp only [List.map_cons, polyEval, List.foldr_cons, List.map_nil, List.foldr_nil] at ih ⊢
    rw [ih]; push_cast; ring

theorem polyEval_abs (q : List Rat) (r : Rat) (hr : 0 ≤ r) (x : ℝ) (hx : |x| ≤ r) :
    |polyEval (q.map ((↑) : ℚ → ℝ)) x| ≤ (polyAbs q r : ℚ) ∧ 0 ≤ polyAbs q r := by
  induction q with
  | nil => simp [polyEval, polyAbs]
  | cons a q ih =>
    obtain ⟨h1, h2⟩ := ih
    simp only [List.map_cons, polyEval, List.foldr_cons, polyAbs] at h1 h2 ⊢
    have ha : (((if a < 0 then -a else a : ℚ)) : ℝ) = |(a : ℝ)| := by
      split
      · rename_i h; rw [abs_of_neg (by exact_mod_cast h)]; push_cast; rfl
      · rename_i h; rw [abs_of_nonneg (by exact_mod_cast not_lt.mp h)]
    refine ⟨?_, ?_⟩
    · push_cast [ha]
      refine le_trans (abs_add_le _ _) (add_le_add_right ?_ _)
      rw [abs_mul]
      exact mul_le_mul hx h1 (abs_nonneg _) (by exact_mod_cast hr)
    · have : 0 ≤ (if a < 0 then -a else a : ℚ) := by split <;> linarith
      have := mul_nonneg hr h2
      linarith

/-- The polynomial is bounded by `B` on `[0, n * 2 * r]`. -/
def polyBound (q : List Rat) (r : Rat) (n : Nat) (B : Rat) : Bool :=
  (List.range n).all fun j => decide (polyAbs (polyShift ((2 * j + 1) * r) q) r ≤ B)

theorem polyBound_ok (q : List Rat) (r : Rat) (hr : 0 < r) (n : Nat) (hn : 0 < n) (B : Rat) (h : polyBound q r n B = true) (x : ℝ)
    (h0 : 0 ≤ x) (h1 : x ≤ n * (2 * r)) : |polyEval (q.map ((↑) : ℚ → ℝ)) x| ≤ B := by
  have hr' : (0 : ℝ) < r := by exact_mod_cast hr
  obtain ⟨j, hj, hc⟩ : ∃ j : Nat, j < n ∧ |x - ((2 * j + 1) * r : ℝ)| ≤ r := by
    have key : ∀ k : Nat, x ≤ (k + 1) * (2 * r) → ∃ j : Nat, j < k + 1 ∧ |x - ((2 * j + 1) * r : ℝ)| ≤ r := by
      intro k
      induction k with
      | zero =>
        intro hk
        refine ⟨0, by omega, ?_⟩
        rw [abs_le]; push_cast at hk ⊢; constructor <;> linarith
      | succ k ih =>
        intro hk
        by_cases c : x ≤ (k + 1) * (2 * r)
        · obtain ⟨j, j1, j2⟩ := ih c
          exact ⟨j, by omega, j2⟩
        · refine ⟨k + 1, by omega, ?_⟩
          rw [abs_le]; push_cast at hk c ⊢; constructor <;> linarith
    obtain ⟨k, rfl⟩ : ∃ k, n = k + 1 := ⟨n - 1, by omega⟩
    push_cast at h1
    exact key k h1
  unfold polyBound at h
  rw [List.all_eq_true] at h
  have hb := of_decide_eq_true (h j (List.mem_range.mpr hj))
  have := (polyEval_abs (polyShift ((2 * j + 1) * r) q) r (le_of_lt hr) (x - ((2 * j + 1) * r : ℝ)) hc).1
  have e := polyEval_shift ((2 * j + 1) * r) q x
  push_cast at e
  rw [e] at this
  exact le_trans this (by exact_mod_cast hb)

/-! ### The polynomial of the logarithm -/

theorem log2C_fl : fl (log2C 0) = -10861543 / 8388608 ∧ fl (log2C 1) = 5366287 / 1048576 ∧
    fl (log2C 2) = -4416053 / 524288 ∧ fl (log2C 3) = 2124829 / 262144 ∧ fl (log2C 4) = -14703861 / 4194304 := by
  decide +kernel

/-- The polynomial without the rounding of the operations. -/
def log2Q {K : Type} [Field K] (x : K) : K :=
  (((-10861543 / 8388608 * x + 5366287 / 1048576) * x + -4416053 / 524288) * x + 2124829 / 262144) * x + -14703861 / 4194304

/-- The terms of the series of the logarithm. -/
def logTerms : Nat → Nat → List Rat
  | 0, _ => []
  | n + 1, i => (1442695041 / 1000000000 / (i + 1)) :: logTerms n (i + 1)

/-- The difference of the polynomial at `1 - y` and of the series. -/
def log2Diff : List Rat :=
  polyAdd ((polyShift 1 [-14703861 / 4194304, 2124829 / 262144, -4416053 / 524288, 5366287 / 1048576, -10861543 / 8388608]).zipWith
    (· * ·) [1, -1, 1, -1, 1]) (0 :: logTerms 20 0)

theorem log2Diff_bound : polyBound log2Diff (1 / 128) 32 (165 / 1000000) = true := by decide +kernel

theorem logTerms_eval (n i : Nat) (y : ℝ) :
    polyEval ((logTerms n i).map ((↑) : ℚ → ℝ)) y = 1442695041 / 1000000000 * ∑ k ∈ Finset.range n, y ^ k / ((i + k : ℕ) + 1 : ℝ) := by
  induction n generalizing i with
  | zero => simp [logTerms, polyEval]
  | succ n ih =>
    have h := ih (i + 1)
    simp only [logTerms, List.map_cons, polyEval, List.foldr_cons] at h ⊢
    rw [h, Finset.sum_range_succ', mul_add, mul_left_comm, Finset.mul_sum]
    rw [add_comm]
    congr 1
    · congr 1
      apply Finset.sum_congr rfl
      intro k _
      rw [pow_succ, show i + 1 + k = i + (k + 1) by omega]
      ring
    · push_cast; simp; ring

theorem log2Diff_eq : log2Diff = polyAdd [-1289 / 8388608, -3006387 / 2097152, -3517609 / 4194304, 128969 / 2097152, -10861543 / 8388608]
    (0 :: logTerms 20 0) := by
  decide +kernel

theorem log2Diff_eval (y : ℝ) :
    polyEval (log2Diff.map ((↑) : ℚ → ℝ)) y =
      log2Q (1 - y) + 1442695041 / 1000000000 * ∑ k ∈ Finset.range 20, y ^ (k + 1) / ((k : ℝ) + 1) := by
  rw [log2Diff_eq, polyEval_add]
  have h := logTerms_eval 20 0 y
  simp only [List.map_cons, polyEval, List.foldr_cons, List.map_nil, List.foldr_nil] at h ⊢
  rw [h]
  congr 1
  · unfold log2Q; push_cast; ring
  · rw [mul_left_comm, Finset.mul_sum]
    push_cast
    rw [zero_add]
    congr 1
    apply Finset.sum_congr rfl
    intro k _
    rw [zero_add, pow_succ]; ring

/-- The polynomial against the logarithm. -/
theorem log2Q_real (m : ℝ) (h0 : 1 / 2 ≤ m) (h1 : m ≤ 1) : |log2Q m - Real.logb 2 m| ≤ 167 / 1000000 := by
  have b := polyBound_ok log2Diff (1 / 128) (by norm_num) 32 (by norm_num) _ log2Diff_bound (1 - m) (by linarith)
    (by push_cast; linarith)
  rw [log2Diff_eval, sub_sub_cancel] at b
  have s := Real.abs_log_sub_add_sum_range_le (x := 1 - m) (by rw [abs_of_nonneg] <;> linarith) 20
  rw [abs_of_nonneg (show 0 ≤ 1 - m by linarith), sub_sub_cancel] at s
  generalize ∑ i ∈ Finset.range 20, (1 - m) ^ (i + 1) / ((i : ℝ) + 1) = S at s b
  have s' : |S + Real.log m| ≤ 1 / 10 ^ 6 := by
    refine le_trans s ?_
    have p1 : (1 - m) ^ (20 + 1) ≤ (1 / 2) ^ (20 + 1) := pow_le_pow_left₀ (by linarith) (by linarith) _
    rw [div_le_iff₀ (by linarith)]
    have : ((1 : ℝ) / 2) ^ (20 + 1) ≤ 1 / 10 ^ 6 * (1 / 2) := by norm_num
    have : 1 / 10 ^ 6 * (1 / 2) ≤ 1 / 10 ^ 6 * m := by linarith
    linarith
  have l1 := Real.log_two_gt_d9
  have l2 := Real.log_two_lt_d9
  have lm : |Real.log m| ≤ 7 / 10 := by
    have a1 : Real.log m ≤ 0 := Real.log_nonpos (by linarith) h1
    have a2 : Real.log (1 / 2) ≤ Real.log m := Real.log_le_log (by norm_num) h0
    rw [one_div, Real.log_inv] at a2
    rw [abs_le]; constructor <;> linarith
  rw [Real.logb]
  generalize Real.log 2 = L at l1 l2
  generalize Real.log m = l at s' lm
  have L0 : 0 < L := by linarith
  have k : |1442695041 / 1000000000 - 1 / L| ≤ 3 / 10 ^ 9 := by
    have : (1442695041 / 1000000000 - 1 / L : ℝ) = (1442695041 / 1000000000 * L - 1) / L := by field_simp
    rw [this, abs_div, abs_of_pos L0, div_le_iff₀ L0, abs_le]
    constructor <;> linarith
  have e : log2Q m - l / L = (log2Q m + 1442695041 / 1000000000 * S) - 1442695041 / 1000000000 * (S + l) +
      (1442695041 / 1000000000 - 1 / L) * l := by ring
  rw [e]
  have t1 : |1442695041 / 1000000000 * (S + l)| ≤ 145 / 10 ^ 8 := by
    rw [abs_mul, abs_of_pos (by norm_num)]; linarith
  have t2 : |(1442695041 / 1000000000 - 1 / L) * l| ≤ 3 / 10 ^ 9 := by
    rw [abs_mul]
    calc _ ≤ 3 / 10 ^ 9 * (7 / 10) := mul_le_mul k lm (abs_nonneg _) (by norm_num)
      _ ≤ _ := by norm_num
  push_cast at b
  rw [abs_le] at b t1 t2 ⊢
  constructor <;> linarith

/-! ### Rounding errors -/

theorem log2F_error (x : Rat) (h0 : 1 / 2 ≤ x) (h1 : x ≤ 1) :
    |fl (fl (fl (fl (fl (fl (fl (fl (fl (log2C 0) * x) + fl (log2C 1)) * x) + fl (log2C 2)) * x) + fl (log2C 3)) * x) + fl (log2C 4)) -
      log2Q x| ≤ 35 / 10 ^ 7 := by
  obtain ⟨q0, q1, q2, q3, q4⟩ := log2C_fl
  rw [q0, q1, q2, q3, q4]
  unfold log2Q
  have hx : |x| ≤ 1 := by rw [abs_le]; constructor <;> linarith
  have m1 : |(-10861543 / 8388608 : Rat) * x + 5366287 / 1048576| ≤ 45 / 10 := by
    rw [abs_le]; constructor <;> linarith
  have m1' : 22 / 10 ≤ ((-10861543 / 8388608 : Rat) * x + 5366287 / 1048576) * x ∧
      ((-10861543 / 8388608 : Rat) * x + 5366287 / 1048576) * x ≤ 45 / 10 := by
    constructor <;> nlinarith
  have m2 : |((-10861543 / 8388608 : Rat) * x + 5366287 / 1048576) * x + -4416053 / 524288| ≤ 63 / 10 := by
    rw [abs_le]; constructor <;> linarith
  have m2' : -63 / 10 ≤ (((-10861543 / 8388608 : Rat) * x + 5366287 / 1048576) * x + -4416053 / 524288) * x ∧
      (((-10861543 / 8388608 : Rat) * x + 5366287 / 1048576) * x + -4416053 / 524288) * x ≤ 0 := by
    rw [abs_le] at m2
    constructor <;> nlinarith [m2.1]
  have m3 : |(((-10861543 / 8388608 : Rat) * x + 5366287 / 1048576) * x + -4416053 / 524288) * x + 2124829 / 262144| ≤ 82 / 10 := by
    rw [abs_le]; constructor <;> linarith [m2'.1, m2'.2]
  have m3' : 0 ≤ ((((-10861543 / 8388608 : Rat) * x + 5366287 / 1048576) * x + -4416053 / 524288) * x + 2124829 / 262144) * x ∧
      ((((-10861543 / 8388608 : Rat) * x + 5366287 / 1048576) * x + -4416053 / 524288) * x + 2124829 / 262144) * x ≤ 82 / 10 := by
    rw [abs_le] at m3
    have : 0 ≤ (((-10861543 / 8388608 : Rat) * x + 5366287 / 1048576) * x + -4416053 / 524288) * x + 2124829 / 262144 := by
      linarith [m2'.1]
    constructor <;> nlinarith [m3.1, m3.2]
  have m4 : |((((-10861543 / 8388608 : Rat) * x + 5366287 / 1048576) * x + -4416053 / 524288) * x + 2124829 / 262144) * x +
      -14703861 / 4194304| ≤ 5 := by
    rw [abs_le]; constructor <;> linarith [m3'.1, m3'.2]
  have e0 : |fl (-10861543 / 8388608 * x) - -10861543 / 8388608 * x| ≤ 8 / 10 ^ 8 :=
    fl_mul_near _ _ x 0 1 (13 / 10) _ (by norm_num) hx (by rw [abs_le]; constructor <;> norm_num) (by norm_num) (by norm_num)
  have e1 := fl_add_near _ _ (5366287 / 1048576) _ _ (36 / 10 ^ 8) e0 m1 (by norm_num) (by norm_num)
  have e1' := fl_mul_near _ _ x _ _ _ (64 / 10 ^ 8) e1 hx m1 (by norm_num) (by norm_num)
  have e2 := fl_add_near _ _ (-4416053 / 524288) _ _ (103 / 10 ^ 8) e1' m2 (by norm_num) (by norm_num)
  have e2' := fl_mul_near _ _ x _ _ _ (142 / 10 ^ 8) e2 hx m2 (by norm_num) (by norm_num)
  have e3 := fl_add_near _ _ (2124829 / 262144) _ _ (192 / 10 ^ 8) e2' m3 (by norm_num) (by norm_num)
  have e3' := fl_mul_near _ _ x _ _ _ (242 / 10 ^ 8) e3 hx m3 (by norm_num) (by norm_num)
  exact fl_add_near _ _ (-14703861 / 4194304) _ _ (35 / 10 ^ 7) e3' m4 (by norm_num) (by norm_num)

end LC3
