import Mathlib.Algebra.BigOperators.Intervals
import Mathlib.Algebra.BigOperators.Ring.Finset
import Mathlib.Algebra.Order.BigOperators.Ring.Finset
import Mathlib.Tactic.Ring
import Mathlib.Tactic.Linarith
import Mathlib.Tactic.FieldSimp
import Verif.Model.Tns

/-!
Levinson-Durbin recursion, step-down recursion and lattice filter of `src/tns.c`, in exact arithmetic.
-/

namespace LC3

open Finset

/-- The coefficient `j` of the prediction error filter `1 + a_1 z^-1 + ...`. -/
def pef (a : List Rat) (j : Nat) : Rat := (1 :: a).getD j 0

theorem pef_zero (a : List Rat) : pef a 0 = 1 := rfl

theorem pef_succ (a : List Rat) (j : Nat) : pef a (j + 1) = a.getD j 0 := rfl

theorem pef_big (a : List Rat) (j : Nat) (h : a.length < j) : pef a j = 0 := by
  unfold pef
  rw [List.getD_eq_getElem?_getD, List.getElem?_eq_none (by simpa using h)]
  rfl

/-- The next predictor, of reflection coefficient `rc`. -/
def stepUp (a : List Rat) (rc : Rat) : List Rat := a.zipWith (fun u v => u + rc * v) a.reverse ++ [rc]

theorem stepUp_length (a : List Rat) (rc : Rat) : (stepUp a rc).length = a.length + 1 := by
  simp [stepUp]

theorem stepUp_pef (a : List Rat) (rc : Rat) (j : Nat) (hj : j ≤ a.length + 1) :
    pef (stepUp a rc) j = pef a j + rc * pef a (a.length + 1 - j) := by
  rcases j with _ | j
  · rw [pef_zero, pef_zero, pef_big a _ (by omega)]
    ring
  · rw [pef_succ, pef_succ]
    unfold stepUp
    by_cases h : j < a.length
    · rw [List.getD_eq_getElem?_getD, List.getElem?_append_left (by simpa using h), List.getElem?_zipWith,
        List.getElem?_eq_getElem h, List.getElem?_reverse h, List.getElem?_eq_getElem (by omega)]
      dsimp only [Option.map₂_some_some, Option.getD_some]
      rw [show a.length + 1 - (j + 1) = (a.length - 1 - j) + 1 by omega, pef_succ, List.getD_eq_getElem?_getD,
        List.getD_eq_getElem?_getD, List.getElem?_eq_getElem h, List.getElem?_eq_getElem (by omega)]
      rfl
    · have : j = a.length := by omega
      subst this
      rw [List.getD_eq_getElem?_getD, List.getElem?_append_right (by simp), Nat.sub_self, pef_zero,
        List.getD_eq_getElem?_getD, List.getElem?_eq_none (Nat.le_refl _)]
      simp

/-! ### Normal equations -/

/-- The correlation at the lag `k`, of the list `r` from the lag 1. -/
def lag (e0 : Rat) (r : List Rat) (k : Nat) : Rat := (e0 :: r).getD k 0

/-- The correlation of the prediction error with the value at the distance `i`. -/
def crossErr (ρ : Nat → Rat) (a : List Rat) (i : Nat) : Rat :=
  ∑ j ∈ range (a.length + 1), pef a j * ρ ((i : Int) - (j : Int)).natAbs

theorem crossErr_step (ρ : Nat → Rat) (a : List Rat) (rc : Rat) (i : Nat) (hi : i ≤ a.length + 1) :
    crossErr ρ (stepUp a rc) i = crossErr ρ a i + rc * crossErr ρ a (a.length + 1 - i) := by
  unfold crossErr
  rw [stepUp_length]
  have h1 : ∑ j ∈ range (a.length + 1 + 1), pef (stepUp a rc) j * ρ ((i : Int) - (j : Int)).natAbs =
      ∑ j ∈ range (a.length + 1 + 1), (pef a j * ρ ((i : Int) - (j : Int)).natAbs +
        rc * (pef a (a.length + 1 - j) * ρ ((i : Int) - (j : Int)).natAbs)) := by
    apply sum_congr rfl
    intro j hj
    rw [mem_range] at hj
    rw [stepUp_pef a rc j (by omega)]
    ring
  rw [h1, sum_add_distrib, ← mul_sum]
  congr 1
  · rw [sum_range_succ, pef_big a (a.length + 1) (by omega)]
    ring
  · congr 1
    have h2 := sum_range_reflect (fun j => pef a j * ρ (((a.length + 1 - i : Nat) : Int) - (j : Int)).natAbs) (a.length + 1 + 1)
    rw [sum_range_succ (fun j => pef a j * ρ (((a.length + 1 - i : Nat) : Int) - (j : Int)).natAbs) (a.length + 1),
      pef_big a (a.length + 1) (by omega), zero_mul, add_zero] at h2
    rw [← h2]
    apply sum_congr rfl
    intro j hj
    rw [mem_range] at hj
    rw [show a.length + 1 + 1 - 1 - j = a.length + 1 - j by omega]
    congr 2
    omega

theorem foldl_sub_eq (l : List (Rat × Rat)) (s : Rat) :
    l.foldl (fun s p => s - p.1 * p.2) s = s - (l.map fun p => p.1 * p.2).sum := by
  induction l generalizing s with
  | nil => simp
  | cons p l ih =>
    rw [List.foldl_cons, ih, List.map_cons, List.sum_cons]
    ring

theorem zip_sum (l m : List Rat) (h : l.length ≤ m.length) :
    ((l.zip m).map fun p => p.1 * p.2).sum = ∑ i ∈ range l.length, l.getD i 0 * m.getD i 0 := by
  induction l generalizing m with
  | nil => simp
  | cons u l ih =>
    cases m with
    | nil => simp at h
    | cons v m =>
      rw [List.zip_cons_cons, List.map_cons, List.sum_cons, ih m (by simpa using h), List.length_cons, sum_range_succ']
      simp only [List.getD_cons_zero, List.getD_cons_succ]
      ring

/-- A step of the recursion, in terms of the correlations. -/
theorem levinsonStep_eq (e0 : Rat) (r : List Rat) (a : List Rat) (e : Rat) (q : List Rat × Rat)
    (h : levinsonStep Arith.exact r (a, e) = some q) :
    a.length < r.length ∧ ∃ rc, rc = -(crossErr (lag e0 r) a (a.length + 1)) / e ∧ q.1 = stepUp a rc ∧ q.2 = e * (1 - rc * rc) := by
  unfold levinsonStep at h
  dsimp only at h
  rw [Option.map_eq_some_iff] at h
  obtain ⟨rk, hk, h⟩ := h
  rw [Nat.add_sub_cancel] at hk h
  obtain ⟨hl, hk⟩ := List.getElem?_eq_some_iff.mp hk
  refine ⟨hl, ?_⟩
  dsimp only [Arith.exact, id] at h
  rw [foldl_sub_eq, zip_sum _ _ (by rw [List.length_reverse, List.length_take]; omega)] at h
  have hs : 0 - rk - ∑ i ∈ range a.length, a.getD i 0 * (List.take a.length r).reverse.getD i 0 =
      -(crossErr (lag e0 r) a (a.length + 1)) := by
    unfold crossErr
    rw [sum_range_succ']
    have h1 : ∀ i ∈ range a.length, pef a (i + 1) * lag e0 r (((a.length + 1 : Nat) : Int) - ((i + 1 : Nat) : Int)).natAbs =
        a.getD i 0 * (List.take a.length r).reverse.getD i 0 := by
      intro i hi
      rw [mem_range] at hi
      rw [pef_succ]
      congr 1
      rw [show (((a.length + 1 : Nat) : Int) - ((i + 1 : Nat) : Int)).natAbs = (a.length - 1 - i) + 1 by omega]
      unfold lag
      rw [List.getD_cons_succ, List.getD_eq_getElem?_getD, List.getD_eq_getElem?_getD,
        List.getElem?_reverse (by rw [List.length_take]; omega), List.length_take, Nat.min_eq_left (by omega),
        List.getElem?_take, if_pos (by omega)]
    rw [sum_congr rfl h1, pef_zero]
    have h2 : lag e0 r (((a.length + 1 : Nat) : Int) - ((0 : Nat) : Int)).natAbs = rk := by
      rw [show (((a.length + 1 : Nat) : Int) - ((0 : Nat) : Int)).natAbs = a.length + 1 by omega]
      unfold lag
      rw [List.getD_cons_succ, List.getD_eq_getElem?_getD, List.getElem?_eq_getElem hl, ← hk]
      rfl
    rw [h2]
    ring
  rw [hs] at h
  refine ⟨_, rfl, ?_, ?_⟩
  · rw [← h]; rfl
  · rw [← h]

/-- The predictor `a` solves the normal equations of its order, with the error `e`. -/
structure Normal (ρ : Nat → Rat) (a : List Rat) (e : Rat) : Prop where
  eqs : ∀ i, 1 ≤ i → i ≤ a.length → crossErr ρ a i = 0
  err : crossErr ρ a 0 = e

theorem normal_step (ρ : Nat → Rat) (a : List Rat) (e : Rat) (he : e ≠ 0) (h : Normal ρ a e) :
    Normal ρ (stepUp a (-(crossErr ρ a (a.length + 1)) / e))
      (e * (1 - -(crossErr ρ a (a.length + 1)) / e * (-(crossErr ρ a (a.length + 1)) / e))) := by
  constructor
  · intro i h1 h2
    rw [stepUp_length] at h2
    rw [crossErr_step ρ a _ i h2]
    by_cases hi : i ≤ a.length
    · rw [h.eqs i h1 hi, h.eqs (a.length + 1 - i) (by omega) (by omega)]
      ring
    · have : i = a.length + 1 := by omega
      subst this
      rw [Nat.sub_self, h.err]
      field_simp
      ring
  · rw [crossErr_step ρ a _ 0 (by omega), h.err, Nat.sub_zero]
    field_simp
    ring

/-- The recursion, from a predictor that solves the normal equations: the errors are the product of the initial one by the
`1 - rc^2`, and the result solves the normal equations. -/
theorem levinson_normal (e0 : Rat) (r : List Rat) (n : Nat) (a : List Rat) (e : Rat) (q : List Rat × Rat)
    (h : levinson Arith.exact r n (a, e) = some q) (hq : q.2 ≠ 0) (hn : Normal (lag e0 r) a e) :
    q.1.length = a.length + n ∧ Normal (lag e0 r) q.1 q.2 := by
  induction n generalizing a e with
  | zero =>
    rw [levinson, Option.some.injEq] at h
    subst h
    exact ⟨rfl, hn⟩
  | succ n ih =>
    rw [levinson, Option.bind_eq_some_iff] at h
    obtain ⟨s, h1, h2⟩ := h
    obtain ⟨-, rc, hrc, hs1, hs2⟩ := levinsonStep_eq e0 r a e s h1
    have he : e ≠ 0 := by
      intro h0
      have : ∀ (n : Nat) (s q : List Rat × Rat), s.2 = 0 → levinson Arith.exact r n s = some q → q.2 = 0 := by
        intro n
        induction n with
        | zero => intro s q hs h; cases h; exact hs
        | succ n ih =>
          intro s q hs h
          rw [levinson, Option.bind_eq_some_iff] at h
          obtain ⟨t, h1, h2⟩ := h
          obtain ⟨-, rc, -, -, ht⟩ := levinsonStep_eq 0 r s.1 s.2 t h1
          exact ih t q (by rw [ht, hs, zero_mul]) h2
      exact hq (this n s q (by rw [hs2, h0, zero_mul]) h2)
    have hn' := normal_step _ a e he hn
    rw [← hrc, ← hs1, ← hs2] at hn'
    obtain ⟨l, m⟩ := ih s.1 s.2 h2 hn'
    exact ⟨by rw [l, hs1, stepUp_length]; omega, m⟩

/-- The start of the recursion. -/
theorem normal_start (e0 : Rat) (r : List Rat) : Normal (lag e0 r) [] e0 := by
  refine ⟨fun i h1 h2 => ?_, ?_⟩
  · simp only [List.length_nil] at h2
    omega
  · unfold crossErr
    rw [List.length_nil, sum_range_one, pef_zero]
    change 1 * lag e0 r 0 = e0
    unfold lag
    simp

/-! ### Energy of the prediction error -/

/-- The energy of the output of the filter `u` of order `n`, by the correlations. -/
def energy (ρ : Nat → Rat) (n : Nat) (u : Nat → Rat) : Rat :=
  ∑ i ∈ range (n + 1), ∑ j ∈ range (n + 1), u i * u j * ρ ((i : Int) - (j : Int)).natAbs

theorem energy_normal (ρ : Nat → Rat) (a : List Rat) (e : Rat) (h : Normal ρ a e) (b : Nat → Rat) (hb : b 0 = 1) :
    energy ρ a.length b = e + energy ρ a.length (fun i => b i - pef a i) := by
  have cross : ∀ d : Nat → Rat, ∑ i ∈ range (a.length + 1), ∑ j ∈ range (a.length + 1),
      d i * pef a j * ρ ((i : Int) - (j : Int)).natAbs = d 0 * e := by
    intro d
    have : ∀ i ∈ range (a.length + 1), ∑ j ∈ range (a.length + 1), d i * pef a j * ρ ((i : Int) - (j : Int)).natAbs =
        d i * crossErr ρ a i := by
      intro i _
      unfold crossErr
      rw [mul_sum]
      apply sum_congr rfl
      intro j _
      ring
    rw [sum_congr rfl this, sum_range_succ', h.err]
    rw [sum_eq_zero, zero_add]
    intro i hi
    rw [mem_range] at hi
    rw [h.eqs (i + 1) (by omega) (by omega), mul_zero]
  have cross' : ∀ d : Nat → Rat, ∑ i ∈ range (a.length + 1), ∑ j ∈ range (a.length + 1),
      pef a i * d j * ρ ((i : Int) - (j : Int)).natAbs = d 0 * e := by
    intro d
    rw [sum_comm, ← cross d]
    apply sum_congr rfl
    intro i _
    apply sum_congr rfl
    intro j _
    rw [show ((j : Int) - (i : Int)).natAbs = ((i : Int) - (j : Int)).natAbs by omega]
    ring
  have e1 := cross (fun i => b i - pef a i)
  have e2 := cross' (fun i => b i - pef a i)
  have e3 := cross (pef a)
  rw [hb, pef_zero, sub_self, zero_mul] at e1 e2
  rw [pef_zero, one_mul] at e3
  have split : energy ρ a.length b = energy ρ a.length (fun i => b i - pef a i) +
      ∑ i ∈ range (a.length + 1), ∑ j ∈ range (a.length + 1), (b i - pef a i) * pef a j * ρ ((i : Int) - (j : Int)).natAbs +
      ∑ i ∈ range (a.length + 1), ∑ j ∈ range (a.length + 1), pef a i * (b j - pef a j) * ρ ((i : Int) - (j : Int)).natAbs +
      ∑ i ∈ range (a.length + 1), ∑ j ∈ range (a.length + 1), pef a i * pef a j * ρ ((i : Int) - (j : Int)).natAbs := by
    unfold energy
    rw [← sum_add_distrib, ← sum_add_distrib, ← sum_add_distrib]
    apply sum_congr rfl
    intro i _
    rw [← sum_add_distrib, ← sum_add_distrib, ← sum_add_distrib]
    apply sum_congr rfl
    intro j _
    ring
  rw [split, e1, e2, e3]
  ring

theorem energy_self (ρ : Nat → Rat) (a : List Rat) (e : Rat) (h : Normal ρ a e) : energy ρ a.length (pef a) = e := by
  rw [energy_normal ρ a e h _ rfl]
  unfold energy
  simp

theorem lag_row (ρ : Nat → Rat) (n m i : Nat) (hm : m ≤ n) (hi : i ≤ m) :
    ∑ j ∈ range (m + 1), (if i = j then 0 else |ρ ((i : Int) - (j : Int)).natAbs|) ≤ 2 * ∑ k ∈ Icc 1 n, |ρ k| := by
  have h1 : ∀ j ∈ range (m + 1), (if i = j then 0 else |ρ ((i : Int) - (j : Int)).natAbs|) ≤
      ∑ k ∈ Icc 1 n, |ρ k| * ((if i = j + k then 1 else 0) + (if j = i + k then 1 else 0)) := by
    intro j hj
    rw [mem_range] at hj
    have hnn : ∀ k ∈ Icc 1 n, 0 ≤ |ρ k| * (((if i = j + k then 1 else 0) : Rat) + (if j = i + k then 1 else 0)) := by
      intro k _
      apply mul_nonneg (abs_nonneg _)
      split_ifs <;> norm_num
    split
    · exact sum_nonneg hnn
    · refine le_trans ?_ (single_le_sum hnn (show ((i : Int) - (j : Int)).natAbs ∈ Icc 1 n by rw [mem_Icc]; omega))
      rcases Nat.lt_or_gt_of_ne ‹¬ i = j› with h | h
      · rw [if_neg (by omega), if_pos (by omega)]
        linarith
      · rw [if_pos (by omega), if_neg (by omega)]
        linarith
  refine (sum_le_sum h1).trans ?_
  rw [sum_comm, mul_sum]
  apply sum_le_sum
  intro k _
  rw [← mul_sum, mul_comm (2 : Rat)]
  apply mul_le_mul_of_nonneg_left _ (abs_nonneg _)
  rw [sum_add_distrib, sum_boole, sum_boole]
  have c1 : (filter (fun j => i = j + k) (range (m + 1))).card ≤ 1 := by
    rw [card_le_one]
    intro a ha b hb
    rw [mem_filter] at ha hb
    omega
  have c2 : (filter (fun j => j = i + k) (range (m + 1))).card ≤ 1 := by
    rw [card_le_one]
    intro a ha b hb
    rw [mem_filter] at ha hb
    omega
  have c1' : ((filter (fun j => i = j + k) (range (m + 1))).card : Rat) ≤ 1 := by exact_mod_cast c1
  have c2' : ((filter (fun j => j = i + k) (range (m + 1))).card : Rat) ≤ 1 := by exact_mod_cast c2
  linarith

/-- The energies are positive when the correlations are weak. -/
theorem energy_pos (ρ : Nat → Rat) (n m : Nat) (hm : m ≤ n) (h : 2 * ∑ k ∈ Icc 1 n, |ρ k| < ρ 0) (b : Nat → Rat) (hb : b 0 = 1) :
    0 < energy ρ m b := by
  have t : ∀ i ∈ range (m + 1), ∀ j ∈ range (m + 1),
      (if i = j then b i * b i * ρ 0 else 0) - b i * b i * (if i = j then 0 else |ρ ((i : Int) - (j : Int)).natAbs|) / 2 -
        b j * b j * (if j = i then 0 else |ρ ((j : Int) - (i : Int)).natAbs|) / 2 ≤
      b i * b j * ρ ((i : Int) - (j : Int)).natAbs := by
    intro i _ j _
    by_cases hij : i = j
    · subst hij
      simp
    · rw [if_neg hij, if_neg hij, if_neg (fun h => hij h.symm), show ((j : Int) - (i : Int)).natAbs = ((i : Int) - (j : Int)).natAbs by omega]
      generalize ρ ((i : Int) - (j : Int)).natAbs = v
      have h1 := neg_abs_le v
      have h2 := le_abs_self v
      have h3 : -(b i * b j * v) ≤ (b i * b i + b j * b j) / 2 * |v| := by
        have a1 : -(b i * b j * v) ≤ |b i * b j| * |v| := by
          rw [← abs_mul]
          exact neg_le_abs _
        refine a1.trans (mul_le_mul_of_nonneg_right ?_ (abs_nonneg v))
        rw [abs_le]
        constructor <;> nlinarith [sq_nonneg (b i + b j), sq_nonneg (b i - b j)]
      linarith
  have s : ∑ i ∈ range (m + 1), b i * b i * (ρ 0 - 2 * ∑ k ∈ Icc 1 n, |ρ k|) ≤ energy ρ m b := by
    have e1 : ∑ i ∈ range (m + 1), ∑ j ∈ range (m + 1),
        ((if i = j then b i * b i * ρ 0 else 0) - b i * b i * (if i = j then 0 else |ρ ((i : Int) - (j : Int)).natAbs|) / 2 -
        b j * b j * (if j = i then 0 else |ρ ((j : Int) - (i : Int)).natAbs|) / 2) ≤ energy ρ m b :=
      sum_le_sum fun i hi => sum_le_sum fun j hj => t i hi j hj
    refine le_trans ?_ e1
    simp only [sum_sub_distrib]
    rw [sum_comm (f := fun i j => b j * b j * (if j = i then 0 else |ρ ((j : Int) - (i : Int)).natAbs|) / 2)]
    rw [← sum_sub_distrib, ← sum_sub_distrib]
    apply sum_le_sum
    intro i hi
    rw [sum_ite_eq, if_pos hi]
    have r := lag_row ρ n m i hm (by rw [mem_range] at hi; omega)
    have e2 : ∑ j ∈ range (m + 1), b i * b i * (if i = j then 0 else |ρ ((i : Int) - (j : Int)).natAbs|) / 2 =
        b i * b i / 2 * ∑ j ∈ range (m + 1), (if i = j then 0 else |ρ ((i : Int) - (j : Int)).natAbs|) := by
      rw [mul_sum]
      apply sum_congr rfl
      intro j _
      ring
    rw [e2]
    have := mul_le_mul_of_nonneg_left r (mul_self_nonneg (b i))
    linarith
  refine lt_of_lt_of_le ?_ s
  have p0 : ∀ i ∈ range (m + 1), 0 ≤ b i * b i * (ρ 0 - 2 * ∑ k ∈ Icc 1 n, |ρ k|) :=
    fun i _ => mul_nonneg (mul_self_nonneg _) (by linarith)
  refine lt_of_lt_of_le ?_ (single_le_sum p0 (mem_range.mpr (Nat.succ_pos m)))
  rw [hb]
  linarith

end LC3
