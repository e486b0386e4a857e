import Verif.Lemmas.RoundF
import Verif.Lemmas.InvBound
import Verif.Props.Shaping
import Mathlib.Algebra.Order.BigOperators.Ring.Finset

/-! The gains of the noise shaping of the decoder are bounded, whatever the rounding of the single precision. -/

namespace LC3

open Finset

variable {rnd : Rat → Rat}

/-- An exponentiation of base 2 with the accuracy of `lc3_exp2f` (C66), on the number the operand is rounded to. -/
def ExpNear (rnd exp2 : Rat → Rat) : Prop :=
  ∀ v : Rat, |rnd v| ≤ 100 → |((exp2 v : Rat) : ℝ) - (2 : ℝ) ^ ((rnd v : Rat) : ℝ)| ≤ 22 / 10 ^ 8 * (2 : ℝ) ^ ((rnd v : Rat) : ℝ)

theorem exp2_le (exp2 : Rat → Rat) (h : RoundF rnd) (he : ExpNear rnd exp2) (v : Rat) (hv : |v| ≤ 1749 / 100) : |exp2 v| ≤ 185400 := by
  have h1 := (h.mag hv (by norm_num)).trans (show _ ≤ (175 / 10 : Rat) by norm_num)
  have h2 := he v (h1.trans (by norm_num))
  generalize rnd v = w at *
  have hw : ((w : Rat) : ℝ) ≤ 35 / 2 := by
    have : w ≤ 35 / 2 := (le_abs_self w).trans (h1.trans (by norm_num))
    have h2 : ((w : Rat) : ℝ) ≤ ((35 / 2 : Rat) : ℝ) := by exact_mod_cast this
    push_cast at h2
    exact h2
  have h3 : (2 : ℝ) ^ ((w : Rat) : ℝ) ≤ 2 ^ ((35 / 2 : ℝ)) := Real.rpow_le_rpow_of_exponent_le (by norm_num) hw
  have h4 : (2 : ℝ) ^ ((35 / 2 : ℝ)) ≤ 185370 := by
    have h0 : (0 : ℝ) ≤ (2 : ℝ) ^ ((35 / 2 : ℝ)) := by positivity
    have e : ((2 : ℝ) ^ ((35 / 2 : ℝ))) ^ 2 = 2 ^ 35 := by
      rw [← Real.rpow_natCast, ← Real.rpow_mul (by norm_num)]
      norm_num
    by_contra hc
    push Not at hc
    have : (185370 : ℝ) ^ 2 < ((2 : ℝ) ^ ((35 / 2 : ℝ))) ^ 2 := by
      apply pow_lt_pow_left₀ hc (by norm_num) (by norm_num)
    rw [e] at this
    norm_num at this
  have h5 : |((exp2 v : Rat) : ℝ)| ≤ 185400 := by
    have := abs_add_le (((exp2 v : Rat) : ℝ) - (2 : ℝ) ^ ((w : Rat) : ℝ)) ((2 : ℝ) ^ ((w : Rat) : ℝ))
    rw [sub_add_cancel] at this
    have h0 : (0 : ℝ) ≤ (2 : ℝ) ^ ((w : Rat) : ℝ) := by positivity
    rw [abs_of_nonneg h0] at this
    norm_num at h2
    linarith
  exact_mod_cast h5

/-! ### Pulses -/

theorem foldl_add_int : ∀ (l : List Int) (a : Int), l.foldl (· + ·) a = a + l.sum
  | [], a => by simp
  | x :: l, a => by rw [List.foldl_cons, foldl_add_int l, List.sum_cons]; ring

theorem invSqrt_near (h : RoundF rnd) (sqrt : Rat → Rat) (hs : SqrtNear sqrt) (N : Int) (h1 : 1 ≤ N) (h2 : N ≤ 200) :
    1 / 100 ≤ rnd (rnd 1 / sqrt (rnd N)) ∧ rnd (rnd 1 / sqrt (rnd N)) ^ 2 * N ≤ 1 + 1 / 10 ^ 5 := by
  have n1 : (1 : Rat) ≤ N := by exact_mod_cast h1
  have n2 : (N : Rat) ≤ 200 := by exact_mod_cast h2
  obtain ⟨a1, a2⟩ := abs_le.1 (h.near (N : Rat) (by rw [abs_of_nonneg (by linarith)]; norm_num; linarith))
  rw [abs_of_nonneg (show (0 : Rat) ≤ N by linarith)] at a1 a2
  have a3 : (N : Rat) * (1 - 1 / 10 ^ 6) ≤ rnd N := by norm_num at a1 ⊢; linarith
  have a4 : rnd N ≤ 201 := by norm_num at a2 ⊢; linarith
  generalize rnd (N : Rat) = n at *
  have n0 : (0 : Rat) < n := by linarith
  have b := hs n n0
  have n0r : (0 : ℝ) < n := by exact_mod_cast n0
  have q0 : 0 < Real.sqrt n := Real.sqrt_pos.2 n0r
  have q2 : Real.sqrt n ^ 2 = n := Real.sq_sqrt n0r.le
  obtain ⟨b1, b2⟩ := abs_le.1 b
  generalize sqrt n = s at *
  have s0r : (0 : ℝ) < s := by linarith
  have s0 : (0 : Rat) < s := by exact_mod_cast s0r
  have s1r : (s : ℝ) < 20 := by
    have : Real.sqrt n ≤ 15 := by
      rw [Real.sqrt_le_left (by norm_num)]
      have : n ≤ (15 : Rat) ^ 2 := by linarith
      exact_mod_cast this
    linarith
  have s1 : s < 20 := by exact_mod_cast s1r
  have s2r : (n : ℝ) * (1 - 1 / 10 ^ 6) ≤ s ^ 2 := by
    have e1 : Real.sqrt n * (1 - 1 / 2 ^ 24) ≤ s := by linarith
    have e2 := pow_le_pow_left₀ (mul_nonneg q0.le (by norm_num)) e1 2
    rw [mul_pow, q2] at e2
    norm_num at e2 ⊢
    linarith
  have s2 : n * (1 - 1 / 10 ^ 6) ≤ s ^ 2 := by
    have : ((n * (1 - 1 / 10 ^ 6) : Rat) : ℝ) ≤ ((s ^ 2 : Rat) : ℝ) := by push_cast; exact s2r
    exact_mod_cast this
  obtain ⟨c1, c2⟩ := abs_le.1 (h.near 1 (by norm_num))
  rw [abs_one] at c1 c2
  have c3 : 1 - 1 / 10 ^ 6 ≤ rnd 1 := by norm_num at c1 ⊢; linarith
  have c4 : rnd 1 ≤ 1 + 1 / 10 ^ 6 := by norm_num at c2 ⊢; linarith
  generalize rnd 1 = o at *
  have s9 : 9 / 10 ≤ s := by
    by_contra hc
    push Not at hc
    have := pow_lt_pow_left₀ hc s0.le (n := 2) (by norm_num)
    linarith
  have u1 : 1 / 21 ≤ o / s := by rw [le_div_iff₀ s0]; norm_num at c3; linarith
  have u2 : o / s ≤ 2 := by rw [div_le_iff₀ s0]; norm_num at c4; linarith
  have u3 : (o / s) ^ 2 * s ^ 2 ≤ 1 + 1 / 10 ^ 5 / 4 := by
    rw [div_pow, div_mul_cancel₀ _ (by positivity)]
    have := pow_le_pow_left₀ (by linarith) c4 2
    norm_num at this ⊢
    linarith
  generalize o / s = u at *
  obtain ⟨d1, d2⟩ := abs_le.1 (h.near u (by rw [abs_of_nonneg (by linarith)]; norm_num; linarith))
  rw [abs_of_nonneg (show (0 : Rat) ≤ u by linarith)] at d1 d2
  have d3 : rnd u ≤ u * (1 + 1 / 10 ^ 6) := by norm_num at d2 ⊢; linarith
  have d4 : 1 / 100 ≤ rnd u := by norm_num at d1 ⊢; linarith
  refine ⟨d4, ?_⟩
  have e1 := pow_le_pow_left₀ (by linarith) d3 2
  rw [mul_pow] at e1
  have e2 : (N : Rat) * (1 - 1 / 10 ^ 6) * (1 - 1 / 10 ^ 6) ≤ s ^ 2 := le_trans (mul_le_mul_of_nonneg_right a3 (by norm_num)) s2
  have e3 : u ^ 2 * N * ((1 - 1 / 10 ^ 6) * (1 - 1 / 10 ^ 6)) ≤ 1 + 1 / 10 ^ 5 / 4 := by
    have := mul_le_mul_of_nonneg_left e2 (sq_nonneg u)
    linarith
  have e4 : rnd u ^ 2 * N ≤ u ^ 2 * N * (1 + 1 / 10 ^ 6) ^ 2 := by
    have := mul_le_mul_of_nonneg_right e1 (show (0 : Rat) ≤ N by linarith)
    linarith
  have e5 : 0 ≤ u ^ 2 * (N : Rat) := by positivity
  generalize u ^ 2 * (N : Rat) = w at *
  norm_num at e3 e4 ⊢
  linarith

theorem pulse_mag (h : RoundF rnd) (t : Rat) (t1 : 1 / 100 ≤ t) (t2 : t ≤ 2) (c : Int) (hc : c.natAbs ≤ 100) :
    |rnd (rnd c * t)| ≤ |(c : Rat)| * t * (1 + 1 / 10 ^ 6) := by
  by_cases c0 : c = 0
  · subst c0
    rw [Int.cast_zero, h.zero, zero_mul, h.zero]
    simp
  · have c1 : (1 : Rat) ≤ |(c : Rat)| := by
      rw [← Int.cast_abs]
      exact_mod_cast Int.one_le_abs c0
    have c2 : |(c : Rat)| ≤ 100 := by
      rw [← Int.cast_abs, Int.abs_eq_natAbs]
      exact_mod_cast hc
    have h1 := h.mag (x := (c : Rat)) (le_refl _) (by norm_num; linarith)
    generalize |(c : Rat)| = a at *
    have h2 : |rnd (c : Rat)| ≤ a * (1 + 1 / 10 ^ 7) := by norm_num at h1 ⊢; linarith
    have h3 : |rnd (c : Rat) * t| ≤ a * (1 + 1 / 10 ^ 7) * t := by
      rw [abs_mul, abs_of_nonneg (show (0 : Rat) ≤ t by linarith)]
      exact mul_le_mul_of_nonneg_right h2 (by linarith)
    have h5 : a * t ≤ 200 := by
      have := mul_le_mul c2 t2 (by linarith) (by norm_num)
      linarith
    have h6 : 1 / 100 ≤ a * t := by
      have := mul_le_mul c1 t1 (by norm_num) (by linarith)
      linarith
    have h4 := h.mag h3 (by norm_num; linarith)
    refine h4.trans ?_
    norm_num
    linarith

theorem pulses_energy (h : RoundF rnd) (M : SnsMath Rat) (hs : SqrtNear M.sqrt) (c : List Int) (h1 : 1 ≤ (c.map fun v => v * v).sum) (h2 : (c.map fun v => v * v).sum ≤ 200)
    (hc : ∀ v ∈ c, v.natAbs ≤ 100) : ((normalizePulses (Arith.rounded rnd) M c).map fun v => v ^ 2).sum ≤ 1 + 1 / 10 ^ 4 := by
  unfold normalizePulses
  dsimp only
  rw [foldl_add_int, zero_add]
  obtain ⟨a1, a2⟩ := invSqrt_near h M.sqrt hs _ h1 h2
  rw [show (Arith.rounded rnd).div ((Arith.rounded rnd).ofInt 1) (M.sqrt ((Arith.rounded rnd).ofInt (c.map fun v => v * v).sum))
    = rnd (rnd 1 / M.sqrt (rnd ((c.map fun v => v * v).sum : Int))) by simp [Arith.rounded, Arith.ofInt]]
  have hn1 : (1 : Rat) ≤ ((c.map fun v => v * v).sum : Int) := by exact_mod_cast h1
  generalize rnd (rnd 1 / M.sqrt (rnd ((c.map fun v => v * v).sum : Int))) = t at *
  have t2 : t ≤ 2 := by
    by_contra hcon
    push Not at hcon
    have e1 := pow_lt_pow_left₀ hcon (by norm_num) (n := 2) (by norm_num)
    have e2 := mul_le_mul_of_nonneg_left hn1 (sq_nonneg t)
    norm_num at e1
    have e3 := a2.trans (show (1 + 1 / 10 ^ 5 : Rat) ≤ 2 by norm_num)
    linarith
  rw [List.map_map]
  have key : ∀ l : List Int, (∀ v ∈ l, v.natAbs ≤ 100) → (l.map ((fun v => v ^ 2) ∘ fun v => (Arith.rounded rnd).mul ((Arith.rounded rnd).ofInt v) t)).sum
      ≤ ((l.map fun v => v * v).sum : Int) * (t ^ 2 * (1 + 1 / 10 ^ 6) ^ 2) := by
    intro l
    induction l with
    | nil => intro _; simp
    | cons v l ih =>
      intro hl
      rw [List.map_cons, List.map_cons, List.sum_cons, List.sum_cons]
      have e1 := ih fun w hw => hl w (by simp [hw])
      have e2 := pulse_mag h t a1 t2 v (hl v (by simp))
      have e3 : ((Arith.rounded rnd).mul ((Arith.rounded rnd).ofInt v) t) ^ 2 ≤ (v : Rat) ^ 2 * (t ^ 2 * (1 + 1 / 10 ^ 6) ^ 2) := by
        change (rnd (rnd (v : Rat) * t)) ^ 2 ≤ _
        have := pow_le_pow_left₀ (abs_nonneg _) e2 2
        rw [sq_abs] at this
        refine this.trans (le_of_eq ?_)
        rw [mul_pow, mul_pow, sq_abs]
        ring
      push_cast at e1 ⊢
      have e4 : ((fun v => v ^ 2) ∘ fun v => (Arith.rounded rnd).mul ((Arith.rounded rnd).ofInt v) t) v = ((Arith.rounded rnd).mul ((Arith.rounded rnd).ofInt v) t) ^ 2 := rfl
      rw [e4, add_mul]
      refine add_le_add (e3.trans (le_of_eq (by ring))) e1
  refine (key c hc).trans ?_
  generalize (((c.map fun v => v * v).sum : Int) : Rat) = N at *
  have : N * (t ^ 2 * (1 + 1 / 10 ^ 6) ^ 2) = (t ^ 2 * N) * (1 + 1 / 10 ^ 6) ^ 2 := by ring
  rw [this]
  generalize t ^ 2 * N = w at *
  norm_num at a2 ⊢
  linarith

/-! ### DCT -/

theorem dct_foldl (h : RoundF rnd) (x m : Nat → Rat) (hx : ∀ j, |x j| ≤ 101 / 100) (hm : ∀ j, |m j| ≤ 1) (n : Nat) (hn : n ≤ 16) :
    |(List.range n).foldl (fun y j => rnd (y + rnd (x j * m j))) 0 - ∑ j ∈ range n, x j * m j| ≤ n / 10 ^ 5 ∧
    |∑ j ∈ range n, x j * m j| ≤ n * (101 / 100) := by
  induction n with
  | zero => simp
  | succ n ih =>
    obtain ⟨i1, i2⟩ := ih (by omega)
    rw [List.range_succ, List.foldl_append, List.foldl_cons, List.foldl_nil, sum_range_succ]
    have n0 : (0 : Rat) ≤ n := Nat.cast_nonneg n
    have n16 : (n : Rat) ≤ 16 := by exact_mod_cast (by omega : n ≤ 16)
    generalize (List.range n).foldl (fun y j => rnd (y + rnd (x j * m j))) 0 = y at *
    generalize ∑ j ∈ range n, x j * m j = s at *
    have p1 : |x n * m n| ≤ 101 / 100 := by
      rw [abs_mul]
      have := mul_le_mul (hx n) (hm n) (abs_nonneg _) (by norm_num)
      linarith
    generalize x n * m n = p at *
    have e1 := h.err p1 (by norm_num)
    have e2 : |y| ≤ 18 := by
      have := abs_add_le (y - s) s
      rw [sub_add_cancel] at this
      norm_num at i1
      linarith
    have e3 : |rnd p| ≤ 2 := (h.mag p1 (by norm_num)).trans (by norm_num)
    have e4 : |y + rnd p| ≤ 20 := (abs_add_le _ _).trans (by linarith)
    have e5 := h.err e4 (by norm_num)
    push_cast
    constructor
    · have := abs_add_three (rnd (y + rnd p) - (y + rnd p)) (rnd p - p) (y - s)
      rw [show rnd (y + rnd p) - (y + rnd p) + (rnd p - p) + (y - s) = rnd (y + rnd p) - (s + p) by ring] at this
      norm_num at e1 e5 i1 ⊢
      linarith
    · have := abs_add_le s p
      linarith

theorem dct16M_row : ∀ i < 16, ∑ j ∈ range 16, ((dct16M.getD i []).getD j 0) ^ 2 ≤ 1 := by decide +kernel

theorem dct16M_cell (i j : Nat) : |(dct16M.getD i []).getD j 0| ≤ 1 / 2 := by
  have h : ∀ l ∈ dct16M, ∀ v ∈ l, |v| ≤ (1 / 2 : Rat) := by decide +kernel
  have h2 : ∀ l ∈ dct16M, |l.getD j 0| ≤ (1 / 2 : Rat) := by
    intro l hl
    by_cases hj : j < l.length
    · rw [List.getD_eq_getElem _ _ hj]; exact h l hl _ (List.getElem_mem _)
    · rw [List.getD_eq_default _ _ (by omega)]; norm_num
  by_cases hi : i < dct16M.length
  · rw [List.getD_eq_getElem _ _ hi]; exact h2 _ (List.getElem_mem _)
  · rw [show dct16M.getD i [] = [] from List.getD_eq_default _ _ (by omega)]; norm_num

theorem sum_getD_sq (x : List Rat) (n : Nat) : ∑ j ∈ range n, (x.getD j 0) ^ 2 ≤ (x.map fun v => v ^ 2).sum := by
  induction x generalizing n with
  | nil => simp
  | cons a x ih =>
    cases n with
    | zero =>
      rw [range_zero, sum_empty]
      exact List.sum_nonneg fun v hv => by obtain ⟨w, -, rfl⟩ := List.mem_map.1 hv; exact sq_nonneg w
    | succ n =>
      rw [sum_range_succ', List.map_cons, List.sum_cons]
      simp only [List.getD_cons_succ, List.getD_cons_zero]
      have := ih n
      linarith

/-- A value of the DCT, of values of energy 1. -/
theorem dctSum_mag (h : RoundF rnd) (x : List Rat) (hx : (x.map fun v => v ^ 2).sum ≤ 1 + 1 / 10 ^ 4) (i : Nat) (hi : i < 16) (y : Rat)
    (hy : dctSum (Arith.rounded rnd) x (fun j => dctCell (Arith.rounded rnd) i j) = some y) : |y| ≤ 1 + 1 / 10 ^ 3 := by
  unfold dctSum at hy
  split at hy
  · cases hy
  have hy := Option.some.inj hy
  have z : (Arith.rounded rnd).ofInt 0 = 0 := by
    change rnd ((0 : Int) : Rat) = 0
    rw [Int.cast_zero, h.zero]
  rw [z] at hy
  have hE := fun n => (sum_getD_sq x n).trans hx
  have x1 : ∀ j, |x.getD j 0| ≤ 101 / 100 := by
    intro j
    have h1 := hE (j + 1)
    rw [sum_range_succ] at h1
    have h2 : 0 ≤ ∑ j ∈ range j, (x.getD j 0) ^ 2 := sum_nonneg fun _ _ => sq_nonneg _
    by_contra hc
    push Not at hc
    have := pow_lt_pow_left₀ hc (by norm_num) (n := 2) (by norm_num)
    rw [sq_abs] at this
    have h3 : (1 + 1 / 10 ^ 4 : Rat) ≤ (101 / 100) ^ 2 := by norm_num
    linarith
  have mr : ∀ j, |dctCell (Arith.rounded rnd) i j - (dct16M.getD i []).getD j 0| ≤ 1 / 10 ^ 7 := by
    intro j
    refine (h.err (dct16M_cell i j) (by norm_num)).trans (by norm_num)
  have m1 : ∀ j, |dctCell (Arith.rounded rnd) i j| ≤ 1 := by
    intro j
    have h1 := abs_add_le (dctCell (Arith.rounded rnd) i j - (dct16M.getD i []).getD j 0) ((dct16M.getD i []).getD j 0)
    rw [sub_add_cancel] at h1
    have := mr j
    have := dct16M_cell i j
    norm_num at *
    linarith
  obtain ⟨a1, a2⟩ := dct_foldl h (fun j => x.getD j 0) (fun j => dctCell (Arith.rounded rnd) i j) x1 m1 16 (le_refl _)
  have hy' : (List.range 16).foldl (fun y j => rnd (y + rnd (x.getD j 0 * dctCell (Arith.rounded rnd) i j))) 0 = y := hy
  rw [hy'] at a1
  have cs := sum_mul_sq_le_sq_mul_sq (range 16) (fun j => x.getD j 0) (fun j => dctCell (Arith.rounded rnd) i j)
  have mm : ∑ j ∈ range 16, dctCell (Arith.rounded rnd) i j ^ 2 ≤ 1 + 1 / 10 ^ 5 := by
    have : ∑ j ∈ range 16, dctCell (Arith.rounded rnd) i j ^ 2 ≤ ∑ j ∈ range 16, (((dct16M.getD i []).getD j 0) ^ 2 + 2 / 10 ^ 7) := by
      apply sum_le_sum
      intro j _
      obtain ⟨b1, b2⟩ := abs_le.1 (mr j)
      obtain ⟨c1, c2⟩ := abs_le.1 (m1 j)
      obtain ⟨d1, d2⟩ := abs_le.1 (dct16M_cell i j)
      generalize dctCell (Arith.rounded rnd) i j = a at *
      generalize (dct16M.getD i []).getD j 0 = b at *
      have e : a ^ 2 - b ^ 2 = (a - b) * (a + b) := by ring
      have : |(a - b) * (a + b)| ≤ 1 / 10 ^ 7 * 2 := by
        rw [abs_mul]
        exact mul_le_mul (mr j |> fun _ => abs_le.2 ⟨b1, b2⟩) (abs_le.2 ⟨by linarith, by linarith⟩) (abs_nonneg _) (by norm_num)
      have := le_abs_self ((a - b) * (a + b))
      linarith
    refine this.trans ?_
    rw [sum_add_distrib]
    have := dct16M_row i hi
    simp only [sum_const, card_range, nsmul_eq_mul]
    norm_num at this ⊢
    linarith
  have hE16 := hE 16
  generalize ∑ j ∈ range 16, x.getD j 0 * dctCell (Arith.rounded rnd) i j = s at *
  have m0 : 0 ≤ ∑ j ∈ range 16, dctCell (Arith.rounded rnd) i j ^ 2 := sum_nonneg fun _ _ => sq_nonneg _
  have h5 := mul_le_mul hE16 mm m0 (by norm_num)
  have h6 : s ^ 2 ≤ (1 + 1 / 10 ^ 4) * (1 + 1 / 10 ^ 5) := cs.trans h5
  have h7 : |s| ≤ 1 + 1 / 10 ^ 4 := by
    by_contra hc
    push Not at hc
    have := pow_lt_pow_left₀ hc (by norm_num) (n := 2) (by norm_num)
    rw [sq_abs] at this
    norm_num at this h6
    linarith
  have h8 := abs_add_le (y - s) s
  rw [sub_add_cancel] at h8
  push_cast at a1
  norm_num at a1 h7 ⊢
  linarith

/-! ### Scale factors -/

theorem codebook_le : (∀ l ∈ snsLfcb, ∀ v ∈ l, |v| ≤ (483 / 100 : Rat)) ∧ (∀ l ∈ snsHfcb, ∀ v ∈ l, |v| ≤ (483 / 100 : Rat)) ∧
    (∀ l ∈ snsGainValues, ∀ v ∈ l, |v| ≤ (51304 / 10000 : Rat)) := by decide +kernel

theorem unquantizeScf_mag (h : RoundF rnd) (lfcb hfcb : Nat) (cn : List Rat) (hcn : (cn.map fun v => v ^ 2).sum ≤ 1 + 1 / 10 ^ 4) (shape gain : Nat) (scf : List Rat)
    (hs : unquantizeScf (Arith.rounded rnd) lfcb hfcb cn shape gain = some scf) : ∀ v ∈ scf, |v| ≤ 997 / 100 := by
  obtain ⟨k1, k2, k3⟩ := codebook_le
  unfold unquantizeScf at hs
  simp only [Option.bind_eq_bind] at hs
  obtain ⟨lf, h1, hs⟩ := Option.bind_eq_some_iff.mp hs
  obtain ⟨hf, h2, hs⟩ := Option.bind_eq_some_iff.mp hs
  obtain ⟨g, h3, hs⟩ := Option.bind_eq_some_iff.mp hs
  obtain ⟨y, h4, hs⟩ := Option.bind_eq_some_iff.mp hs
  have hs := Option.some.inj hs
  have hg : |g| ≤ 51305 / 10000 := by
    unfold snsGainAt at h3
    obtain ⟨l, e1, h3⟩ := Option.bind_eq_some_iff.mp h3
    obtain ⟨v, e2, h3⟩ := Option.map_eq_some_iff.mp h3
    rw [← h3]
    exact (h.mag (k3 l (List.mem_of_getElem? e1) v (List.mem_of_getElem? e2)) (by norm_num)).trans (by norm_num)
  have hy : ∀ v ∈ y, |v| ≤ 1 + 1 / 10 ^ 3 := by
    intro v hv
    unfold dct16Inverse at h4
    have : ∀ l : List Nat, (∀ i ∈ l, i < 16) → ∀ y : List Rat, l.mapM (fun i => dctSum (Arith.rounded rnd) cn fun j => dctCell (Arith.rounded rnd) i j) = some y →
        ∀ v ∈ y, |v| ≤ 1 + 1 / 10 ^ 3 := by
      intro l
      induction l with
      | nil => intro _ y hy v hv; simp at hy; subst hy; cases hv
      | cons i l ih =>
        intro hl y hy v hv
        rw [List.mapM_cons] at hy
        simp only [Option.bind_eq_bind] at hy
        obtain ⟨a, e1, hy⟩ := Option.bind_eq_some_iff.mp hy
        obtain ⟨b, e2, hy⟩ := Option.bind_eq_some_iff.mp hy
        have hy := Option.some.inj hy
        subst hy
        rcases List.mem_cons.1 hv with rfl | hv
        · exact dctSum_mag h cn hcn i (hl i (by simp)) _ e1
        · exact ih (fun j hj => hl j (by simp [hj])) b e2 v hv
    exact this _ (fun i hi => List.mem_range.1 hi) y h4 v hv
  subst hs
  intro v hv
  obtain ⟨⟨a, b⟩, hab, rfl⟩ := List.mem_map.1 hv
  dsimp only
  have ha := hy a (List.of_mem_zip hab).1
  have hb : |b| ≤ 483 / 100 := by
    rcases List.mem_append.1 (List.of_mem_zip hab).2 with hb | hb
    · exact k1 lf (List.mem_of_getElem? h1) b hb
    · exact k2 hf (List.mem_of_getElem? h2) b hb
  change |rnd (rnd b + rnd (g * a))| ≤ _
  have e1 : |rnd b| ≤ 4831 / 1000 := (h.mag hb (by norm_num)).trans (by norm_num)
  have e2 : |g * a| ≤ 5136 / 1000 := by
    rw [abs_mul]
    have := mul_le_mul hg ha (abs_nonneg _) (by norm_num)
    exact this.trans (by norm_num)
  have e3 : |rnd (g * a)| ≤ 5137 / 1000 := (h.mag e2 (by norm_num)).trans (by norm_num)
  have e4 : |rnd b + rnd (g * a)| ≤ 9968 / 1000 := (abs_add_le _ _).trans (by linarith)
  exact (h.mag e4 (by norm_num)).trans (by norm_num)

/-! ### Interpolation -/

theorem interp_near (h : RoundF rnd) (w s0 s1 p S : Rat) (w0 : 0 ≤ w) (w1 : w ≤ 1) (h0 : |s0| ≤ S) (h1 : |s1| ≤ S) (hp : |p| ≤ S) (hS : S ≤ 10) :
    |rnd (p + rnd (rnd w * rnd (s1 - s0))) - (p + w * (s1 - s0))| ≤ 1 / 10 ^ 4 := by
  have a1 : |s1 - s0| ≤ 20 := (abs_sub _ _).trans (by linarith)
  have a2 := h.err a1 (by norm_num)
  have a3 : |rnd (s1 - s0)| ≤ 21 := (h.mag a1 (by norm_num)).trans (by norm_num)
  generalize s1 - s0 = d at *
  have b1 : |w| ≤ 1 := abs_le.2 ⟨by linarith, w1⟩
  have b2 := h.err b1 (by norm_num)
  have b3 : |rnd w| ≤ 2 := (h.mag b1 (by norm_num)).trans (by norm_num)
  have c1 : |rnd w * rnd d| ≤ 42 := by
    rw [abs_mul]
    exact (mul_le_mul b3 a3 (abs_nonneg _) (by norm_num)).trans (by norm_num)
  have c2 := h.err c1 (by norm_num)
  have c3 : |rnd (rnd w * rnd d)| ≤ 43 := (h.mag c1 (by norm_num)).trans (by norm_num)
  have d1 : |p + rnd (rnd w * rnd d)| ≤ 53 := (abs_add_le _ _).trans (by linarith)
  have d2 := h.err d1 (by norm_num)
  have e1 : |(rnd w - w) * rnd d| ≤ (1 + 1 / 2 ^ 126) / 2 ^ 24 * 21 := by
    rw [abs_mul]
    exact mul_le_mul b2 a3 (abs_nonneg _) (by norm_num)
  have e2 : |w * (rnd d - d)| ≤ 1 * ((20 + 1 / 2 ^ 126) / 2 ^ 24) := by
    rw [abs_mul]
    exact mul_le_mul b1 a2 (abs_nonneg _) (by norm_num)
  have f1 := abs_add_le (rnd (p + rnd (rnd w * rnd d)) - (p + rnd (rnd w * rnd d))) (rnd (rnd w * rnd d) - rnd w * rnd d)
  have f2 := abs_add_le ((rnd w - w) * rnd d) (w * (rnd d - d))
  have f3 := abs_add_le (rnd (p + rnd (rnd w * rnd d)) - (p + rnd (rnd w * rnd d)) + (rnd (rnd w * rnd d) - rnd w * rnd d)) ((rnd w - w) * rnd d + w * (rnd d - d))
  rw [show rnd (p + rnd (rnd w * rnd d)) - (p + rnd (rnd w * rnd d)) + (rnd (rnd w * rnd d) - rnd w * rnd d) + ((rnd w - w) * rnd d + w * (rnd d - d))
    = rnd (p + rnd (rnd w * rnd d)) - (p + w * d) by ring] at f3
  norm_num at *
  linarith

theorem interpLoop_mag (h : RoundF rnd) (S : Rat) (hS : S ≤ 10) (l : List Rat) (s0 : Rat) (h0 : |s0| ≤ S) (hl : ∀ v ∈ l, |v| ≤ S) :
    ∀ v ∈ interpLoop (Arith.rounded rnd) s0 l, |v| ≤ S + 1 / 10 ^ 4 := by
  induction l generalizing s0 with
  | nil => intro v hv; cases hv
  | cons s1 l ih =>
    have h1 := hl s1 (by simp)
    have key : ∀ w : Rat, 0 ≤ w → w ≤ 1 → |rnd (s0 + rnd (rnd w * rnd (s1 - s0)))| ≤ S + 1 / 10 ^ 4 := by
      intro w w0 w1
      have a := interp_near h w s0 s1 s0 S w0 w1 h0 h1 h0 hS
      have b : |s0 + w * (s1 - s0)| ≤ S := by
        rw [show s0 + w * (s1 - s0) = (1 - w) * s0 + w * s1 by ring]
        refine (abs_add_le _ _).trans ?_
        rw [abs_mul, abs_mul, abs_of_nonneg w0, abs_of_nonneg (show 0 ≤ 1 - w by linarith)]
        have e1 := mul_le_mul_of_nonneg_left h0 (show 0 ≤ 1 - w by linarith)
        have e2 := mul_le_mul_of_nonneg_left h1 w0
        linarith
      have := abs_add_le (rnd (s0 + rnd (rnd w * rnd (s1 - s0))) - (s0 + w * (s1 - s0))) (s0 + w * (s1 - s0))
      rw [sub_add_cancel] at this
      linarith
    intro v hv
    rw [interpLoop] at hv
    dsimp only at hv
    rcases List.mem_cons.1 hv with rfl | hv
    · exact key _ (by norm_num) (by norm_num)
    rcases List.mem_cons.1 hv with rfl | hv
    · exact key _ (by norm_num) (by norm_num)
    rcases List.mem_cons.1 hv with rfl | hv
    · exact key _ (by norm_num) (by norm_num)
    rcases List.mem_cons.1 hv with rfl | hv
    · exact key _ (by norm_num) (by norm_num)
    exact ih s1 h1 (fun w hw => hl w (by simp [hw])) v hv

theorem interpLast_mag (h : RoundF rnd) (S : Rat) (hS : S ≤ 10) (l : List Rat) (hl : ∀ v ∈ l, |v| ≤ S) :
    ∀ v ∈ interpLast (Arith.rounded rnd) l, |v| ≤ S * (7 / 4) + 1 / 10 ^ 4 := by
  fun_induction interpLast (Arith.rounded rnd) l with
  | case1 => intro v hv; cases hv
  | case2 => intro v hv; cases hv
  | case3 s0 s1 =>
    have h0 := hl s0 (by simp)
    have h1 := hl s1 (by simp)
    have key : ∀ w : Rat, 0 ≤ w → w ≤ 3 / 8 → |rnd (s1 + rnd (rnd w * rnd (s1 - s0)))| ≤ S * (7 / 4) + 1 / 10 ^ 4 := by
      intro w w0 w1
      have a := interp_near h w s0 s1 s1 S w0 (by linarith) h0 h1 h1 hS
      have b : |s1 + w * (s1 - s0)| ≤ S * (7 / 4) := by
        refine (abs_add_le _ _).trans ?_
        rw [abs_mul, abs_of_nonneg w0]
        have e1 : |s1 - s0| ≤ 2 * S := (abs_sub _ _).trans (by linarith)
        have e2 := mul_le_mul w1 e1 (abs_nonneg _) (by norm_num)
        linarith
      have := abs_add_le (rnd (s1 + rnd (rnd w * rnd (s1 - s0))) - (s1 + w * (s1 - s0))) (s1 + w * (s1 - s0))
      rw [sub_add_cancel] at this
      linarith
    intro v hv
    rcases List.mem_cons.1 hv with rfl | hv
    · exact key _ (by norm_num) (by norm_num)
    · rw [List.mem_singleton.1 hv]
      exact key _ (by norm_num) (by norm_num)
  | case4 a l _ _ ih => exact ih fun w hw => hl w (by simp [hw])

theorem interpScf_mag (h : RoundF rnd) (scf : List Rat) (hs : ∀ v ∈ scf, |v| ≤ 997 / 100) (inv : Bool) (r : List Rat)
    (hr : interpScf (Arith.rounded rnd) scf inv = some r) : ∀ v ∈ r, |v| ≤ 1746 / 100 := by
  unfold interpScf at hr
  have hm : ∀ v ∈ scf.map (fun v => if inv then (Arith.rounded rnd).neg v else v), |v| ≤ 9971 / 1000 := by
    intro v hv
    obtain ⟨w, hw, rfl⟩ := List.mem_map.1 hv
    have hw := hs w hw
    split
    · change |rnd (rnd ((0 : Int) : Rat) - w)| ≤ _
      rw [Int.cast_zero, h.zero, zero_sub]
      exact (h.mag (x := -w) (b := 997 / 100) (by rw [abs_neg]; exact hw) (by norm_num)).trans (by norm_num)
    · exact hw.trans (by norm_num)
  generalize scf.map (fun v => if inv then (Arith.rounded rnd).neg v else v) = m at *
  cases m with
  | nil => cases hr
  | cons s0 l =>
    dsimp only at hr
    split at hr
    · cases hr
    · have hr := Option.some.inj hr
      subst hr
      have h0 := hm s0 (by simp)
      intro v hv
      rw [List.cons_append, List.cons_append, List.mem_cons, List.mem_cons, List.mem_append] at hv
      rcases hv with rfl | rfl | hv | hv
      · linarith
      · linarith
      · have := interpLoop_mag h _ (by norm_num) l s0 h0 (fun w hw => hm w (by simp [hw])) v hv
        norm_num at this ⊢
        linarith
      · have := interpLast_mag h _ (by norm_num) (s0 :: l) hm v hv
        norm_num at this ⊢
        linarith

theorem mean2 (h : RoundF rnd) (a b T : Rat) (ha : |a| ≤ T) (hb : |b| ≤ T) (hT : T ≤ 20) : |rnd (rnd (1 / 2) * rnd (a + b))| ≤ T + 1 / 10 ^ 4 := by
  have T0 : 0 ≤ T := (abs_nonneg a).trans ha
  have e1 : |a + b| ≤ 2 * T := (abs_add_le _ _).trans (by linarith)
  have e2 : |rnd (a + b)| ≤ 2 * T + 1 / 10 ^ 5 := (h.mag e1 (by norm_num; linarith)).trans (by norm_num; linarith)
  have e3 : |rnd (1 / 2)| ≤ 1 / 2 + 1 / 10 ^ 7 := (h.mag (x := 1 / 2) (b := 1 / 2) (by norm_num [abs_of_pos]) (by norm_num)).trans (by norm_num)
  have e4 : |rnd (1 / 2) * rnd (a + b)| ≤ (1 / 2 + 1 / 10 ^ 7) * (2 * T + 1 / 10 ^ 5) := by
    rw [abs_mul]
    exact mul_le_mul e3 e2 (abs_nonneg _) (by norm_num)
  refine (h.mag e4 (by norm_num; linarith)).trans ?_
  norm_num
  linarith

theorem mean4 (h : RoundF rnd) (a b c d T : Rat) (ha : |a| ≤ T) (hb : |b| ≤ T) (hc : |c| ≤ T) (hd : |d| ≤ T) (hT : T ≤ 20) :
    |rnd (rnd (1 / 4) * rnd (rnd (rnd (a + b) + c) + d))| ≤ T + 1 / 10 ^ 4 := by
  have T0 : 0 ≤ T := (abs_nonneg a).trans ha
  have e1 : |a + b| ≤ 2 * T := (abs_add_le _ _).trans (by linarith)
  have e2 : |rnd (a + b)| ≤ 2 * T + 1 / 10 ^ 5 := (h.mag e1 (by norm_num; linarith)).trans (by norm_num; linarith)
  have e3 : |rnd (a + b) + c| ≤ 3 * T + 1 / 10 ^ 5 := (abs_add_le _ _).trans (by linarith)
  have e4 : |rnd (rnd (a + b) + c)| ≤ 3 * T + 2 / 10 ^ 5 := (h.mag e3 (by norm_num; linarith)).trans (by norm_num; linarith)
  have e5 : |rnd (rnd (a + b) + c) + d| ≤ 4 * T + 2 / 10 ^ 5 := (abs_add_le _ _).trans (by linarith)
  have e6 : |rnd (rnd (rnd (a + b) + c) + d)| ≤ 4 * T + 3 / 10 ^ 5 := (h.mag e5 (by norm_num; linarith)).trans (by norm_num; linarith)
  have e7 : |rnd (1 / 4)| ≤ 1 / 4 + 1 / 10 ^ 7 := (h.mag (x := 1 / 4) (b := 1 / 4) (by norm_num [abs_of_pos]) (by norm_num)).trans (by norm_num)
  have e8 : |rnd (1 / 4) * rnd (rnd (rnd (a + b) + c) + d)| ≤ (1 / 4 + 1 / 10 ^ 7) * (4 * T + 3 / 10 ^ 5) := by
    rw [abs_mul]
    exact mul_le_mul e7 e6 (abs_nonneg _) (by norm_num)
  refine (h.mag e8 (by norm_num; linarith)).trans ?_
  norm_num
  linarith

/-- A loop whose each iteration writes a cell no larger than the others, up to `1e-4`. -/
theorem iter_mag (body : Nat → List Rat → Option (List Rat)) (T : Rat)
    (hb : ∀ i (s s' : List Rat) (T' : Rat), T' ≤ 20 → (∀ v ∈ s, |v| ≤ T') → body i s = some s' → ∀ v ∈ s', |v| ≤ T' + 1 / 10 ^ 4) (n i : Nat) (s s' : List Rat)
    (hT : T + n / 10 ^ 4 ≤ 20) (hs : ∀ v ∈ s, |v| ≤ T) (h : iter body i n s = some s') : ∀ v ∈ s', |v| ≤ T + n / 10 ^ 4 := by
  induction n generalizing T i s with
  | zero =>
    rw [← Option.some.inj h]
    intro v hv
    have := hs v hv
    simpa using this
  | succ n ih =>
    rw [iter] at h
    obtain ⟨s1, h1, h⟩ := Option.bind_eq_some_iff.mp h
    have n0 : (0 : Rat) ≤ n := Nat.cast_nonneg n
    push_cast at hT
    have n1 : (0 : Rat) ≤ n / 10 ^ 4 := by positivity
    rw [add_div] at hT
    have := ih (T + 1 / 10 ^ 4) (i + 1) s1 (by linarith) (hb i s s1 T (by norm_num at hT n1 ⊢; linarith) hs h1) h
    intro v hv
    refine (this v hv).trans (le_of_eq ?_)
    push_cast
    ring

theorem rd_mem {R : Type} {l : List R} {i : Int} {v : R} (h : rd l i = some v) : v ∈ l := by
  unfold rd at h
  split at h
  · exact List.mem_of_getElem? h
  · cases h

theorem wr_mem {R : Type} {l l' : List R} {i : Int} {v : R} (h : wr l i v = some l') : ∀ w ∈ l', w ∈ l ∨ w = v := by
  unfold wr at h
  split at h
  · rw [← Option.some.inj h]
    exact fun w hw => List.mem_or_eq_of_mem_set hw
  · cases h

theorem foldScf_mag (h : RoundF rnd) (nb : Nat) (scf r : List Rat) (hs : ∀ v ∈ scf, |v| ≤ 1746 / 100) (hr : foldScf (Arith.rounded rnd) nb scf = some r) :
    ∀ v ∈ r, |v| ≤ 1748 / 100 := by
  unfold foldScf at hr
  obtain ⟨n, hn, hr⟩ := Option.bind_eq_some_iff.mp hr
  obtain ⟨s1, h1, hr⟩ := Option.bind_eq_some_iff.mp hr
  obtain ⟨s2, h2, hr⟩ := Option.bind_eq_some_iff.mp hr
  have hnb : n.1 + n.2 ≤ 64 := by
    unfold padCounts at hn
    split at hn
    · split at hn
      · cases hn
      · rw [← Option.some.inj hn]
        dsimp only
        have := Nat.mod_lt 32 (show nb > 0 by omega)
        omega
    · rw [← Option.some.inj hn]
      dsimp only
      omega
  have hnq : (n.1 : Rat) + n.2 ≤ 64 := by exact_mod_cast hnb
  have n10 : (0 : Rat) ≤ n.1 := Nat.cast_nonneg _
  have n20 : (0 : Rat) ≤ n.2 := Nat.cast_nonneg _
  have q1 := iter_mag _ (1746 / 100) (by
    intro i s s' T hT hs hb
    simp only [Option.bind_eq_bind] at hb
    obtain ⟨a, ha, hb⟩ := Option.bind_eq_some_iff.mp hb
    obtain ⟨b, hb', hb⟩ := Option.bind_eq_some_iff.mp hb
    obtain ⟨c, hc, hb⟩ := Option.bind_eq_some_iff.mp hb
    obtain ⟨d, hd, hb⟩ := Option.bind_eq_some_iff.mp hb
    intro v hv
    rcases wr_mem hb v hv with hv | rfl
    · have := hs v hv
      norm_num at this ⊢
      linarith
    · exact mean4 h a b c d T (hs a (rd_mem ha)) (hs b (rd_mem hb')) (hs c (rd_mem hc)) (hs d (rd_mem hd)) hT) n.1 0 scf s1
    (by norm_num; linarith) hs h1
  have q2 := iter_mag _ (1746 / 100 + n.1 / 10 ^ 4) (by
    intro i s s' T hT hs hb
    simp only [Option.bind_eq_bind] at hb
    obtain ⟨a, ha, hb⟩ := Option.bind_eq_some_iff.mp hb
    obtain ⟨b, hb', hb⟩ := Option.bind_eq_some_iff.mp hb
    intro v hv
    rcases wr_mem hb v hv with hv | rfl
    · have := hs v hv
      norm_num at this ⊢
      linarith
    · exact mean2 h a b T (hs a (rd_mem ha)) (hs b (rd_mem hb')) hT) n.2 n.1 s1 s2
    (by norm_num; linarith) q1 h2
  have q3 : ∀ v ∈ s2, |v| ≤ 1748 / 100 := by
    intro v hv
    have := q2 v hv
    norm_num at this ⊢
    linarith
  split at hr
  · cases hr
  · have hr := Option.some.inj hr
    subst hr
    intro v hv
    rw [List.mem_append, List.mem_append] at hv
    rcases hv with (hv | hv) | hv
    · exact q3 v (List.mem_of_mem_take hv)
    · exact q3 v (List.mem_of_mem_drop (List.mem_of_mem_take hv))
    · exact q3 v (List.mem_of_mem_drop hv)

/-! ### Gains -/

theorem bandGains_mag (h : RoundF rnd) (M : SnsMath Rat) (he : ExpNear rnd M.exp2) (dt : Dt) (sr : Srate) (scf : List Rat) (hs : ∀ v ∈ scf, |v| ≤ 997 / 100) (inv : Bool) :
    ∀ v ∈ bandGains (Arith.rounded rnd) M dt sr scf inv, |v| ≤ 185400 := by
  unfold bandGains
  split
  · intro v hv; cases hv
  · rename_i s e
    split
    · intro v hv; cases hv
    · rename_i f ef
      have h2 := foldScf_mag h _ s f (interpScf_mag h scf hs inv s e) ef
      intro v hv
      obtain ⟨w, hw, rfl⟩ := List.mem_map.1 hv
      have hw := h2 w hw
      apply exp2_le M.exp2 h he
      change |rnd (rnd ((0 : Int) : Rat) - w)| ≤ _
      rw [Int.cast_zero, h.zero, zero_sub]
      exact (h.mag (x := -w) (b := 1748 / 100) (by rw [abs_neg]; exact hw) (by norm_num)).trans (by norm_num)

theorem natAbs_sum_sq : ∀ (c : List Int), ((c.map fun v => v * v).sum ≤ ((c.map Int.natAbs).sum : Int) * ((c.map Int.natAbs).sum : Int)) ∧
    (((c.map Int.natAbs).sum : Nat) : Int) ≤ (c.map fun v => v * v).sum ∧ ∀ v ∈ c, v.natAbs ≤ (c.map Int.natAbs).sum
  | [] => by simp
  | v :: c => by
    obtain ⟨h1, h2, h3⟩ := natAbs_sum_sq c
    simp only [List.map_cons, List.sum_cons]
    have e : v * v = (v.natAbs : Int) * v.natAbs := (Int.natAbs_mul_self' v).symm
    have m0 : (0 : Int) ≤ ((c.map Int.natAbs).sum : Nat) := Int.natCast_nonneg _
    have a0 : (0 : Int) ≤ v.natAbs := Int.natCast_nonneg _
    refine ⟨?_, ?_, ?_⟩
    · rw [e]; push_cast at *
      nlinarith
    · rw [e]; push_cast at *
      have : |v| ≤ |v| * |v| := by
        by_cases h0 : v = 0
        · subst h0; simp
        · have := Int.one_le_abs h0
          nlinarith
      linarith
    · intro w hw
      rcases List.mem_cons.1 hw with rfl | hw
      · omega
      · have := h3 w hw; omega

theorem shapeVec_count (s : Nat) (hs : s < 4) (c : List Int) (h : ShapeVec s c) : 1 ≤ (c.map Int.natAbs).sum ∧ (c.map Int.natAbs).sum ≤ 11 := by
  obtain ⟨h1, h2⟩ := h
  have e : ∀ n, (c.map Int.natAbs).sum = pulseCount (c.take n) + pulseCount (c.drop n) := by
    intro n
    unfold pulseCount
    conv_lhs => rw [← List.take_append_drop n c]
    rw [List.map_append, List.sum_append]
  have : s = 0 ∨ s = 1 ∨ s = 2 ∨ s = 3 := by omega
  rcases this with rfl | rfl | rfl | rfl
  · simp only at h2
    rw [e 10]; omega
  · simp only at h2
    rw [e 10, h2.1, h2.2]
    decide
  · simp only at h2
    change 1 ≤ pulseCount c ∧ pulseCount c ≤ 11
    omega
  · simp only at h2
    change 1 ≤ pulseCount c ∧ pulseCount c ≤ 11
    omega

/-- The noise shaping of the decoder multiplies each coefficient by at most `185400`. -/
theorem snsSynthesize_mag (h : RoundF rnd) (M : SnsMath Rat) (hs : SqrtNear M.sqrt) (he : ExpNear rnd M.exp2) (dt : Dt) (sr : Srate) (hc : Config dt sr) (d : SnsData)
    (hd : SnsValid d) (x y : List Rat) (hx : ne dt sr ≤ x.length) (hy : ne dt sr ≤ y.length) :
    ∃ y', snsSynthesize (Arith.rounded rnd) M dt sr d (some x) y = some y' ∧ y'.length = y.length ∧ (∀ k, ne dt sr ≤ k → y'[k]? = y[k]?) ∧
      ∀ k, k < ne dt sr → ∃ g : Rat, |g| ≤ 185400 ∧ y'.getD k 0 = rnd (x.getD k 0 * g) := by
  obtain ⟨c, a1, a2⟩ := deenumerate_some d hd
  obtain ⟨scf, b1, b2⟩ := snsDecodeScf_some (Arith.rounded rnd) M d hd
  have hmag : ∀ v ∈ scf, |v| ≤ 997 / 100 := by
    have b1' := b1
    unfold snsDecodeScf at b1'
    simp only [Option.bind_eq_bind] at b1'
    rw [a1, Option.bind_some] at b1'
    obtain ⟨s1, s2⟩ := shapeVec_count d.shape hd.2.2.1 c a2
    obtain ⟨t1, t2, t3⟩ := natAbs_sum_sq c
    refine unquantizeScf_mag h _ _ _ (pulses_energy h M hs c ?_ ?_ ?_) _ _ scf b1'
    · omega
    · have : ((c.map Int.natAbs).sum : Int) * ((c.map Int.natAbs).sum : Int) ≤ 11 * 11 := by
        have : ((c.map Int.natAbs).sum : Int) ≤ 11 := by exact_mod_cast s2
        exact mul_le_mul this this (Int.natCast_nonneg _) (by norm_num)
      omega
    · intro v hv
      have := t3 v hv
      omega
  obtain ⟨y', c1, c2, c3, c4⟩ := shaping_spec (Arith.rounded rnd) M 0 dt sr hc scf b2 true (some x) y (fun x' h => by cases h; exact hx) hy
  refine ⟨y', ?_, c2, c3, ?_⟩
  · unfold snsSynthesize; rw [b1, Option.bind_some, c1]
  · intro k hk
    obtain ⟨b, d1, d2, d3⟩ := bandLim_exists dt sr hc k hk
    refine ⟨(bandGains (Arith.rounded rnd) M dt sr scf true).getD b 0, ?_, c4 b d1 k d2 d3⟩
    by_cases hb : b < (bandGains (Arith.rounded rnd) M dt sr scf true).length
    · rw [List.getD_eq_getElem _ _ hb]
      exact bandGains_mag h M he dt sr scf hmag true _ (List.getElem_mem _)
    · rw [List.getD_eq_default _ _ (by omega)]; norm_num

end LC3
