import Verif.Lemmas.LtpfFilter
import Verif.Lemmas.Level
import Mathlib.Algebra.Order.BigOperators.Group.Finset
import Mathlib.Algebra.BigOperators.Ring.Finset
import Mathlib.Tactic.Linarith
import Mathlib.Tactic.NormNum
import Mathlib.Tactic.Positivity
import Mathlib.Tactic.GCongr
import Mathlib.Tactic.Ring

/-!
# Bound of the samples of the long-term postfilter

With operations rounded to 24 bits: the magnitude of the accumulations, of the coefficients and of the gains, then of a pass of the filter.
-/

namespace LC3

/-- The growth of a magnitude by a rounding. -/
def qf : Rat := 1 + 1 / 2 ^ 24

theorem qf_one : 1 ≤ qf := by norm_num [qf]

theorem rnd_mag {rnd : Rat → Rat} (h : Round24 rnd) (x : Rat) : |rnd x| ≤ qf * |x| := by
  have := h x
  have h2 : |rnd x| ≤ |rnd x - x| + |x| := by
    have := abs_add_le (rnd x - x) x
    rw [sub_add_cancel] at this
    exact this
  have e : qf * |x| = |x| / 2 ^ 24 + |x| := by unfold qf; ring
  rw [e]; linarith

theorem rnd_mag' {rnd : Rat → Rat} (h : Round24 rnd) (x m : Rat) (hx : |x| ≤ m) : |rnd x| ≤ qf * m :=
  le_trans (rnd_mag h x) (mul_le_mul_of_nonneg_left hx (le_trans zero_le_one qf_one))

theorem rnd_zero {rnd : Rat → Rat} (h : Round24 rnd) : rnd 0 = 0 := by
  have := h 0
  rw [sub_zero, abs_zero, zero_div] at this
  exact abs_eq_zero.mp (le_antisymm this (abs_nonneg _))

section
variable {rnd : Rat → Rat} (h : Round24 rnd)
include h

theorem at0_getD (l : List Rat) (i : Nat) : at0 (Arith.rounded rnd) l i = l.getD i 0 := by
  unfold at0
  have : (Arith.rounded rnd).ofInt 0 = 0 := by
    show rnd ((0 : Int) : Rat) = 0
    rw [Int.cast_zero]; exact rnd_zero h
  rw [this]

/-! ### The accumulation -/

theorem part_mag (c : List Rat) (w : Nat) (Y X : Nat → Rat) (t cnt : Nat) :
    |part (Arith.rounded rnd) c w Y X t cnt| ≤ qf ^ (2 * cnt + 1) * ∑ k ∈ Finset.range cnt,
      (|c.getD k 0| * |Y (t + k)| + |c.getD (w + k) 0| * |X (t + k)|) := by
  have q1 := qf_one
  induction cnt with
  | zero =>
    have : part (Arith.rounded rnd) c w Y X t 0 = 0 := by
      show rnd ((0 : Int) : Rat) = 0
      rw [Int.cast_zero]; exact rnd_zero h
    rw [this]; simp
  | succ k ih =>
    rw [part, tap, Finset.sum_range_succ, at0_getD h, at0_getD h]
    generalize part (Arith.rounded rnd) c w Y X t k = acc at *
    generalize hS : (∑ k ∈ Finset.range k, (|c.getD k 0| * |Y (t + k)| + |c.getD (w + k) 0| * |X (t + k)|)) = S at *
    have hS0 : 0 ≤ S := by
      rw [← hS]
      exact Finset.sum_nonneg fun i _ => by positivity
    have a0 := mul_nonneg (abs_nonneg (c.getD k 0)) (abs_nonneg (Y (t + k)))
    have b0 := mul_nonneg (abs_nonneg (c.getD (w + k) 0)) (abs_nonneg (X (t + k)))
    have ha : |(Arith.rounded rnd).mul (Y (t + k)) (c.getD k 0)| ≤ qf * (|c.getD k 0| * |Y (t + k)|) := by
      refine rnd_mag' h _ _ (le_of_eq ?_)
      rw [abs_mul, mul_comm]
    have hb : |(Arith.rounded rnd).mul (X (t + k)) (c.getD (w + k) 0)| ≤ qf * (|c.getD (w + k) 0| * |X (t + k)|) := by
      refine rnd_mag' h _ _ (le_of_eq ?_)
      rw [abs_mul, mul_comm]
    generalize |c.getD k 0| * |Y (t + k)| = a at *
    generalize |c.getD (w + k) 0| * |X (t + k)| = b at *
    generalize (Arith.rounded rnd).mul (Y (t + k)) (c.getD k 0) = pa at *
    generalize (Arith.rounded rnd).mul (X (t + k)) (c.getD (w + k) 0) = pb at *
    have hc : |(Arith.rounded rnd).sub acc pa| ≤ qf * (qf ^ (2 * k + 1) * S + qf * a) := by
      refine rnd_mag' h _ _ (le_trans (abs_sub _ _) (add_le_add ih ha))
    have hd : |(Arith.rounded rnd).add ((Arith.rounded rnd).sub acc pa) pb| ≤ qf * (qf * (qf ^ (2 * k + 1) * S + qf * a) + qf * b) :=
      rnd_mag' h _ _ (le_trans (abs_add_le _ _) (add_le_add hc hb))
    refine le_trans hd ?_
    have e1 : qf ^ (2 * (k + 1) + 1) = qf ^ 2 * qf ^ (2 * k + 1) := by rw [← pow_add]; congr 1; ring
    have e2 : qf ^ 2 ≤ qf ^ (2 * (k + 1) + 1) := pow_le_pow_right₀ q1 (by omega)
    have e3 : qf ^ 3 ≤ qf ^ (2 * (k + 1) + 1) := pow_le_pow_right₀ q1 (by omega)
    calc qf * (qf * (qf ^ (2 * k + 1) * S + qf * a) + qf * b)
        = qf ^ 2 * qf ^ (2 * k + 1) * S + (qf ^ 3 * a + qf ^ 2 * b) := by ring
      _ ≤ qf ^ (2 * (k + 1) + 1) * S + (qf ^ (2 * (k + 1) + 1) * a + qf ^ (2 * (k + 1) + 1) * b) := by
          rw [← e1]
          exact add_le_add_right (add_le_add (mul_le_mul_of_nonneg_right e3 a0) (mul_le_mul_of_nonneg_right e2 b0)) _
      _ = _ := by ring

/-- The accumulation of `w ≤ 12` samples bounded by `U` and `V`. -/
theorem part_bound (c : List Rat) (w : Nat) (hw : w ≤ 12) (Y X : Nat → Rat) (t : Nat) (U V D N : Rat) (hU : 0 ≤ U) (hV : 0 ≤ V)
    (hY : ∀ k < w, |Y (t + k)| ≤ U) (hX : ∀ k < w, |X (t + k)| ≤ V)
    (hD : ∑ k ∈ Finset.range w, |c.getD k 0| ≤ D) (hN : ∑ k ∈ Finset.range w, |c.getD (w + k) 0| ≤ N) :
    |part (Arith.rounded rnd) c w Y X t w| ≤ qf ^ 25 * (D * U + N * V) := by
  refine le_trans (part_mag h c w Y X t w) ?_
  have h1 : ∑ k ∈ Finset.range w, (|c.getD k 0| * |Y (t + k)| + |c.getD (w + k) 0| * |X (t + k)|) ≤ D * U + N * V := by
    rw [Finset.sum_add_distrib]
    refine add_le_add ?_ ?_
    · refine le_trans ?_ (mul_le_mul_of_nonneg_right hD hU)
      rw [Finset.sum_mul]
      refine Finset.sum_le_sum fun k hk => mul_le_mul_of_nonneg_left (hY k (Finset.mem_range.mp hk)) (abs_nonneg _)
    · refine le_trans ?_ (mul_le_mul_of_nonneg_right hN hV)
      rw [Finset.sum_mul]
      refine Finset.sum_le_sum fun k hk => mul_le_mul_of_nonneg_left (hX k (Finset.mem_range.mp hk)) (abs_nonneg _)
  refine mul_le_mul (pow_le_pow_right₀ qf_one (by omega)) h1 (Finset.sum_nonneg fun i _ => by positivity) (by have := qf_one; positivity)

/-! ### A pass -/

/-- A pass of the filter on `n` samples, where the samples out of the pass do not exceed `B`. -/
theorem pass_bound (ring : List Rat) (L : Nat) (X : Nat → Rat) (x n : Nat) (c : List Rat) (w : Nat) (gs : Nat → Rat)
    (hw0 : 0 < w) (hw : w ≤ 12) (hL : w ≤ L) (hLn : L + n ≤ ring.length) (hx : x + n ≤ ring.length)
    (hF : FilterEq (Arith.rounded rnd) ring L X x n c w gs) (B V D N : Rat) (hB : 0 ≤ B) (hV : 0 ≤ V) (hD0 : 0 ≤ D) (hN0 : 0 ≤ N)
    (hD : ∑ k ∈ Finset.range w, |c.getD k 0| ≤ D) (hN : ∑ k ∈ Finset.range w, |c.getD (w + k) 0| ≤ N)
    (hout : ∀ i, i < x ∨ x + n ≤ i → |ring.getD i 0| ≤ B) (hX : ∀ i < w - 1 + n, |X i| ≤ V)
    (ξ γ : Nat → Rat) (hξ : ∀ t < n, |X (w - 1 + t)| ≤ ξ t) (hγ : ∀ t < n, |gs t| ≤ γ t)
    (hb : ∀ t < n, qf * (ξ t + qf * (γ t * (qf ^ 25 * (D * B + N * V)))) ≤ B) :
    ∀ t < n, |ring.getD (x + t) 0| ≤ qf * (ξ t + qf * (γ t * (qf ^ 25 * (D * B + N * V)))) := by
  have q1 := qf_one
  intro t
  induction t using Nat.strongRecOn with
  | ind t ih =>
    intro ht
    have key := hF t ht
    rw [at0_getD h] at key
    rw [key]
    have hp : |part (Arith.rounded rnd) c w (fun i => at0 (Arith.rounded rnd) ring ((x + ring.length - L + i) % ring.length)) X t w| ≤
        qf ^ 25 * (D * B + N * V) := by
      refine part_bound h c w hw _ X t B V D N hB hV ?_ (fun k hk => hX _ (by omega)) hD hN
      intro k hk
      rw [at0_getD h]
      by_cases hin : L ≤ t + k
      · have e : (x + ring.length - L + (t + k)) % ring.length = x + (t + k - L) := by
          rw [show x + ring.length - L + (t + k) = x + (t + k - L) + ring.length by omega, Nat.add_mod_right, Nat.mod_eq_of_lt (by omega)]
        rw [e]
        exact le_trans (ih (t + k - L) (by omega) (by omega)) (hb _ (by omega))
      · apply hout
        by_cases hneg : L - (t + k) ≤ x
        · rw [show x + ring.length - L + (t + k) = x - (L - (t + k)) + ring.length by omega, Nat.add_mod_right, Nat.mod_eq_of_lt (by omega)]
          omega
        · rw [Nat.mod_eq_of_lt (by omega)]
          omega
    have h1 : |(Arith.rounded rnd).mul (gs t) (part (Arith.rounded rnd) c w (fun i => at0 (Arith.rounded rnd) ring
        ((x + ring.length - L + i) % ring.length)) X t w)| ≤ qf * (γ t * (qf ^ 25 * (D * B + N * V))) := by
      refine rnd_mag' h _ _ ?_
      rw [abs_mul]
      exact mul_le_mul (hγ t ht) hp (abs_nonneg _) (le_trans (abs_nonneg _) (hγ t ht))
    exact rnd_mag' h _ _ (le_trans (abs_sub _ _) (add_le_add (hξ t ht) h1))

/-! ### The gains -/

theorem gains_near (g incr G I e0 e1 : Rat) (hg : |g - G| ≤ e0) (hi : |incr - I| ≤ e1) (n : Nat) (hn : n ≤ 480)
    (hG : ∀ t : Nat, t ≤ n → |G + t * I| ≤ 1) (h1 : 0 ≤ e1) (hs : e0 + 480 * (e1 + 1 / 2 ^ 23) ≤ 1 / 2) :
    ∀ t : Nat, t ≤ n → |gains (Arith.rounded rnd) g incr t - (G + t * I)| ≤ e0 + t * (e1 + 1 / 2 ^ 23) := by
  intro t
  induction t with
  | zero => intro _; simpa [gains] using hg
  | succ t ih =>
    intro ht
    have ih := ih (by omega)
    rw [gains]
    generalize gains (Arith.rounded rnd) g incr t = a at *
    have hG1 := hG (t + 1) ht
    have e : (a + incr) - (G + (t + 1 : Nat) * I) = (a - (G + t * I)) + (incr - I) := by push_cast; ring
    have hd : |(a + incr) - (G + (t + 1 : Nat) * I)| ≤ e0 + t * (e1 + 1 / 2 ^ 23) + e1 := by
      rw [e]; exact le_trans (abs_add_le _ _) (add_le_add ih hi)
    have ht' : (t : Rat) * (e1 + 1 / 2 ^ 23) + e1 ≤ 480 * (e1 + 1 / 2 ^ 23) := by
      have : (t : Rat) + 1 ≤ 480 := by exact_mod_cast (show t + 1 ≤ 480 by omega)
      have h2 : 0 ≤ e1 + 1 / 2 ^ 23 := by positivity
      nlinarith
    have hm : |a + incr| ≤ 2 := by
      have : |a + incr| ≤ |(a + incr) - (G + (t + 1 : Nat) * I)| + |G + (t + 1 : Nat) * I| := by
        have := abs_add_le ((a + incr) - (G + (t + 1 : Nat) * I)) (G + (t + 1 : Nat) * I)
        rw [sub_add_cancel] at this
        exact this
      linarith
    have hr := h (a + incr)
    have h3 : |rnd (a + incr) - (G + (t + 1 : Nat) * I)| ≤ |rnd (a + incr) - (a + incr)| + |(a + incr) - (G + (t + 1 : Nat) * I)| := by
      have := abs_add_le (rnd (a + incr) - (a + incr)) ((a + incr) - (G + (t + 1 : Nat) * I))
      rw [sub_add_sub_cancel] at this
      exact this
    show |rnd (a + incr) - (G + (t + 1 : Nat) * I)| ≤ _
    have h4 : |a + incr| / 2 ^ 24 ≤ 1 / 2 ^ 23 := by
      rw [div_le_div_iff₀ (by positivity) (by positivity)]
      nlinarith
    push_cast at *
    linarith

theorem rnd_near (x e X : Rat) (hx : |x - X| ≤ e) (hX : |X| ≤ 1) (he : e ≤ 1) : |rnd x - X| ≤ e + 1 / 2 ^ 23 := by
  have h1 := h x
  have h2 : |x| ≤ 2 := by
    have := abs_add_le (x - X) X
    rw [sub_add_cancel] at this
    linarith
  have h3 := abs_add_le (rnd x - x) (x - X)
  rw [sub_add_sub_cancel] at h3
  have h4 : |x| / 2 ^ 24 ≤ 1 / 2 ^ 23 := by
    rw [div_le_div_iff₀ (by positivity) (by positivity)]
    nlinarith
  linarith

/-- The increment of the gain. -/
theorem incr_near (f : Int) (hf : f = -1 ∨ f = 0 ∨ f = 1) (n : Nat) (hn : 0 < n) :
    |(Arith.rounded rnd).div ((Arith.rounded rnd).ofInt f) ((Arith.rounded rnd).ofInt n) - (f : Rat) / n| ≤ (1 / 2 ^ 22 + 1 / 2 ^ 26) / n := by
  have hnq : (0 : Rat) < n := by exact_mod_cast hn
  show |rnd (rnd (f : Rat) / rnd ((n : Int) : Rat)) - (f : Rat) / n| ≤ _
  rw [Int.cast_natCast]
  have hf1 : |(f : Rat)| ≤ 1 := by rcases hf with rfl | rfl | rfl <;> norm_num
  have a1 := h (f : Rat)
  have a2 := h (n : Rat)
  rw [abs_of_pos hnq] at a2
  have a2' := abs_le.mp a2
  have hm : 0 < rnd (n : Rat) := by
    have : (n : Rat) / 2 ^ 24 < n := by rw [div_lt_iff₀ (by positivity)]; nlinarith
    linarith
  generalize rnd (f : Rat) = f' at *
  generalize rnd (n : Rat) = m at *
  -- the quotient
  have hq : |f' / m - (f : Rat) / n| ≤ (1 / 2 ^ 23 + 1 / 2 ^ 40) / n := by
    have e : f' / m - (f : Rat) / n = ((f' - f) * n + f * (n - m)) / (m * n) := by field_simp; ring
    rw [e, abs_div, abs_of_pos (mul_pos hm hnq), div_le_div_iff₀ (mul_pos hm hnq) hnq]
    have b1 : |(f' - f) * n + f * (n - m)| ≤ n / 2 ^ 23 := by
      refine le_trans (abs_add_le _ _) ?_
      rw [abs_mul, abs_mul, abs_of_pos hnq]
      have : |(f : Rat)| * |(n : Rat) - m| ≤ 1 * ((n : Rat) / 2 ^ 24) := by
        refine mul_le_mul hf1 ?_ (abs_nonneg _) zero_le_one
        rw [abs_sub_comm]; exact a2
      have h3 : |f' - (f : Rat)| * n ≤ (1 / 2 ^ 24) * n := by
        refine mul_le_mul_of_nonneg_right (le_trans a1 ?_) (le_of_lt hnq)
        exact div_le_div_of_nonneg_right hf1 (by positivity)
      linarith
    have b2 : (n : Rat) * (1 - 1 / 2 ^ 24) ≤ m := by linarith
    have b3 : (n : Rat) * (n : Rat) / 2 ^ 23 ≤ (1 / 2 ^ 23 + 1 / 2 ^ 40) * (m * n) := by
      have : (n : Rat) * (n : Rat) * (1 - 1 / 2 ^ 24) ≤ m * n := by nlinarith
      nlinarith [mul_pos hnq hnq]
    nlinarith
  have hr := h (f' / m)
  have hmag : |f' / m| ≤ (1 + 1 / 2 ^ 20) / n := by
    have : |f' / m| ≤ |f' / m - (f : Rat) / n| + |(f : Rat) / n| := by
      have := abs_add_le (f' / m - (f : Rat) / n) ((f : Rat) / n)
      rw [sub_add_cancel] at this
      exact this
    have h5 : |(f : Rat) / n| ≤ 1 / n := by
      rw [abs_div, abs_of_pos hnq]
      exact div_le_div_of_nonneg_right hf1 (le_of_lt hnq)
    refine le_trans this (le_trans (add_le_add hq h5) ?_)
    rw [← add_div]
    exact div_le_div_of_nonneg_right (by norm_num) (le_of_lt hnq)
  have h6 := abs_add_le (rnd (f' / m) - f' / m) (f' / m - (f : Rat) / n)
  rw [sub_add_sub_cancel] at h6
  refine le_trans h6 ?_
  have h7 : |rnd (f' / m) - f' / m| ≤ (1 + 1 / 2 ^ 20) / n / 2 ^ 24 := le_trans hr (div_le_div_of_nonneg_right hmag (by positivity))
  refine le_trans (add_le_add h7 hq) ?_
  rw [div_div, mul_comm (n : Rat), ← div_div, ← add_div]
  exact div_le_div_of_nonneg_right (by norm_num) (le_of_lt hnq)

/-- The gain of the samples of a pass: linear, within one part in 10000. -/
def fadeGain (f : Int) (n t : Nat) : Rat := if f = 1 then (t : Rat) / n else if f = -1 then 1 - (t : Rat) / n else 1

theorem fade_bound (f : Int) (hf : f = -1 ∨ f = 0 ∨ f = 1) (n : Nat) (hn : 0 < n) (hn2 : n ≤ 480) (t : Nat) (ht : t < n) :
    |gains (Arith.rounded rnd) (if f ≤ 0 then (Arith.rounded rnd).ofInt 1 else (Arith.rounded rnd).ofInt 0)
      ((Arith.rounded rnd).div ((Arith.rounded rnd).ofInt f.sign) ((Arith.rounded rnd).ofInt n)) t| ≤ fadeGain f n t + 1 / 10000 := by
  have hnq : (0 : Rat) < n := by exact_mod_cast hn
  have hn1 : (1 : Rat) ≤ n := by exact_mod_cast hn
  have hsg : f.sign = f := by rcases hf with rfl | rfl | rfl <;> rfl
  rw [hsg]
  have hi := incr_near h f hf n hn
  have hin : (1 / 2 ^ 22 + 1 / 2 ^ 26) / (n : Rat) ≤ 1 / 2 ^ 22 + 1 / 2 ^ 26 := div_le_self (by norm_num) hn1
  have hi0 : (0 : Rat) ≤ (1 / 2 ^ 22 + 1 / 2 ^ 26) / n := by positivity
  have hg : |(if f ≤ 0 then (Arith.rounded rnd).ofInt 1 else (Arith.rounded rnd).ofInt 0) - (if f ≤ 0 then (1 : Rat) else 0)| ≤ 1 / 2 ^ 24 := by
    split
    · have := h 1
      rw [abs_one] at this
      show |rnd ((1 : Int) : Rat) - 1| ≤ _
      rw [Int.cast_one]; exact this
    · show |rnd ((0 : Int) : Rat) - 0| ≤ _
      rw [Int.cast_zero, rnd_zero h]; norm_num
  have hlin : ∀ k : Nat, k ≤ n → (if f ≤ 0 then (1 : Rat) else 0) + k * ((f : Rat) / n) = fadeGain f n k := by
    intro k _
    unfold fadeGain
    rcases hf with rfl | rfl | rfl
    · norm_num; ring
    · norm_num
    · norm_num; ring
  have hfr : ∀ k : Nat, k ≤ n → 0 ≤ fadeGain f n k ∧ fadeGain f n k ≤ 1 := by
    intro k hk
    have h1 : (k : Rat) / n ≤ 1 := by rw [div_le_one hnq]; exact_mod_cast hk
    have h0 : 0 ≤ (k : Rat) / n := by positivity
    unfold fadeGain
    rcases hf with rfl | rfl | rfl
    · rw [if_neg (by decide), if_pos rfl]; constructor <;> linarith
    · norm_num
    · rw [if_pos rfl]; exact ⟨h0, h1⟩
  have key := gains_near h _ _ (if f ≤ 0 then (1 : Rat) else 0) ((f : Rat) / n) (1 / 2 ^ 24) _ hg hi n hn2
    (by
      intro k hk
      rw [hlin k hk, abs_of_nonneg (hfr k hk).1]
      exact (hfr k hk).2) hi0 (by norm_num at hin ⊢; linarith) t (by omega)
  rw [hlin t (by omega)] at key
  have hte : (t : Rat) * ((1 / 2 ^ 22 + 1 / 2 ^ 26) / n + 1 / 2 ^ 23) ≤ 1 / 2 ^ 22 + 1 / 2 ^ 26 + 480 * (1 / 2 ^ 23) := by
    have h1 : (t : Rat) / n ≤ 1 := by rw [div_le_one hnq]; exact_mod_cast (le_of_lt ht)
    have h2 : (t : Rat) ≤ 480 := by exact_mod_cast (show t ≤ 480 by omega)
    have e : (t : Rat) * ((1 / 2 ^ 22 + 1 / 2 ^ 26) / n + 1 / 2 ^ 23) = (1 / 2 ^ 22 + 1 / 2 ^ 26) * (t / n) + t * (1 / 2 ^ 23) := by ring
    rw [e]
    refine add_le_add ?_ (mul_le_mul_of_nonneg_right h2 (by norm_num))
    calc (1 / 2 ^ 22 + 1 / 2 ^ 26) * ((t : Rat) / n) ≤ (1 / 2 ^ 22 + 1 / 2 ^ 26) * 1 := mul_le_mul_of_nonneg_left h1 (by norm_num)
      _ = _ := mul_one _
  generalize gains (Arith.rounded rnd) _ _ t = g at *
  have h5 := abs_add_le (g - fadeGain f n t) (fadeGain f n t)
  rw [sub_add_cancel, abs_of_nonneg (hfr t (by omega)).1] at h5
  norm_num at key hte h5 ⊢
  linarith

/-! ### The coefficients -/

/-- The greatest sums of the magnitudes of the coefficients. -/
def denMax : Rat := 4014 / 10000
def numMax : Rat := 354 / 1000

omit h in
theorem sum_range_list (f : Nat → Rat) (w : Nat) : ∑ k ∈ Finset.range w, f k = ((List.range w).map f).sum := by
  induction w with
  | zero => rfl
  | succ w ih => rw [Finset.sum_range_succ, ih, List.range_succ, List.map_append, List.sum_append]; simp

omit h in
theorem tables_sum : lowRates.all (fun sr =>
    (ltpfCden sr).all (fun l => decide (((List.range (ltpfWidth sr)).map fun k => |l.getD (ltpfWidth sr - 1 - k) 0|).sum ≤ 100329 / 100000)) &&
    (ltpfCnum sr).all (fun l => decide (((List.range (ltpfWidth sr)).map fun k => |l.getD (ltpfWidth sr - 1 - k) 0|).sum ≤ 104096 / 100000))) = true := by
  decide +kernel

theorem rnd_nonneg (x : Rat) (hx : 0 ≤ x) : 0 ≤ rnd x := by
  have := h x
  rw [abs_of_nonneg hx] at this
  have h2 := (abs_le.mp this).1
  have : x / 2 ^ 24 ≤ x := div_le_self hx (by norm_num)
  linarith

/-- The gain of the filter. -/
theorem gamma_mag (gi : Nat) (hg : gi < 4) :
    |(Arith.rounded rnd).sub ((Arith.rounded rnd).ofRat (4 / 10)) ((Arith.rounded rnd).mul ((Arith.rounded rnd).ofRat (5 / 100))
      ((Arith.rounded rnd).ofInt gi))| ≤ qf ^ 2 * (4 / 10) := by
  show |rnd (rnd (4 / 10) - rnd (rnd (5 / 100) * rnd ((gi : Int) : Rat)))| ≤ _
  rw [Int.cast_natCast]
  have q1 := qf_one
  have hgq : (gi : Rat) ≤ 3 := by exact_mod_cast (show gi ≤ 3 by omega)
  have a0 := rnd_nonneg h (4 / 10) (by norm_num)
  have a1 := rnd_mag h (4 / 10)
  rw [abs_of_nonneg a0, abs_of_nonneg (by norm_num : (0 : Rat) ≤ 4 / 10)] at a1
  have b0 := rnd_nonneg h (5 / 100) (by norm_num)
  have b1 := rnd_mag h (5 / 100)
  rw [abs_of_nonneg b0, abs_of_nonneg (by norm_num : (0 : Rat) ≤ 5 / 100)] at b1
  have c0 := rnd_nonneg h (gi : Rat) (by positivity)
  have c1 := rnd_mag h (gi : Rat)
  rw [abs_of_nonneg c0, abs_of_nonneg (by positivity : (0 : Rat) ≤ gi)] at c1
  have d0 := rnd_nonneg h (rnd (5 / 100) * rnd (gi : Rat)) (mul_nonneg b0 c0)
  have d1 := rnd_mag h (rnd (5 / 100) * rnd (gi : Rat))
  rw [abs_of_nonneg d0, abs_of_nonneg (mul_nonneg b0 c0)] at d1
  have hd : rnd (rnd (5 / 100) * rnd (gi : Rat)) ≤ qf * (4 / 10) := by
    refine le_trans d1 ?_
    refine mul_le_mul_of_nonneg_left ?_ (by linarith)
    calc rnd (5 / 100) * rnd (gi : Rat) ≤ (qf * (5 / 100)) * (qf * gi) := mul_le_mul b1 c1 c0 (by linarith)
      _ ≤ (qf * (5 / 100)) * (qf * 3) := mul_le_mul_of_nonneg_left (mul_le_mul_of_nonneg_left hgq (by linarith)) (by linarith)
      _ ≤ 4 / 10 := by norm_num [qf]
  have hm : |rnd (4 / 10) - rnd (rnd (5 / 100) * rnd (gi : Rat))| ≤ qf * (4 / 10) := by
    rw [abs_le]
    constructor <;> linarith
  refine le_trans (rnd_mag' h _ _ hm) (le_of_eq (by ring))

/-- The coefficients of a frame. -/
theorem coeffs_mag (sr : Srate) (hr : sr.hr = false) (p : Nat) (active : Bool) (g : Int) (hg : 0 ≤ g) (ha : active = true → g < 4)
    (c : List Rat) (ec : ltpfCoeffs (Arith.rounded rnd) sr p active g = some c) :
    ∑ k ∈ Finset.range (ltpfWidth sr), |c.getD k 0| ≤ denMax ∧
    ∑ k ∈ Finset.range (ltpfWidth sr), |c.getD (ltpfWidth sr + k) 0| ≤ numMax := by
  have q1 := qf_one
  have ht := List.all_eq_true.mp tables_sum sr (mem_lowRates sr hr)
  rw [Bool.and_eq_true, List.all_eq_true, List.all_eq_true] at ht
  unfold ltpfCoeffs at ec
  dsimp only at ec
  obtain ⟨den, ed, ec⟩ := Option.bind_eq_some_iff.mp ec
  obtain ⟨num, en, ec⟩ := Option.bind_eq_some_iff.mp ec
  have t1 := of_decide_eq_true (ht.1 den (List.mem_of_getElem? ed))
  have t2 := of_decide_eq_true (ht.2 num (List.mem_of_getElem? en))
  by_cases hl : den.length < ltpfWidth sr ∨ num.length < ltpfWidth sr
  · rw [if_pos hl] at ec; cases ec
  rw [if_neg hl] at ec
  have ec := Option.some.inj ec
  generalize hgam : (if active = true then (Arith.rounded rnd).sub ((Arith.rounded rnd).ofRat (4 / 10)) ((Arith.rounded rnd).mul
    ((Arith.rounded rnd).ofRat (5 / 100)) ((Arith.rounded rnd).ofInt g)) else (Arith.rounded rnd).ofInt 0) = gam at ec
  have hgm : |gam| ≤ qf ^ 2 * (4 / 10) := by
    rw [← hgam]
    split
    · rename_i hact
      obtain ⟨gi, rfl⟩ : ∃ gi : Nat, g = gi := ⟨g.toNat, by omega⟩
      exact gamma_mag h gi (by have := ha hact; omega)
    · show |rnd ((0 : Int) : Rat)| ≤ _
      rw [Int.cast_zero, rnd_zero h, abs_zero]; positivity
  have hg85 : |(Arith.rounded rnd).mul ((Arith.rounded rnd).ofRat (85 / 100)) gam| ≤ qf ^ 4 * (34 / 100) := by
    have h1 := rnd_mag h (85 / 100)
    rw [abs_of_nonneg (by norm_num : (0 : Rat) ≤ 85 / 100)] at h1
    refine le_trans (rnd_mag' h _ ((qf * (85 / 100)) * (qf ^ 2 * (4 / 10))) ?_) (le_of_eq (by ring))
    rw [abs_mul]
    exact mul_le_mul h1 hgm (abs_nonneg _) (by positivity)
  have hone : ∀ (gg v m : Rat), |gg| ≤ m → |(Arith.rounded rnd).mul gg ((Arith.rounded rnd).ofRat v)| ≤ (qf ^ 2 * m) * |v| := by
    intro gg v m hm
    have h1 := rnd_mag h v
    refine le_trans (rnd_mag' h _ (m * (qf * |v|)) ?_) (le_of_eq (by ring))
    rw [abs_mul]
    exact mul_le_mul hm h1 (abs_nonneg _) (le_trans (abs_nonneg _) hm)
  have hsum : ∀ (row : List Rat) (m B : Rat), 0 ≤ m → ((List.range (ltpfWidth sr)).map fun k => |row.getD (ltpfWidth sr - 1 - k) 0|).sum ≤ B →
      ∀ (f : Nat → Rat), (∀ k < ltpfWidth sr, |f k| ≤ m * |row.getD (ltpfWidth sr - 1 - k) 0|) →
      ∑ k ∈ Finset.range (ltpfWidth sr), |f k| ≤ m * B := by
    intro row m B hm hB f hf
    refine le_trans (Finset.sum_le_sum fun k hk => hf k (Finset.mem_range.mp hk)) ?_
    rw [← Finset.mul_sum, sum_range_list]
    exact mul_le_mul_of_nonneg_left hB hm
  rw [← ec]
  constructor
  · refine le_trans (hsum den (qf ^ 2 * (qf ^ 2 * (4 / 10))) _ (by positivity) t1 _ ?_) (by norm_num [qf, denMax])
    intro k hk
    rw [List.getD_eq_getElem?_getD, List.getElem?_append_left (by simpa using hk), List.getElem?_map, List.getElem?_range hk]
    exact hone gam _ _ hgm
  · refine le_trans (hsum num (qf ^ 2 * (qf ^ 4 * (34 / 100))) _ (by positivity) t2 _ ?_) (by norm_num [qf, numMax])
    intro k hk
    rw [List.getD_eq_getElem?_getD, List.getElem?_append_right (by simp), List.getElem?_map]
    simp only [List.length_map, List.length_range, Nat.add_sub_cancel_left]
    rw [List.getElem?_range hk]
    exact hone _ _ _ hg85

end

end LC3
