import Verif.Lemmas.RoundF
import Verif.Lemmas.LtpfBound
import Verif.Props.LtpfStable

/-!
# Bound of the samples of the long-term postfilter, in single precision

As Lemmas/LtpfBound and Props/LtpfStable, with the subnormal numbers and a limited range: `RoundF`.
-/

namespace LC3

section
variable {rnd : Rat → Rat} (h : RoundF rnd)
include h

theorem at0_getDF (l : List Rat) (i : Nat) : at0 (Arith.rounded rnd) l i = l.getD i 0 := by
  unfold at0
  have : (Arith.rounded rnd).ofInt 0 = 0 := by
    show rnd ((0 : Int) : Rat) = 0
    rw [Int.cast_zero]; exact h.zero
  rw [this]

theorem rnd_magF (x m : Rat) (hx : |x| ≤ m) (hm : m ≤ 2 ^ 126) : |rnd x| ≤ qf * (m + 1 / 2 ^ 140) := by
  refine (h.mag hx hm).trans ?_
  unfold qf
  norm_num
  linarith

/-! ### The accumulation -/

theorem part_magF (c : List Rat) (w : Nat) (Y X : Nat → Rat) (t cnt : Nat) (hc : cnt ≤ 12)
    (hT : ∑ k ∈ Finset.range cnt, (|c.getD k 0| * |Y (t + k)| + |c.getD (w + k) 0| * |X (t + k)|) ≤ 2 ^ 120) :
    |part (Arith.rounded rnd) c w Y X t cnt| ≤ qf ^ (2 * cnt + 1) * (∑ k ∈ Finset.range cnt,
      (|c.getD k 0| * |Y (t + k)| + |c.getD (w + k) 0| * |X (t + k)|) + cnt * (4 / 2 ^ 140)) := by
  have q1 := qf_one
  induction cnt with
  | zero =>
    have : part (Arith.rounded rnd) c w Y X t 0 = 0 := by
      show rnd ((0 : Int) : Rat) = 0
      rw [Int.cast_zero]; exact h.zero
    rw [this]; simp
  | succ k ih =>
    rw [Finset.sum_range_succ] at hT
    rw [part, tap, Finset.sum_range_succ, at0_getDF h, at0_getDF h]
    have a0 := mul_nonneg (abs_nonneg (c.getD k 0)) (abs_nonneg (Y (t + k)))
    have b0 := mul_nonneg (abs_nonneg (c.getD (w + k) 0)) (abs_nonneg (X (t + k)))
    have ih := ih (by omega) (by linarith)
    generalize part (Arith.rounded rnd) c w Y X t k = acc at *
    generalize hS : (∑ k ∈ Finset.range k, (|c.getD k 0| * |Y (t + k)| + |c.getD (w + k) 0| * |X (t + k)|)) = S at *
    have hS0 : 0 ≤ S := by
      rw [← hS]
      exact Finset.sum_nonneg fun i _ => by positivity
    have hT2 : (2 ^ 120 : Rat) ≤ 2 ^ 126 := by norm_num
    have ha : |(Arith.rounded rnd).mul (Y (t + k)) (c.getD k 0)| ≤ qf * (|c.getD k 0| * |Y (t + k)| + 1 / 2 ^ 140) := by
      refine rnd_magF h _ _ (le_of_eq ?_) ?_
      · rw [abs_mul, mul_comm]
      · linarith
    have hb : |(Arith.rounded rnd).mul (X (t + k)) (c.getD (w + k) 0)| ≤ qf * (|c.getD (w + k) 0| * |X (t + k)| + 1 / 2 ^ 140) := by
      refine rnd_magF h _ _ (le_of_eq ?_) ?_
      · rw [abs_mul, mul_comm]
      · linarith
    generalize |c.getD k 0| * |Y (t + k)| = a at *
    generalize |c.getD (w + k) 0| * |X (t + k)| = b at *
    generalize (Arith.rounded rnd).mul (Y (t + k)) (c.getD k 0) = pa at *
    generalize (Arith.rounded rnd).mul (X (t + k)) (c.getD (w + k) 0) = pb at *
    have hkq : (k : Rat) ≤ 12 := by exact_mod_cast (show k ≤ 12 by omega)
    have hk0 : (0 : Rat) ≤ k := Nat.cast_nonneg k
    have hq2 : qf ^ (2 * k + 1) ≤ 2 := by
      refine (pow_le_pow_right₀ q1 (show 2 * k + 1 ≤ 25 by omega)).trans (by norm_num [qf])
    have hqk : (1 : Rat) ≤ qf ^ (2 * k + 1) := one_le_pow₀ q1
    obtain ⟨U, hU⟩ : ∃ U, U = S + k * (4 / 2 ^ 140) := ⟨_, rfl⟩
    rw [← hU] at ih
    have hU0 : 0 ≤ U := by rw [hU]; positivity
    have hUS : U ≤ S + 1 := by rw [hU]; norm_num; linarith
    have hacc : qf ^ (2 * k + 1) * U ≤ 2 * U := mul_le_mul_of_nonneg_right hq2 hU0
    have hq : qf ≤ 2 := by norm_num [qf]
    have hqa : qf * (a + 1 / 2 ^ 140) ≤ 2 * (a + 1 / 2 ^ 140) := mul_le_mul_of_nonneg_right hq (by positivity)
    have hqb : qf * (b + 1 / 2 ^ 140) ≤ 2 * (b + 1 / 2 ^ 140) := mul_le_mul_of_nonneg_right hq (by positivity)
    have hc' : |(Arith.rounded rnd).sub acc pa| ≤ qf * (qf ^ (2 * k + 1) * U + qf * (a + 1 / 2 ^ 140) + 1 / 2 ^ 140) := by
      refine rnd_magF h _ _ (le_trans (abs_sub _ _) (add_le_add ih ha)) ?_
      norm_num at hT hqa ⊢; linarith
    have hqc : qf * (qf ^ (2 * k + 1) * U + qf * (a + 1 / 2 ^ 140) + 1 / 2 ^ 140) ≤ 2 * (2 * U + 2 * (a + 1 / 2 ^ 140) + 1 / 2 ^ 140) :=
      mul_le_mul hq (by linarith) (by positivity) (by norm_num)
    have hd : |(Arith.rounded rnd).add ((Arith.rounded rnd).sub acc pa) pb| ≤
        qf * (qf * (qf ^ (2 * k + 1) * U + qf * (a + 1 / 2 ^ 140) + 1 / 2 ^ 140) + qf * (b + 1 / 2 ^ 140) + 1 / 2 ^ 140) := by
      refine rnd_magF h _ _ (le_trans (abs_add_le _ _) (add_le_add hc' hb)) ?_
      norm_num at hT hqc hqb ⊢; linarith
    refine le_trans hd ?_
    have e1 : qf ^ (2 * (k + 1) + 1) = qf ^ 2 * qf ^ (2 * k + 1) := by rw [← pow_add]; congr 1; ring
    have e2 : qf ^ 2 ≤ qf ^ (2 * (k + 1) + 1) := pow_le_pow_right₀ q1 (by omega)
    have e3 : qf ^ 3 ≤ qf ^ (2 * (k + 1) + 1) := pow_le_pow_right₀ q1 (by omega)
    have e4 : qf ≤ qf ^ (2 * (k + 1) + 1) := le_self_pow₀ q1 (by omega)
    have η0 : (0 : Rat) ≤ 1 / 2 ^ 140 := by positivity
    have hf : S + (a + b) + ((k + 1 : Nat) : Rat) * (4 / 2 ^ 140) = U + (a + 1 / 2 ^ 140) + (b + 1 / 2 ^ 140) + 1 / 2 ^ 140 + 1 / 2 ^ 140 := by
      rw [hU]; push_cast; ring
    rw [hf]
    generalize (1 / 2 ^ 140 : Rat) = η at *
    calc qf * (qf * (qf ^ (2 * k + 1) * U + qf * (a + η) + η) + qf * (b + η) + η)
        = qf ^ 2 * qf ^ (2 * k + 1) * U + qf ^ 3 * (a + η) + qf ^ 2 * (b + η) + qf ^ 2 * η + qf * η := by ring
      _ ≤ qf ^ (2 * (k + 1) + 1) * U + qf ^ (2 * (k + 1) + 1) * (a + η) + qf ^ (2 * (k + 1) + 1) * (b + η) + qf ^ (2 * (k + 1) + 1) * η +
          qf ^ (2 * (k + 1) + 1) * η := by
          rw [← e1]
          have i1 := mul_le_mul_of_nonneg_right e3 (show 0 ≤ a + η by linarith)
          have i2 := mul_le_mul_of_nonneg_right e2 (show 0 ≤ b + η by linarith)
          have i3 := mul_le_mul_of_nonneg_right e2 η0
          have i4 := mul_le_mul_of_nonneg_right e4 η0
          linarith
      _ = _ := by ring

/-- The accumulation of `w ≤ 12` samples bounded by `U` and `V`. -/
theorem part_boundF (c : List Rat) (w : Nat) (hw : w ≤ 12) (Y X : Nat → Rat) (t : Nat) (U V D N : Rat) (hU : 0 ≤ U) (hV : 0 ≤ V)
    (hY : ∀ k < w, |Y (t + k)| ≤ U) (hX : ∀ k < w, |X (t + k)| ≤ V)
    (hD : ∑ k ∈ Finset.range w, |c.getD k 0| ≤ D) (hN : ∑ k ∈ Finset.range w, |c.getD (w + k) 0| ≤ N) (hl : D * U + N * V ≤ 2 ^ 120) :
    |part (Arith.rounded rnd) c w Y X t w| ≤ qf ^ 25 * (D * U + N * V + 48 / 2 ^ 140) := by
  have h1 : ∑ k ∈ Finset.range w, (|c.getD k 0| * |Y (t + k)| + |c.getD (w + k) 0| * |X (t + k)|) ≤ D * U + N * V := by
    rw [Finset.sum_add_distrib]
    refine add_le_add ?_ ?_
    · refine le_trans ?_ (mul_le_mul_of_nonneg_right hD hU)
      rw [Finset.sum_mul]
      refine Finset.sum_le_sum fun k hk => mul_le_mul_of_nonneg_left (hY k (Finset.mem_range.mp hk)) (abs_nonneg _)
    · refine le_trans ?_ (mul_le_mul_of_nonneg_right hN hV)
      rw [Finset.sum_mul]
      refine Finset.sum_le_sum fun k hk => mul_le_mul_of_nonneg_left (hX k (Finset.mem_range.mp hk)) (abs_nonneg _)
  refine le_trans (part_magF h c w Y X t w hw (h1.trans hl)) ?_
  have hw' : (w : Rat) ≤ 12 := by exact_mod_cast hw
  have q1 := qf_one
  refine mul_le_mul (pow_le_pow_right₀ qf_one (by omega)) (add_le_add h1 ?_) (add_nonneg (Finset.sum_nonneg fun i _ => by positivity) (by positivity)) (by positivity)
  norm_num; linarith

/-! ### A pass -/

/-- A pass of the filter on `n` samples, where the samples out of the pass do not exceed `B`. -/
theorem pass_boundF (ring : List Rat) (L : Nat) (X : Nat → Rat) (x n : Nat) (c : List Rat) (w : Nat) (gs : Nat → Rat)
    (hw0 : 0 < w) (hw : w ≤ 12) (hL : w ≤ L) (hLn : L + n ≤ ring.length) (hx : x + n ≤ ring.length)
    (hF : FilterEq (Arith.rounded rnd) ring L X x n c w gs) (B V : Rat) (hB : 0 ≤ B) (hV : 1 / 2 ^ 100 ≤ V) (hBl : B ≤ 2 ^ 110) (hVl : V ≤ 2 ^ 110)
    (hD : ∑ k ∈ Finset.range w, |c.getD k 0| ≤ denMax) (hN : ∑ k ∈ Finset.range w, |c.getD (w + k) 0| ≤ numMax)
    (hout : ∀ i, i < x ∨ x + n ≤ i → |ring.getD i 0| ≤ B) (hX : ∀ i < w - 1 + n, |X i| + 1 / 2 ^ 100 ≤ V)
    (ξ γ : Nat → Rat) (hξ : ∀ t < n, |X (w - 1 + t)| + 1 / 2 ^ 100 ≤ ξ t) (hξl : ∀ t < n, ξ t ≤ 2 ^ 110) (hγ : ∀ t < n, |gs t| ≤ γ t)
    (hγl : ∀ t < n, 1 / 10000 ≤ γ t ∧ γ t ≤ 2)
    (hb : ∀ t < n, qf * (ξ t + qf * (γ t * (qf ^ 25 * (denMax * B + numMax * V)))) ≤ B) :
    ∀ t < n, |ring.getD (x + t) 0| ≤ qf * (ξ t + qf * (γ t * (qf ^ 25 * (denMax * B + numMax * V)))) := by
  have q1 := qf_one
  have hlim : denMax * B + numMax * V ≤ 2 ^ 111 := by unfold denMax numMax; norm_num at hBl hVl ⊢; linarith
  have hP0 : 0 ≤ denMax * B + numMax * V := by
    have : 0 ≤ V := le_trans (by norm_num) hV
    unfold denMax numMax; positivity
  intro t
  induction t using Nat.strongRecOn with
  | ind t ih =>
    intro ht
    have key := hF t ht
    rw [at0_getDF h] at key
    rw [key]
    have hp : |part (Arith.rounded rnd) c w (fun i => at0 (Arith.rounded rnd) ring ((x + ring.length - L + i) % ring.length)) X t w| ≤
        qf ^ 25 * (denMax * B + numMax * (V - 1 / 2 ^ 100) + 48 / 2 ^ 140) := by
      refine part_boundF h c w hw _ X t B (V - 1 / 2 ^ 100) denMax numMax hB (by linarith) ?_ (fun k hk => by have := hX (t + k) (by omega); linarith) hD hN ?_
      · intro k hk
        rw [at0_getDF h]
        by_cases hin : L ≤ t + k
        · have e : (x + ring.length - L + (t + k)) % ring.length = x + (t + k - L) := by
            rw [show x + ring.length - L + (t + k) = x + (t + k - L) + ring.length by omega, Nat.add_mod_right, Nat.mod_eq_of_lt (by omega)]
          rw [e]
          exact le_trans (ih (t + k - L) (by omega) (by omega)) (hb _ (by omega))
        · apply hout
          by_cases hneg : L - (t + k) ≤ x
          · rw [show x + ring.length - L + (t + k) = x - (L - (t + k)) + ring.length by omega, Nat.add_mod_right, Nat.mod_eq_of_lt (by omega)]
            omega
          · rw [Nat.mod_eq_of_lt (by omega)]
            omega
      · unfold numMax at hlim ⊢
        norm_num at hlim ⊢; linarith
    obtain ⟨g1, g2⟩ := hγl t ht
    generalize part (Arith.rounded rnd) c w (fun i => at0 (Arith.rounded rnd) ring ((x + ring.length - L + i) % ring.length)) X t w = pp at *
    obtain ⟨P, hP⟩ : ∃ P, P = denMax * B + numMax * V := ⟨_, rfl⟩
    rw [← hP] at hlim hP0 hb ⊢
    have hp2 : |pp| ≤ qf ^ 25 * P - 1 / 2 ^ 110 := by
      refine hp.trans ?_
      rw [show denMax * B + numMax * (V - 1 / 2 ^ 100) + 48 / 2 ^ 140 = P - (numMax / 2 ^ 100 - 48 / 2 ^ 140) by rw [hP]; ring, mul_sub]
      have : 1 / 2 ^ 110 ≤ qf ^ 25 * (numMax / 2 ^ 100 - 48 / 2 ^ 140) := by norm_num [qf, numMax]
      linarith
    have hq25 : qf ^ 25 * P ≤ 2 * P := mul_le_mul_of_nonneg_right (by norm_num [qf]) hP0
    have hgp : |gs t * pp| ≤ γ t * (qf ^ 25 * P) - 1 / 2 ^ 130 := by
      rw [abs_mul]
      have e1 := mul_le_mul (hγ t ht) hp2 (abs_nonneg _) (by linarith)
      rw [mul_sub] at e1
      have e2 : (1 / 2 ^ 130 : Rat) ≤ γ t * (1 / 2 ^ 110) := by norm_num at g1 ⊢; linarith
      linarith
    have hgm : γ t * (qf ^ 25 * P) ≤ 2 * (2 * P) := mul_le_mul g2 hq25 (by positivity) (by norm_num)
    have h1 : |(Arith.rounded rnd).mul (gs t) pp| ≤ qf * (γ t * (qf ^ 25 * P)) := by
      have := rnd_magF h _ _ hgp (by norm_num at hlim hgm ⊢; linarith)
      refine this.trans (mul_le_mul_of_nonneg_left ?_ (by linarith))
      norm_num; linarith
    have hqg : qf * (γ t * (qf ^ 25 * P)) ≤ 2 * (2 * (2 * P)) := mul_le_mul (by norm_num [qf]) hgm (by positivity) (by norm_num)
    have h2 : |X (w - 1 + t)| ≤ ξ t - 1 / 2 ^ 100 := by have := hξ t ht; linarith
    have h3 := rnd_magF h _ _ (le_trans (abs_sub (X (w - 1 + t)) ((Arith.rounded rnd).mul (gs t) pp)) (add_le_add h2 h1))
      (by have := hξl t ht; norm_num at hlim hqg this ⊢; linarith)
    refine le_trans h3 (mul_le_mul_of_nonneg_left ?_ (by linarith))
    norm_num; linarith

/-! ### The gains -/

theorem gains_nearF (g incr G I e0 e1 : Rat) (hg : |g - G| ≤ e0) (hi : |incr - I| ≤ e1) (n : Nat) (hn : n ≤ 480)
    (hG : ∀ t : Nat, t ≤ n → |G + t * I| ≤ 1) (h1 : 0 ≤ e1) (hs : e0 + 480 * (e1 + 1 / 2 ^ 23) ≤ 1 / 2) :
    ∀ t : Nat, t ≤ n → |gains (Arith.rounded rnd) g incr t - (G + t * I)| ≤ e0 + t * (e1 + 1 / 2 ^ 23) := by
  intro t
  induction t with
  | zero => intro _; simpa [gains] using hg
  | succ t ih =>
    intro ht
    have ih := ih (by omega)
    rw [gains]
    generalize gains (Arith.rounded rnd) g incr t = a at *
    have hG1 := hG (t + 1) ht
    have e : (a + incr) - (G + (t + 1 : Nat) * I) = (a - (G + t * I)) + (incr - I) := by push_cast; ring
    have hd : |(a + incr) - (G + (t + 1 : Nat) * I)| ≤ e0 + t * (e1 + 1 / 2 ^ 23) + e1 := by
      rw [e]; exact le_trans (abs_add_le _ _) (add_le_add ih hi)
    have ht' : (t : Rat) * (e1 + 1 / 2 ^ 23) + e1 ≤ 480 * (e1 + 1 / 2 ^ 23) := by
      have : (t : Rat) + 1 ≤ 480 := by exact_mod_cast (show t + 1 ≤ 480 by omega)
      have h2 : 0 ≤ e1 + 1 / 2 ^ 23 := by positivity
      nlinarith
    have hm : |a + incr| ≤ 3 / 2 := by
      have : |a + incr| ≤ |(a + incr) - (G + (t + 1 : Nat) * I)| + |G + (t + 1 : Nat) * I| := by
        have := abs_add_le ((a + incr) - (G + (t + 1 : Nat) * I)) (G + (t + 1 : Nat) * I)
        rw [sub_add_cancel] at this
        exact this
      linarith
    have hr := h.err hm (by norm_num)
    have h3 : |rnd (a + incr) - (G + (t + 1 : Nat) * I)| ≤ |rnd (a + incr) - (a + incr)| + |(a + incr) - (G + (t + 1 : Nat) * I)| := by
      have := abs_add_le (rnd (a + incr) - (a + incr)) ((a + incr) - (G + (t + 1 : Nat) * I))
      rw [sub_add_sub_cancel] at this
      exact this
    show |rnd (a + incr) - (G + (t + 1 : Nat) * I)| ≤ _
    have h4 : ((3 / 2 : Rat) + 1 / 2 ^ 126) / 2 ^ 24 ≤ 1 / 2 ^ 23 := by norm_num
    push_cast at *
    linarith

/-- The increment of the gain. -/
theorem incr_nearF (f : Int) (hf : f = -1 ∨ f = 0 ∨ f = 1) (n : Nat) (hn : 0 < n) (hn2 : n ≤ 480) :
    |(Arith.rounded rnd).div ((Arith.rounded rnd).ofInt f) ((Arith.rounded rnd).ofInt n) - (f : Rat) / n| ≤ (1 / 2 ^ 22 + 1 / 2 ^ 26) / n := by
  have hnq : (0 : Rat) < n := by exact_mod_cast hn
  show |rnd (rnd (f : Rat) / rnd ((n : Int) : Rat)) - (f : Rat) / n| ≤ _
  rw [Int.cast_natCast]
  have hf1 : |(f : Rat)| ≤ 1 := by rcases hf with rfl | rfl | rfl <;> norm_num
  have hn1 : (1 : Rat) ≤ n := by exact_mod_cast hn
  have hn4 : (n : Rat) ≤ 480 := by exact_mod_cast hn2
  have a1 : |rnd (f : Rat) - f| ≤ |(f : Rat)| / 2 ^ 24 := by
    rcases hf with rfl | rfl | rfl
    · exact h.rel _ (by norm_num) (by norm_num)
    · rw [Int.cast_zero, h.zero]; norm_num
    · exact h.rel _ (by norm_num) (by norm_num)
  have a2 := h.rel (n : Rat) (by rw [abs_of_pos hnq]; norm_num; linarith) (by rw [abs_of_pos hnq]; norm_num; linarith)
  have f0 : rnd (f : Rat) = 0 ∨ 1 / 2 ≤ |rnd (f : Rat)| := by
    rcases hf with rfl | rfl | rfl
    · right
      have := abs_sub_abs_le_abs_sub (((-1 : Int) : Rat)) (rnd ((-1 : Int) : Rat))
      rw [abs_sub_comm] at this
      norm_num at this a1 ⊢; linarith
    · left; rw [Int.cast_zero, h.zero]
    · right
      have := abs_sub_abs_le_abs_sub (((1 : Int) : Rat)) (rnd ((1 : Int) : Rat))
      rw [abs_sub_comm] at this
      norm_num at this a1 ⊢; linarith
  rw [abs_of_pos hnq] at a2
  have a2' := abs_le.mp a2
  have hm : 0 < rnd (n : Rat) := by
    have : (n : Rat) / 2 ^ 24 < n := by rw [div_lt_iff₀ (by positivity)]; nlinarith
    linarith
  generalize rnd (f : Rat) = f' at *
  generalize rnd (n : Rat) = m at *
  -- the quotient
  have hq : |f' / m - (f : Rat) / n| ≤ (1 / 2 ^ 23 + 1 / 2 ^ 40) / n := by
    have e : f' / m - (f : Rat) / n = ((f' - f) * n + f * (n - m)) / (m * n) := by field_simp; ring
    rw [e, abs_div, abs_of_pos (mul_pos hm hnq), div_le_div_iff₀ (mul_pos hm hnq) hnq]
    have b1 : |(f' - f) * n + f * (n - m)| ≤ n / 2 ^ 23 := by
      refine le_trans (abs_add_le _ _) ?_
      rw [abs_mul, abs_mul, abs_of_pos hnq]
      have : |(f : Rat)| * |(n : Rat) - m| ≤ 1 * ((n : Rat) / 2 ^ 24) := by
        refine mul_le_mul hf1 ?_ (abs_nonneg _) zero_le_one
        rw [abs_sub_comm]; exact a2
      have h3 : |f' - (f : Rat)| * n ≤ (1 / 2 ^ 24) * n := by
        refine mul_le_mul_of_nonneg_right (le_trans a1 ?_) (le_of_lt hnq)
        exact div_le_div_of_nonneg_right hf1 (by positivity)
      linarith
    have b2 : (n : Rat) * (1 - 1 / 2 ^ 24) ≤ m := by linarith
    have b3 : (n : Rat) * (n : Rat) / 2 ^ 23 ≤ (1 / 2 ^ 23 + 1 / 2 ^ 40) * (m * n) := by
      have : (n : Rat) * (n : Rat) * (1 - 1 / 2 ^ 24) ≤ m * n := by nlinarith
      nlinarith [mul_pos hnq hnq]
    nlinarith
  have hmag : |f' / m| ≤ (1 + 1 / 2 ^ 20) / n := by
    have : |f' / m| ≤ |f' / m - (f : Rat) / n| + |(f : Rat) / n| := by
      have := abs_add_le (f' / m - (f : Rat) / n) ((f : Rat) / n)
      rw [sub_add_cancel] at this
      exact this
    have h5 : |(f : Rat) / n| ≤ 1 / n := by
      rw [abs_div, abs_of_pos hnq]
      exact div_le_div_of_nonneg_right hf1 (le_of_lt hnq)
    refine le_trans this (le_trans (add_le_add hq h5) ?_)
    rw [← add_div]
    exact div_le_div_of_nonneg_right (by norm_num) (le_of_lt hnq)
  have hr : |rnd (f' / m) - f' / m| ≤ |f' / m| / 2 ^ 24 := by
    rcases f0 with f0 | f0
    · rw [f0, zero_div, h.zero]; norm_num
    · refine h.rel _ ?_ ?_
      · have hm2 : m ≤ 1000 := by
          have := a2'.2
          norm_num at this; linarith
        rw [abs_div, abs_of_pos hm, le_div_iff₀ hm]
        norm_num at f0 ⊢; linarith
      · refine hmag.trans ?_
        have : ((1 : Rat) + 1 / 2 ^ 20) / n ≤ (1 + 1 / 2 ^ 20) := div_le_self (by norm_num) hn1
        norm_num at this ⊢; linarith
  have h6 := abs_add_le (rnd (f' / m) - f' / m) (f' / m - (f : Rat) / n)
  rw [sub_add_sub_cancel] at h6
  refine le_trans h6 ?_
  have h7 : |rnd (f' / m) - f' / m| ≤ (1 + 1 / 2 ^ 20) / n / 2 ^ 24 := le_trans hr (div_le_div_of_nonneg_right hmag (by positivity))
  refine le_trans (add_le_add h7 hq) ?_
  rw [div_div, mul_comm (n : Rat), ← div_div, ← add_div]
  exact div_le_div_of_nonneg_right (by norm_num) (le_of_lt hnq)

theorem fade_boundF (f : Int) (hf : f = -1 ∨ f = 0 ∨ f = 1) (n : Nat) (hn : 0 < n) (hn2 : n ≤ 480) (t : Nat) (ht : t < n) :
    |gains (Arith.rounded rnd) (if f ≤ 0 then (Arith.rounded rnd).ofInt 1 else (Arith.rounded rnd).ofInt 0)
      ((Arith.rounded rnd).div ((Arith.rounded rnd).ofInt f.sign) ((Arith.rounded rnd).ofInt n)) t| ≤ fadeGain f n t + 1 / 10000 := by
  have hnq : (0 : Rat) < n := by exact_mod_cast hn
  have hn1 : (1 : Rat) ≤ n := by exact_mod_cast hn
  have hsg : f.sign = f := by rcases hf with rfl | rfl | rfl <;> rfl
  rw [hsg]
  have hi := incr_nearF h f hf n hn hn2
  have hin : (1 / 2 ^ 22 + 1 / 2 ^ 26) / (n : Rat) ≤ 1 / 2 ^ 22 + 1 / 2 ^ 26 := div_le_self (by norm_num) hn1
  have hi0 : (0 : Rat) ≤ (1 / 2 ^ 22 + 1 / 2 ^ 26) / n := by positivity
  have hg : |(if f ≤ 0 then (Arith.rounded rnd).ofInt 1 else (Arith.rounded rnd).ofInt 0) - (if f ≤ 0 then (1 : Rat) else 0)| ≤ 1 / 2 ^ 24 := by
    split
    · have := h.rel 1 (by norm_num) (by norm_num)
      rw [abs_one] at this
      show |rnd ((1 : Int) : Rat) - 1| ≤ _
      rw [Int.cast_one]; exact this
    · show |rnd ((0 : Int) : Rat) - 0| ≤ _
      rw [Int.cast_zero, h.zero]; norm_num
  have hlin : ∀ k : Nat, k ≤ n → (if f ≤ 0 then (1 : Rat) else 0) + k * ((f : Rat) / n) = fadeGain f n k := by
    intro k _
    unfold fadeGain
    rcases hf with rfl | rfl | rfl
    · norm_num; ring
    · norm_num
    · norm_num; ring
  have hfr : ∀ k : Nat, k ≤ n → 0 ≤ fadeGain f n k ∧ fadeGain f n k ≤ 1 := by
    intro k hk
    have h1 : (k : Rat) / n ≤ 1 := by rw [div_le_one hnq]; exact_mod_cast hk
    have h0 : 0 ≤ (k : Rat) / n := by positivity
    unfold fadeGain
    rcases hf with rfl | rfl | rfl
    · rw [if_neg (by decide), if_pos rfl]; constructor <;> linarith
    · norm_num
    · rw [if_pos rfl]; exact ⟨h0, h1⟩
  have key := gains_nearF h _ _ (if f ≤ 0 then (1 : Rat) else 0) ((f : Rat) / n) (1 / 2 ^ 24) _ hg hi n hn2
    (by
      intro k hk
      rw [hlin k hk, abs_of_nonneg (hfr k hk).1]
      exact (hfr k hk).2) hi0 (by norm_num at hin ⊢; linarith) t (by omega)
  rw [hlin t (by omega)] at key
  have hte : (t : Rat) * ((1 / 2 ^ 22 + 1 / 2 ^ 26) / n + 1 / 2 ^ 23) ≤ 1 / 2 ^ 22 + 1 / 2 ^ 26 + 480 * (1 / 2 ^ 23) := by
    have h1 : (t : Rat) / n ≤ 1 := by rw [div_le_one hnq]; exact_mod_cast (le_of_lt ht)
    have h2 : (t : Rat) ≤ 480 := by exact_mod_cast (show t ≤ 480 by omega)
    have e : (t : Rat) * ((1 / 2 ^ 22 + 1 / 2 ^ 26) / n + 1 / 2 ^ 23) = (1 / 2 ^ 22 + 1 / 2 ^ 26) * (t / n) + t * (1 / 2 ^ 23) := by ring
    rw [e]
    refine add_le_add ?_ (mul_le_mul_of_nonneg_right h2 (by norm_num))
    calc (1 / 2 ^ 22 + 1 / 2 ^ 26) * ((t : Rat) / n) ≤ (1 / 2 ^ 22 + 1 / 2 ^ 26) * 1 := mul_le_mul_of_nonneg_left h1 (by norm_num)
      _ = _ := mul_one _
  generalize gains (Arith.rounded rnd) _ _ t = g at *
  have h5 := abs_add_le (g - fadeGain f n t) (fadeGain f n t)
  rw [sub_add_cancel, abs_of_nonneg (hfr t (by omega)).1] at h5
  norm_num at key hte h5 ⊢
  linarith


/-! ### The coefficients -/

theorem rnd_relF (x : Rat) (hx : x = 0 ∨ 1 / 2 ^ 20 ≤ x) (hl : x ≤ 1000) : 0 ≤ rnd x ∧ rnd x ≤ qf * x := by
  rcases hx with rfl | hx
  · rw [h.zero]; simp
  · have h1 := h.rel x (by rw [abs_of_nonneg (le_trans (by norm_num) hx)]; exact le_trans (by norm_num) hx)
      (by rw [abs_of_nonneg (le_trans (by norm_num) hx)]; norm_num; linarith)
    have x0 : 0 ≤ x := le_trans (by norm_num) hx
    rw [abs_of_nonneg x0] at h1
    obtain ⟨a, b⟩ := abs_le.1 h1
    unfold qf
    constructor
    · norm_num at a ⊢; linarith
    · linarith

/-- The gain of the filter. -/
theorem gamma_magF (gi : Nat) (hg : gi < 4) :
    |(Arith.rounded rnd).sub ((Arith.rounded rnd).ofRat (4 / 10)) ((Arith.rounded rnd).mul ((Arith.rounded rnd).ofRat (5 / 100))
      ((Arith.rounded rnd).ofInt gi))| ≤ qf ^ 2 * (4 / 10) + 1 / 2 ^ 130 := by
  show |rnd (rnd (4 / 10) - rnd (rnd (5 / 100) * rnd ((gi : Int) : Rat)))| ≤ _
  rw [Int.cast_natCast]
  have hgq : (gi : Rat) ≤ 3 := by exact_mod_cast (show gi ≤ 3 by omega)
  have hg0 : (gi : Rat) = 0 ∨ 1 / 2 ^ 20 ≤ (gi : Rat) := by
    by_cases c : gi = 0
    · left; rw [c]; rfl
    · right
      have : (1 : Rat) ≤ gi := by exact_mod_cast (show 1 ≤ gi by omega)
      exact le_trans (by norm_num) this
  obtain ⟨a0, a1⟩ := rnd_relF h (4 / 10) (.inr (by norm_num)) (by norm_num)
  obtain ⟨b0, b1⟩ := rnd_relF h (5 / 100) (.inr (by norm_num)) (by norm_num)
  obtain ⟨c0, c1⟩ := rnd_relF h gi hg0 (by linarith)
  have q1 := qf_one
  have hp : rnd (5 / 100) * rnd (gi : Rat) ≤ 2 / 10 := by
    calc rnd (5 / 100) * rnd (gi : Rat) ≤ (qf * (5 / 100)) * (qf * gi) := mul_le_mul b1 c1 c0 (by linarith)
      _ ≤ (qf * (5 / 100)) * (qf * 3) := mul_le_mul_of_nonneg_left (mul_le_mul_of_nonneg_left hgq (by linarith)) (by linarith)
      _ ≤ 2 / 10 := by norm_num [qf]
  have hp0 : 0 ≤ rnd (5 / 100) * rnd (gi : Rat) := mul_nonneg b0 c0
  have d1 := h.near (rnd (5 / 100) * rnd (gi : Rat)) (by rw [abs_of_nonneg hp0]; norm_num at hp ⊢; linarith)
  rw [abs_of_nonneg hp0] at d1
  obtain ⟨d2, d3⟩ := abs_le.1 d1
  generalize rnd (5 / 100) * rnd (gi : Rat) = p at *
  have hm : |rnd (4 / 10) - rnd p| ≤ qf * (4 / 10) + 1 / 2 ^ 140 := by
    unfold qf at a1 ⊢
    rw [abs_le]
    norm_num at *
    constructor <;> linarith
  refine (rnd_magF h _ _ hm (by norm_num [qf])).trans (by norm_num [qf])

omit h in
theorem tables_cells : lowRates.all (fun sr => (ltpfCden sr).all (fun l => l.all fun v => decide (|v| ≤ (2 : Rat))) &&
    (ltpfCnum sr).all (fun l => l.all fun v => decide (|v| ≤ (2 : Rat)))) = true := by
  decide +kernel

/-- The coefficients of a frame. -/
theorem coeffs_magF (sr : Srate) (hr : sr.hr = false) (p : Nat) (active : Bool) (g : Int) (hg : 0 ≤ g) (ha : active = true → g < 4)
    (c : List Rat) (ec : ltpfCoeffs (Arith.rounded rnd) sr p active g = some c) :
    ∑ k ∈ Finset.range (ltpfWidth sr), |c.getD k 0| ≤ denMax ∧
    ∑ k ∈ Finset.range (ltpfWidth sr), |c.getD (ltpfWidth sr + k) 0| ≤ numMax := by
  have q1 := qf_one
  have ht := List.all_eq_true.mp tables_sum sr (mem_lowRates sr hr)
  rw [Bool.and_eq_true, List.all_eq_true, List.all_eq_true] at ht
  unfold ltpfCoeffs at ec
  dsimp only at ec
  obtain ⟨den, ed, ec⟩ := Option.bind_eq_some_iff.mp ec
  obtain ⟨num, en, ec⟩ := Option.bind_eq_some_iff.mp ec
  have t1 := of_decide_eq_true (ht.1 den (List.mem_of_getElem? ed))
  have t2 := of_decide_eq_true (ht.2 num (List.mem_of_getElem? en))
  by_cases hl : den.length < ltpfWidth sr ∨ num.length < ltpfWidth sr
  · rw [if_pos hl] at ec; cases ec
  rw [if_neg hl] at ec
  have ec := Option.some.inj ec
  generalize hgam : (if active = true then (Arith.rounded rnd).sub ((Arith.rounded rnd).ofRat (4 / 10)) ((Arith.rounded rnd).mul
    ((Arith.rounded rnd).ofRat (5 / 100)) ((Arith.rounded rnd).ofInt g)) else (Arith.rounded rnd).ofInt 0) = gam at ec
  have hgm : |gam| ≤ qf ^ 2 * (4 / 10) + 1 / 2 ^ 130 := by
    rw [← hgam]
    split
    · rename_i hact
      obtain ⟨gi, rfl⟩ : ∃ gi : Nat, g = gi := ⟨g.toNat, by omega⟩
      exact gamma_magF h gi (by have := ha hact; omega)
    · show |rnd ((0 : Int) : Rat)| ≤ _
      rw [Int.cast_zero, h.zero, abs_zero]; positivity
  have hg85 : |(Arith.rounded rnd).mul ((Arith.rounded rnd).ofRat (85 / 100)) gam| ≤ qf ^ 4 * (34 / 100) + 1 / 2 ^ 120 := by
    obtain ⟨h0, h1⟩ := rnd_relF h (85 / 100) (.inr (by norm_num)) (by norm_num)
    refine le_trans (rnd_magF h _ ((qf * (85 / 100)) * (qf ^ 2 * (4 / 10) + 1 / 2 ^ 130)) ?_ (by norm_num [qf])) (by norm_num [qf])
    rw [abs_mul]
    refine mul_le_mul ?_ hgm (abs_nonneg _) (by positivity)
    show |rnd (85 / 100)| ≤ _
    rw [abs_of_nonneg h0]; exact h1
  have hsz : ∀ (l : List Rat) (i : Nat), l ∈ ltpfCden sr ∨ l ∈ ltpfCnum sr → |l.getD i 0| ≤ 2 := by
    intro l i hl
    have := List.all_eq_true.mp tables_cells sr (mem_lowRates sr hr)
    rw [Bool.and_eq_true, List.all_eq_true, List.all_eq_true] at this
    have hv : ∀ v ∈ l, |v| ≤ 2 := by
      rcases hl with hl | hl
      · exact fun v hv => of_decide_eq_true (List.all_eq_true.mp (this.1 l hl) v hv)
      · exact fun v hv => of_decide_eq_true (List.all_eq_true.mp (this.2 l hl) v hv)
    by_cases hi : i < l.length
    · rw [List.getD_eq_getElem _ _ hi]; exact hv _ (List.getElem_mem _)
    · rw [List.getD_eq_default _ _ (by omega)]; norm_num
  have hone : ∀ (gg v m : Rat), |gg| ≤ m → 1 / 10 ≤ m → m ≤ 1 → |v| ≤ 2 →
      |(Arith.rounded rnd).mul gg ((Arith.rounded rnd).ofRat v)| ≤ (qf ^ 2 * m) * (|v| + 1 / 2 ^ 100) := by
    intro gg v m hm hm0 hm1 hv
    have h1 := rnd_magF h v |v| (le_refl _) (by norm_num; linarith)
    have h2 : |gg * (Arith.rounded rnd).ofRat v| ≤ m * (qf * (|v| + 1 / 2 ^ 140)) := by
      rw [abs_mul]
      exact mul_le_mul hm h1 (abs_nonneg _) (le_trans (abs_nonneg _) hm)
    have v0 := abs_nonneg v
    have h3 : m * (qf * (|v| + 1 / 2 ^ 140)) ≤ 1 * (2 * 3) := by
      refine mul_le_mul hm1 ?_ (by positivity) (by norm_num)
      refine mul_le_mul (by norm_num [qf]) (by norm_num; linarith) (by positivity) (by norm_num)
    refine le_trans (rnd_magF h _ _ h2 (by norm_num at h3 ⊢; linarith)) ?_
    generalize |v| = a at *
    rw [show qf * (m * (qf * (a + 1 / 2 ^ 140)) + 1 / 2 ^ 140) = qf ^ 2 * m * (a + 1 / 2 ^ 140) + qf / 2 ^ 140 by ring,
      show qf ^ 2 * m * (a + 1 / 2 ^ 100) = qf ^ 2 * m * (a + 1 / 2 ^ 140) + qf ^ 2 * m * (1 / 2 ^ 100 - 1 / 2 ^ 140) by ring]
    have : qf / 2 ^ 140 ≤ qf ^ 2 * m * (1 / 2 ^ 100 - 1 / 2 ^ 140) := by
      norm_num [qf]; linarith
    linarith
  have hsum : ∀ (row : List Rat) (m B : Rat), 0 ≤ m → ((List.range (ltpfWidth sr)).map fun k => |row.getD (ltpfWidth sr - 1 - k) 0|).sum ≤ B →
      ∀ (f : Nat → Rat), (∀ k < ltpfWidth sr, |f k| ≤ m * (|row.getD (ltpfWidth sr - 1 - k) 0| + 1 / 2 ^ 100)) →
      ∑ k ∈ Finset.range (ltpfWidth sr), |f k| ≤ m * (B + 1 / 2 ^ 90) := by
    intro row m B hm hB f hf
    refine le_trans (Finset.sum_le_sum fun k hk => hf k (Finset.mem_range.mp hk)) ?_
    rw [← Finset.mul_sum, Finset.sum_add_distrib, sum_range_list]
    refine mul_le_mul_of_nonneg_left (add_le_add hB ?_) hm
    have hw : ltpfWidth sr ≤ 12 := by revert hr; cases sr <;> decide
    have hw' : (ltpfWidth sr : Rat) ≤ 12 := by exact_mod_cast hw
    rw [Finset.sum_const, Finset.card_range, nsmul_eq_mul]
    norm_num; linarith
  rw [← ec]
  constructor
  · refine le_trans (hsum den (qf ^ 2 * (qf ^ 2 * (4 / 10) + 1 / 2 ^ 130)) _ (by positivity) t1 _ ?_) (by norm_num [qf, denMax])
    intro k hk
    rw [List.getD_eq_getElem?_getD, List.getElem?_append_left (by simpa using hk), List.getElem?_map, List.getElem?_range hk]
    exact hone gam _ _ hgm (by norm_num [qf]) (by norm_num [qf]) (hsz den _ (.inl (List.mem_of_getElem? ed)))
  · refine le_trans (hsum num (qf ^ 2 * (qf ^ 4 * (34 / 100) + 1 / 2 ^ 120)) _ (by positivity) t2 _ ?_) (by norm_num [qf, numMax])
    intro k hk
    rw [List.getD_eq_getElem?_getD, List.getElem?_append_right (by simp), List.getElem?_map]
    simp only [List.length_map, List.length_range, Nat.add_sub_cancel_left]
    rw [List.getElem?_range hk]
    exact hone _ _ _ hg85 (by norm_num [qf]) (by norm_num [qf]) (hsz num _ (.inr (List.mem_of_getElem? en)))

/-- A run of `synthesize_template`: bound of each sample. -/
theorem synth_boundF (ring : List Rat) (N lag : Nat) (x0 : List Rat) (x n : Nat) (c : List Rat) (w : Nat) (fade : Int)
    (hf : fade = -1 ∨ fade = 0 ∨ fade = 1) (hN : ring.length = N) (hw : 0 < w) (hw12 : w ≤ 12) (hc : 2 * w ≤ c.length) (hn : 0 < n) (hn2 : n ≤ 480)
    (hd : n % w = 0) (h0 : x0.length = w - 1) (hx : x + n ≤ N) (hl1 : w ≤ lag + w / 2) (hl2 : lag + w / 2 + n ≤ N)
    (hD : ∑ k ∈ Finset.range w, |c.getD k 0| ≤ denMax) (hNu : ∑ k ∈ Finset.range w, |c.getD (w + k) 0| ≤ numMax)
    (B V : Rat) (hB : 0 ≤ B) (hV : 1 / 2 ^ 100 ≤ V) (hBl : B ≤ 2 ^ 110) (hVl : V ≤ 2 ^ 110) (ξ : Nat → Rat) (hout : ∀ i, i < x ∨ x + n ≤ i → |ring.getD i 0| ≤ B)
    (hx0 : ∀ i < w - 1, |x0.getD i 0| + 1 / 2 ^ 100 ≤ V) (hin : ∀ t < n, |ring.getD (x + t) 0| + 1 / 2 ^ 100 ≤ ξ t) (hξ : ∀ t < n, ξ t ≤ V)
    (hb : ∀ t < n, qf * (ξ t + qf * ((fadeGain fade n t + 1 / 10000) * (qf ^ 25 * (denMax * B + numMax * V)))) ≤ B) :
    ∃ ring', synthTemplate (Arith.rounded rnd) ring N lag x0 x n c w fade = some ring' ∧ ring'.length = N ∧
      (∀ i, i < x ∨ x + n ≤ i → ring'.getD i 0 = ring.getD i 0) ∧
      ∀ t < n, |ring'.getD (x + t) 0| ≤ qf * (ξ t + qf * ((fadeGain fade n t + 1 / 10000) * (qf ^ 25 * (denMax * B + numMax * V)))) := by
  obtain ⟨r, e1, e2, e3, e4⟩ := synthTemplate_eq (Arith.rounded rnd) ring N lag x0 x n c w fade hN hw hc hn hd h0 hx hl1 hl2
  have e3' : ∀ i, i < x ∨ x + n ≤ i → r.getD i 0 = ring.getD i 0 := fun i hi => by
    rw [← at0_getDF h, ← at0_getDF h]; exact e3 i hi
  refine ⟨r, e1, e2, e3', ?_⟩
  refine pass_boundF h r (lag + w / 2) _ x n c w _ hw hw12 hl1 (by omega) (by omega) e4 B V hB hV hBl hVl
    hD hNu (fun i hi => by rw [e3' i hi]; exact hout i hi) ?_ ξ _ ?_ (fun t ht => (hξ t ht).trans hVl) (fade_boundF h fade hf n hn hn2)
    (fun t ht => by
      obtain ⟨g0, g1⟩ := fadeGain_range fade n t ht
      constructor <;> linarith) hb
  · intro i hi
    unfold inputs
    by_cases ci : i < w - 1
    · rw [if_pos ci, at0_getDF h]; exact hx0 i ci
    · rw [if_neg ci, at0_getDF h]; exact le_trans (hin _ (by omega)) (hξ _ (by omega))
  · intro t ht
    unfold inputs
    rw [if_neg (by omega), at0_getDF h, show w - 1 + t - (w - 1) = t by omega]
    exact hin t ht

end

/-- As `pass_two`, with room for the subnormal numbers. -/
theorem pass_twoF (M τ : Rat) (hM : 1 ≤ M) (h0 : 0 ≤ τ) (h1 : τ ≤ 1) :
    qf * (((1 + (1 - τ) * (2041 / 1000)) * M + M / 1000 + 1 / 2 ^ 100) + qf * ((τ + 1 / 10000) * (qf ^ 25 * (denMax * (ltpfMax * M) + numMax * (ltpfMax * M + 1 / 2 ^ 100))))) ≤
      ltpfMax * M := by
  have e : qf * (((1 + (1 - τ) * (2041 / 1000)) * M + M / 1000 + 1 / 2 ^ 100) + qf * ((τ + 1 / 10000) * (qf ^ 25 * (denMax * (ltpfMax * M) + numMax * (ltpfMax * M + 1 / 2 ^ 100))))) =
      qf * ((1 + (1 - τ) * (2041 / 1000)) * M + M / 1000) + (qf * qf * qf ^ 25 * ((denMax + numMax) * ltpfMax)) * (τ * M) +
      (qf * qf * qf ^ 25 * ((denMax + numMax) * ltpfMax) / 10000) * M + (qf / 2 ^ 100 + (qf * qf * qf ^ 25 * numMax / 2 ^ 100) * (τ + 1 / 10000)) := by ring
  rw [e]
  have hM0 : 0 ≤ M := by linarith
  have hτ : 0 ≤ (1 - τ) * M := mul_nonneg (by linarith) hM0
  have b0 : 0 ≤ (1 + (1 - τ) * (2041 / 1000)) * M + M / 1000 := by nlinarith
  have a1 : qf * ((1 + (1 - τ) * (2041 / 1000)) * M + M / 1000) ≤ (1 + 1 / 10000) * ((1 + (1 - τ) * (2041 / 1000)) * M + M / 1000) :=
    mul_le_mul_of_nonneg_right (by norm_num [qf]) b0
  have a2 : (qf * qf * qf ^ 25 * ((denMax + numMax) * ltpfMax)) * (τ * M) ≤ (3173 / 1000) * (τ * M) :=
    mul_le_mul_of_nonneg_right (by norm_num [qf, denMax, numMax, ltpfMax]) (mul_nonneg h0 hM0)
  have a3 : (qf * qf * qf ^ 25 * ((denMax + numMax) * ltpfMax) / 10000) * M ≤ (4 / 10000) * M :=
    mul_le_mul_of_nonneg_right (by norm_num [qf, denMax, numMax, ltpfMax]) hM0
  have a4 : (qf * qf * qf ^ 25 * numMax / 2 ^ 100) * (τ + 1 / 10000) ≤ 1 / 10000 * 2 :=
    mul_le_mul (by norm_num [qf, numMax]) (by linarith) (by linarith) (by norm_num)
  have a5 : qf / 2 ^ 100 ≤ 1 / 10000 := by norm_num [qf]
  have hτM : τ * M ≤ 1 * M := mul_le_mul_of_nonneg_right h1 hM0
  refine le_trans (add_le_add (add_le_add (add_le_add a1 a2) a3) (add_le_add a5 a4)) ?_
  unfold ltpfMax
  nlinarith

/-- What is bounded between two frames, in single precision. -/
structure LtpfBoundedF (sr : Srate) (M : Rat) (s : LtpfS Rat) : Prop where
  ok : s.Ok sr
  x : ∀ i, |s.x.getD i 0| + 1 / 2 ^ 100 ≤ M
  den : s.active = true → ∑ k ∈ Finset.range (ltpfWidth sr), |s.c.getD k 0| ≤ denMax
  num : s.active = true → ∑ k ∈ Finset.range (ltpfWidth sr), |s.c.getD (ltpfWidth sr + k) 0| ≤ numMax

section
variable {rnd : Rat → Rat} (h : RoundF rnd)
include h

/-- A frame. -/
theorem ltpf_frame_boundF (dt : Dt) (sr : Srate) (hsr : sr.hr = false) (M : Rat) (hM1 : 1 ≤ M) (hMl : M ≤ 2 ^ 105) (s : LtpfS Rat) (hs : LtpfBoundedF sr M s)
    (nbytes : Int) (data : Option LtpfData) (ring : List Rat) (x : Nat) (hx : FramePos dt sr x)
    (h0 : 0 ≤ nbytes) (h1 : nbytes ≤ sizeLimit) (hd : ∀ d, data = some d → d.pitchIndex < 512)
    (hr : ring.length = ns dt sr + nh dt sr) (hout : ∀ i, |ring.getD i 0| ≤ ltpfMax * M)
    (hin : ∀ t < ns dt sr, |ring.getD (x + t) 0| + 1 / 2 ^ 100 ≤ M) :
    ∃ s' ring', ltpfSynthesize (Arith.rounded rnd) dt sr nbytes s data ring x = some (s', ring') ∧ LtpfBoundedF sr M s' ∧
      ring'.length = ns dt sr + nh dt sr ∧ ∀ i, |ring'.getD i 0| ≤ ltpfMax * M := by
  obtain ⟨s', ring', e, hok, hlen, -⟩ := ltpfSynthesize_some (Arith.rounded rnd) dt sr hsr nbytes s hs.ok data ring x h0 h1 hd hr hx
  refine ⟨s', ring', e, ?_⟩
  have hM : 0 ≤ M := by linarith
  have hMe : 1 / 2 ^ 100 ≤ M := le_trans (by norm_num) hM1
  have hKl : ltpfMax * M ≤ 2 ^ 110 := by unfold ltpfMax; norm_num at hMl ⊢; linarith
  have hMl' : M ≤ 2 ^ 110 := hMl.trans (by norm_num)
  obtain ⟨d1, d2, d3, d4, d5, d6, d7, -⟩ := dims dt sr hsr
  obtain ⟨m1, m2⟩ := ns2m5_le dt sr hsr
  have hp : dataIndex data < 512 := by
    cases data with
    | none => exact Nat.zero_lt_succ _
    | some d => exact hd d rfl
  obtain ⟨l1, l2⟩ := lag_range dt sr hsr (dataIndex data) hp
  have l34 : s.active = true → ltpfWidth sr ≤ s.pitch / 4 + ltpfWidth sr / 2 ∧ s.pitch / 4 + ltpfWidth sr / 2 ≤ nh dt sr := by
    intro ha
    obtain ⟨p', hp', ep⟩ := hs.ok.pitch ha
    rw [ep]
    exact lag_range dt sr hsr p' hp'
  have hf := hx.fits
  have hb := hx.back
  obtain ⟨g, eg, hg0⟩ := gainIndex_some dt sr nbytes h0 h1
  have hKM : 0 ≤ ltpfMax * M := mul_nonneg (by norm_num [ltpfMax]) hM
  have hMK : M ≤ ltpfMax * M := by unfold ltpfMax; linarith
  unfold ltpfSynthesize at e
  dsimp only at e
  rw [eg, Option.bind_some] at e
  obtain ⟨c, ec, e⟩ := Option.bind_eq_some_iff.mp e
  obtain ⟨x00, ex, e⟩ := Option.bind_eq_some_iff.mp e
  obtain ⟨xe, ee, e⟩ := Option.bind_eq_some_iff.mp e
  obtain ⟨x01, ex1, e⟩ := Option.bind_eq_some_iff.mp e
  obtain ⟨r, er, e⟩ := Option.bind_eq_some_iff.mp e
  obtain ⟨e2, e3⟩ := Prod.mk.inj (Option.some.inj e)
  subst e3
  have hact4 : dataActive g data = true → g < 4 := by
    intro ha
    cases data with
    | none => cases ha
    | some d =>
      unfold dataActive at ha
      simp only [Bool.and_eq_true, decide_eq_true_eq] at ha
      exact ha.2
  generalize dataActive g data = active at *
  obtain ⟨cd, cn⟩ := coeffs_magF h sr hsr _ active g hg0 hact4 c ec
  obtain ⟨c', ec', hc⟩ := ltpfCoeffs_some (Arith.rounded rnd) sr hsr (outPitch sr (dataIndex data)) active g hg0
  rw [ec] at ec'
  obtain rfl := Option.some.inj ec'
  generalize outPitch sr (dataIndex data) = pt at *
  obtain ⟨a1, a2⟩ := slice?_eq s.x 0 0 (ltpfWidth sr - 1) (by omega) (by rw [hs.ok.x]; omega)
  rw [ex] at a1
  obtain rfl := Option.some.inj a1
  obtain ⟨b1, b2⟩ := slice?_eq ring (x + ns dt sr) (ltpfWidth sr - 1) (ltpfWidth sr - 1) (by omega) (by rw [hr]; omega)
  rw [ee] at b1
  obtain rfl := Option.some.inj b1
  have hx00 : ∀ i < ltpfWidth sr - 1, |((s.x.drop (0 - 0)).take (ltpfWidth sr - 1)).getD i 0| + 1 / 2 ^ 100 ≤ M := by
    intro i hi
    rw [getD_slice _ _ _ _ hi]
    exact hs.x _
  refine ⟨⟨hok, ?_, ?_, ?_⟩, hlen, ?_⟩
  · rw [← e2]
    intro i
    dsimp only
    by_cases hi : i < ltpfWidth sr - 1
    · rw [List.getD_eq_getElem?_getD, List.getElem?_append_left (by omega), ← List.getD_eq_getElem?_getD, getD_slice _ _ _ _ hi,
        show x + ns dt sr - (ltpfWidth sr - 1) + i = x + (ns dt sr - (ltpfWidth sr - 1) + i) by omega]
      exact hin _ (by omega)
    · rw [List.getD_eq_getElem?_getD, List.getElem?_append_right (by omega), b2, List.getElem?_drop, ← List.getD_eq_getElem?_getD]
      exact hs.x _
  · intro _
    rw [← e2]
    dsimp only
    refine le_trans (le_of_eq (Finset.sum_congr rfl fun k hk => ?_)) cd
    rw [Finset.mem_range] at hk
    rw [List.getD_eq_getElem?_getD, List.getElem?_append_left (by omega), ← List.getD_eq_getElem?_getD]
  · intro _
    rw [← e2]
    dsimp only
    refine le_trans (le_of_eq (Finset.sum_congr rfl fun k hk => ?_)) cn
    rw [Finset.mem_range] at hk
    rw [List.getD_eq_getElem?_getD, List.getElem?_append_left (by omega), ← List.getD_eq_getElem?_getD]
  clear e2 ec ee hok
  have hsx := hs.ok.x
  have hsc := hs.ok.c
  have hden := hs.den
  have hnum := hs.num
  generalize hN : ns dt sr + nh dt sr = N at *
  generalize hnt : ns dt sr / (1 + dt.idx) = nt at *
  generalize ltpfWidth sr = w at *
  generalize hn : ns dt sr = n at *
  generalize nh dt sr = nhh at *
  -- the first stage
  have one : ∀ (fade : Int) (lag : Nat) (cc : List Rat), (fade = -1 ∨ fade = 0 ∨ fade = 1) → 2 * w ≤ cc.length →
      ∑ k ∈ Finset.range w, |cc.getD k 0| ≤ denMax → ∑ k ∈ Finset.range w, |cc.getD (w + k) 0| ≤ numMax →
      w ≤ lag + w / 2 → lag + w / 2 ≤ nhh →
      ∃ r1, synthTemplate (Arith.rounded rnd) ring N lag ((s.x.drop (0 - 0)).take (w - 1)) x nt cc w fade = some r1 ∧ r1.length = N ∧
        (∀ i, i < x ∨ x + nt ≤ i → r1.getD i 0 = ring.getD i 0) ∧
        ∀ t < nt, |r1.getD (x + t) 0| ≤ (1 + fadeGain fade nt t * (2041 / 1000)) * M + M / 1000 := by
    intro fade lag cc hfade hcl hcd hcn hl1 hl2
    obtain ⟨r1, q1, q2, q3, q4⟩ := synth_boundF h ring N lag _ x nt cc w fade hfade hr (by omega) d2 hcl d3 m2 d4 a2 (by omega) hl1 (by omega)
      hcd hcn (ltpfMax * M) M hKM hMe hKl hMl' (fun _ => M) (fun i _ => hout i) hx00 (fun t ht => hin t (by omega)) (fun _ _ => le_refl _)
      (fun t ht => pass_one_max M _ hM (fadeGain_range fade nt t ht).1 (fadeGain_range fade nt t ht).2)
    exact ⟨r1, q1, q2, q3, fun t ht => le_trans (q4 t ht) (pass_one M _ hM (fadeGain_range fade nt t ht).1 (fadeGain_range fade nt t ht).2)⟩
  have max1 : ∀ (fade : Int) (t : Nat), t < nt → (1 + fadeGain fade nt t * (2041 / 1000)) * M + M / 1000 ≤ ltpfMax * M := by
    intro fade t ht
    have := mul_le_mul_of_nonneg_right (fadeGain_range fade nt t ht).2 hM
    unfold ltpfMax
    linarith
  have first : ∀ r1, ltpfTransition (Arith.rounded rnd) s ring N x nt w pt active c ((s.x.drop (0 - 0)).take (w - 1)) = some r1 →
      r1.length = N ∧ (∀ i, i < x ∨ x + nt ≤ i → r1.getD i 0 = ring.getD i 0) ∧ ∀ t < nt, |r1.getD (x + t) 0| ≤ ltpfMax * M := by
    intro r1 et
    unfold ltpfTransition at et
    by_cases c1 : (!s.active && active) = true
    · rw [if_pos c1] at et
      obtain ⟨q, q1, q2, q3, q4⟩ := one 1 (pt / 4) c (by simp) (by omega) cd cn l1 l2
      rw [et] at q1
      obtain rfl := Option.some.inj q1
      exact ⟨q2, q3, fun t ht => le_trans (q4 t ht) (max1 1 t ht)⟩
    rw [if_neg c1] at et
    by_cases c2 : (s.active && !active) = true
    · rw [if_pos c2] at et
      have hsa : s.active = true := by simp only [Bool.and_eq_true] at c2; exact c2.1
      obtain ⟨l3, l4⟩ := l34 hsa
      obtain ⟨q, q1, q2, q3, q4⟩ := one (-1) (s.pitch / 4) s.c (by simp) (by omega) (hden hsa) (hnum hsa) l3 l4
      rw [et] at q1
      obtain rfl := Option.some.inj q1
      exact ⟨q2, q3, fun t ht => le_trans (q4 t ht) (max1 (-1) t ht)⟩
    rw [if_neg c2] at et
    by_cases c3 : (s.active && active && decide (s.pitch = pt)) = true
    · rw [if_pos c3] at et
      obtain ⟨q, q1, q2, q3, q4⟩ := one 0 (pt / 4) c (by simp) (by omega) cd cn l1 l2
      rw [et] at q1
      obtain rfl := Option.some.inj q1
      exact ⟨q2, q3, fun t ht => le_trans (q4 t ht) (max1 0 t ht)⟩
    rw [if_neg c3] at et
    by_cases c4 : (s.active && active) = true
    · rw [if_pos c4] at et
      have hsa : s.active = true := by simp only [Bool.and_eq_true] at c4; exact c4.1
      obtain ⟨l3, l4⟩ := l34 hsa
      obtain ⟨mid, q1, q2, q3, q4⟩ := one (-1) (s.pitch / 4) s.c (by simp) (by omega) (hden hsa) (hnum hsa) l3 l4
      rw [q1, Option.bind_some] at et
      obtain ⟨s1, s2⟩ := slice?_eq mid (if x ≤ 0 then x + N else x) (w - 1) (w - 1)
        (by split <;> omega) (by rw [q2]; split <;> omega)
      rw [s1, Option.bind_some] at et
      have hmid : ∀ i, |mid.getD i 0| ≤ ltpfMax * M := by
        intro i
        by_cases hi : i < x ∨ x + nt ≤ i
        · rw [q3 i hi]; exact hout i
        · have := q4 (i - x) (by omega)
          rw [show x + (i - x) = i by omega] at this
          exact le_trans this (max1 (-1) _ (by omega))
      have hfg : ∀ t, fadeGain (-1) nt t = 1 - fadeGain 1 nt t := by intro t; unfold fadeGain; simp
      have h2 : ∀ t < nt, qf * ((1 + fadeGain (-1) nt t * (2041 / 1000)) * M + M / 1000 + 1 / 2 ^ 100 + qf * ((fadeGain 1 nt t + 1 / 10000) *
          (qf ^ 25 * (denMax * (ltpfMax * M) + numMax * (ltpfMax * M + 1 / 2 ^ 100))))) ≤ ltpfMax * M := by
        intro t ht
        rw [hfg]
        exact pass_twoF M _ hM1 (fadeGain_range 1 nt t ht).1 (fadeGain_range 1 nt t ht).2
      obtain ⟨q, p1, p2, p3, p4⟩ := synth_boundF h mid N (pt / 4) _ x nt c w 1 (by simp) q2 (by omega) d2 (by omega) d3 m2 d4 s2 (by omega) l1
        (by omega) cd cn (ltpfMax * M) (ltpfMax * M + 1 / 2 ^ 100) hKM (by linarith) hKl (by unfold ltpfMax; norm_num at hMl ⊢; linarith)
        (fun t => (1 + fadeGain (-1) nt t * (2041 / 1000)) * M + M / 1000 + 1 / 2 ^ 100)
        (fun i _ => hmid i) (fun i hi => by rw [getD_slice _ _ _ _ hi]; exact add_le_add_left (hmid _) _)
        (fun t ht => add_le_add_left (q4 t ht) _) (fun t ht => add_le_add_left (max1 (-1) t ht) _) h2
      rw [et] at p1
      obtain rfl := Option.some.inj p1
      exact ⟨p2, fun i hi => by rw [p3 i hi, q3 i hi], fun t ht => le_trans (p4 t ht) (h2 t ht)⟩
    · rw [if_neg c4] at et
      obtain rfl := Option.some.inj et
      exact ⟨hr, fun _ _ => rfl, fun t ht => hout _⟩
  unfold ltpfFilter at er
  obtain ⟨r1, et, er⟩ := Option.bind_eq_some_iff.mp er
  obtain ⟨f1, f2, f3⟩ := first r1 et
  have hr1 : ∀ i, |r1.getD i 0| ≤ ltpfMax * M := by
    intro i
    by_cases hi : i < x ∨ x + nt ≤ i
    · rw [f2 i hi]; exact hout i
    · have := f3 (i - x) (by omega)
      rw [show x + (i - x) = i by omega] at this
      exact this
  by_cases c5 : active = true ∧ n > nt
  · rw [if_pos c5] at er
    obtain ⟨c1, c2⟩ := slice?_eq ring (x + nt) (w - 1) (w - 1) (by omega) (by rw [hr]; omega)
    rw [if_pos c5.1, c1] at ex1
    obtain rfl := Option.some.inj ex1
    have h2 : ∀ t < n - nt, qf * (M + qf * ((fadeGain 0 (n - nt) t + 1 / 10000) * (qf ^ 25 * (denMax * (ltpfMax * M) + numMax * M)))) ≤ ltpfMax * M :=
      fun t ht => pass_one_max M _ hM (fadeGain_range 0 _ t ht).1 (fadeGain_range 0 _ t ht).2
    obtain ⟨q, p1, p2, p3, p4⟩ := synth_boundF h r1 N (pt / 4) _ (x + nt) (n - nt) c w 0 (by simp) f1 (by omega) d2 (by omega) (by omega) (by omega) d6 c2
      (by omega) l1 (by omega) cd cn (ltpfMax * M) M hKM hMe hKl hMl' (fun _ => M) (fun i _ => hr1 i)
      (fun i hi => by
        rw [getD_slice _ _ _ _ hi, show x + nt - (w - 1) + i = x + (nt - (w - 1) + i) by omega]
        exact hin _ (by omega))
      (fun t ht => by
        rw [f2 _ (by omega), Nat.add_assoc]
        exact hin _ (by omega)) (fun _ _ => le_refl _) h2
    rw [er] at p1
    obtain rfl := Option.some.inj p1
    intro i
    by_cases hi : i < x + nt ∨ x + nt + (n - nt) ≤ i
    · rw [p3 i hi]; exact hr1 i
    · have := p4 (i - (x + nt)) (by omega)
      rw [show x + nt + (i - (x + nt)) = i by omega] at this
      exact le_trans this (h2 _ (by omega))
  · rw [if_neg c5] at er
    obtain rfl := Option.some.inj er
    exact hr1

end

end LC3
