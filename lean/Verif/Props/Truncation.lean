import Verif.Lemmas.RateExact
import Verif.Props.GainSearch

/-!
Properties of the truncation of the spectrum: C80 (nothing that fits is dropped).
-/

namespace LC3

theorem Costed.count {ops : List Op} {P N : Nat} (h : Costed ops P N) : N ≤ ops.length := by
  induction h with
  | nil => exact Nat.le_refl _
  | bit _ ih => exact Nat.le_succ_of_le ih
  | sym _ _ ih => exact Nat.succ_le_succ ih

theorem rateSum_pair (hrate lsb : Bool) (ne i state a b : Nat) (l : List Nat) : rateSum hrate lsb ne i state (a :: b :: l) =
    ((ratePair (lutOf hrate ne i state) lsb a b).nbits + (rateSum hrate lsb ne (i + 2) (nextState state (ratePair (lutOf hrate ne i state) lsb a b).k
        (ratePair (lutOf hrate ne i state) lsb a b).a (ratePair (lutOf hrate ne i state) lsb a b).b) l).1,
      (ratePair (lutOf hrate ne i state) lsb a b).lsb + (rateSum hrate lsb ne (i + 2) (nextState state (ratePair (lutOf hrate ne i state) lsb a b).k
        (ratePair (lutOf hrate ne i state) lsb a b).a (ratePair (lutOf hrate ne i state) lsb a b).b) l).2) := by
  conv => lhs; unfold rateSum

theorem rateSum_nonneg (hrate lsb : Bool) (ne i state : Nat) (l : List Nat) (hl : ∀ a ∈ l, a < 2 ^ 32) :
    0 ≤ (rateSum hrate lsb ne i state l).1 := by
  fun_induction rateSum hrate lsb ne i state l with
  | case1 i state a b l w r ih =>
    have h1 := ih (fun x hx => hl x (by simp [hx]))
    have h2 := (ratePair_bounds (lutOf hrate ne i state) lsb a b (hl a (by simp)) (hl b (by simp))).1
    dsimp only
    exact Int.add_nonneg h2 h1
  | case2 => exact Int.le_refl _

theorem rateSum_take_le (hrate lsb : Bool) (ne i state : Nat) (l : List Nat) (hl : ∀ a ∈ l, a < 2 ^ 32) (j : Nat) (hj : j % 2 = 0) :
    (rateSum hrate lsb ne i state (l.take j)).1 ≤ (rateSum hrate lsb ne i state l).1 := by
  fun_induction rateSum hrate lsb ne i state l generalizing j with
  | case1 i state a b l w r ih =>
    match j, hj with
    | 0, _ =>
      have := rateSum_nonneg hrate lsb ne i state (a :: b :: l) hl
      rw [rateSum_pair] at this
      rw [List.take_zero, rateSum_nil]
      exact this
    | 1, h => omega
    | j + 2, h =>
      rw [List.take_succ_cons, List.take_succ_cons, rateSum_pair]
      exact Int.add_le_add_left (ih (fun x hx => hl x (by simp [hx])) j (by omega)) _
  | case2 l i state h =>
    match l, h, j with
    | [], _, j => rw [List.take_nil, rateSum_nil]
    | [a], _, 0 => rw [List.take_zero, rateSum_nil]
    | [a], _, j + 1 => rw [List.take_succ_cons, List.take_nil]; unfold rateSum; exact Int.le_refl _
    | a :: b :: l, h, j => exact absurd rfl (h a b l)

theorem rateLoop_nEnd_ge (hrate lsb : Bool) (ne : Nat) (lim : Int) (i : Nat) (st : RateSt) (l : List Nat) (h : st.nEnd ≤ i) :
    st.nEnd ≤ (rateLoop hrate lsb ne lim i st l).nEnd := by
  fun_induction rateLoop hrate lsb ne lim i st l with
  | case1 i st a b l hle ih =>
    have h1 : st.nEnd ≤ (rateStep hrate lsb ne lim i st a b).nEnd ∧ (rateStep hrate lsb ne lim i st a b).nEnd ≤ i + 2 := by
      unfold rateStep
      dsimp only
      split <;> omega
    exact le_trans h1.1 (ih h1.2)
  | case2 => exact Nat.le_refl _
  | case3 => exact Nat.le_refl _

/-- A significant pair whose prefix fits in the limit is retained. -/
theorem rateLoop_max (hrate lsb : Bool) (ne : Nat) (lim : Int) (i : Nat) (st : RateSt) (l : List Nat) (hl : ∀ a ∈ l, a < 2 ^ 32) (hi : st.nEnd ≤ i)
    (j : Nat) (hj : j % 2 = 0) (hj2 : j + 2 ≤ l.length) (hnz : l.getD j 0 ≠ 0 ∨ l.getD (j + 1) 0 ≠ 0)
    (hfit : st.nbits + (rateSum hrate lsb ne i st.state (l.take (j + 2))).1 ≤ lim) :
    i + j + 2 ≤ (rateLoop hrate lsb ne lim i st l).nEnd := by
  fun_induction rateLoop hrate lsb ne lim i st l generalizing j with
  | case1 i st a b l hle ih =>
    rw [List.take_succ_cons, List.take_succ_cons, rateSum_pair] at hfit
    dsimp only at hfit
    have h1 : (rateStep hrate lsb ne lim i st a b).nEnd ≤ i + 2 := by
      unfold rateStep
      dsimp only
      split <;> omega
    match j, hj with
    | 0, _ =>
      rw [List.take_zero, rateSum_nil] at hfit
      have hs := (ratePair_bounds (lutOf hrate ne i st.state) lsb a b (hl a (by simp)) (hl b (by simp))).2.2.2
      have e : (rateStep hrate lsb ne lim i st a b).nEnd = i + 2 := by
        unfold rateStep
        dsimp only
        rw [if_pos]
        rw [Bool.and_eq_true, decide_eq_true_eq, decide_eq_true_eq]
        refine ⟨?_, by dsimp only at hfit; omega⟩
        rw [hs]
        rcases hnz with h | h
        · have : b2n (decide (a ≠ 0)) = 1 := by rw [decide_eq_true (show a ≠ 0 from h)]; rfl
          omega
        · have : b2n (decide (b ≠ 0)) = 1 := by rw [decide_eq_true (show b ≠ 0 from h)]; rfl
          omega
      have := rateLoop_nEnd_ge hrate lsb ne lim (i + 2) (rateStep hrate lsb ne lim i st a b) l h1
      omega
    | 1, h => omega
    | j + 2, h =>
      have hlen : (a :: b :: l).length = l.length + 2 := rfl
      have := ih (fun x hx => hl x (by simp [hx])) h1 j (by omega) (by omega) hnz (by
        change st.nbits + (ratePair (lutOf hrate ne i st.state) lsb a b).nbits + _ ≤ lim
        rw [Int.add_assoc]
        exact hfit)
      omega
  | case2 i st a b l hle =>
    have := rateSum_nonneg hrate lsb ne i st.state ((a :: b :: l).take (j + 2)) (fun x hx => hl x (List.mem_of_mem_take hx))
    omega
  | case3 l i st h =>
    match l, h with
    | [], _ => simp at hj2
    | [_], _ => simp at hj2
    | a :: b :: l, h => exact absurd rfl (h a b l)

theorem rateLoop_last (hrate lsb : Bool) (ne : Nat) (lim : Int) (i : Nat) (st : RateSt) (l : List Nat) (hl : ∀ a ∈ l, a < 2 ^ 32) :
    (rateLoop hrate lsb ne lim i st l).nEnd = st.nEnd ∨
    ∃ j, (rateLoop hrate lsb ne lim i st l).nEnd = i + j + 2 ∧ (l.getD j 0 ≠ 0 ∨ l.getD (j + 1) 0 ≠ 0) := by
  fun_induction rateLoop hrate lsb ne lim i st l with
  | case1 i st a b l hle ih =>
    rcases ih (fun x hx => hl x (by simp [hx])) with h | ⟨j, h, hz⟩
    · have hs := (ratePair_bounds (lutOf hrate ne i st.state) lsb a b (hl a (by simp)) (hl b (by simp))).2.2.2
      by_cases hacc : (decide ((ratePair (lutOf hrate ne i st.state) lsb a b).s ≠ 0) &&
          decide (st.nbits + (ratePair (lutOf hrate ne i st.state) lsb a b).nbits ≤ lim)) = true
      · refine Or.inr ⟨0, ?_, ?_⟩
        · rw [h]; unfold rateStep; dsimp only; rw [if_pos hacc]
        · rw [Bool.and_eq_true, decide_eq_true_eq] at hacc
          have h2 := hacc.1
          rw [hs] at h2
          show a ≠ 0 ∨ b ≠ 0
          by_contra hc
          rw [not_or, not_not, not_not] at hc
          rw [hc.1, hc.2] at h2
          exact h2 rfl
      · refine Or.inl ?_
        rw [h]; unfold rateStep; dsimp only; rw [if_neg hacc]
    · exact Or.inr ⟨j + 2, by omega, hz⟩
  | case2 => exact Or.inl rfl
  | case3 => exact Or.inl rfl

theorem rateLoop_lsb_le (hrate lsb : Bool) (ne : Nat) (lim : Int) (i : Nat) (st : RateSt) (l : List Nat) :
    (rateLoop hrate lsb ne lim i st l).lsb ≤ st.lsb + (rateSum hrate lsb ne i st.state l).2 := by
  fun_induction rateLoop hrate lsb ne lim i st l with
  | case1 i st a b l hle ih =>
    rw [rateSum_pair]
    refine le_trans ih ?_
    have : (rateStep hrate lsb ne lim i st a b).lsb = st.lsb + (ratePair (lutOf hrate ne i st.state) lsb a b).lsb := rfl
    rw [this, Nat.add_assoc]
    exact Nat.le_refl _
  | case2 => exact Nat.le_add_right _ _
  | case3 => exact Nat.le_add_right _ _

/-- **C80**, the truncation. Whatever the spectrum and a positive budget: the last pair retained is significant, and a significant pair is dropped only when
writing the spectrum up to it, with the least significant bits left out when this is allowed, costs more than the budget, within the rounding of the costs
(less than 1/2048 bit by operation) and the signs of the values of 1 left with the least significant bits. -/
theorem C80_truncation (dt : Dt) (sr : Srate) (nbytes : Nat) (c : List Coef) (hc : ∀ p ∈ c, p.1 < 2 ^ 32) (budget : Int) (hb : 0 < budget) :
    let r := computeNbits dt sr nbytes (c.map Prod.fst) budget
    (r.n ≠ 0 → (c.map Prod.fst).getD (r.n - 2) 0 ≠ 0 ∨ (c.map Prod.fst).getD (r.n - 1) 0 ≠ 0) ∧
    ∀ j, j % 2 = 0 → r.n ≤ j → j + 2 ≤ c.length → ((c.map Prod.fst).getD j 0 ≠ 0 ∨ (c.map Prod.fst).getD (j + 1) 0 ≠ 0) →
      ∃ ops, (∀ b, putQuantized (highRate sr nbytes) (lsbAllowed sr nbytes) (ne dt sr) 0 0 (c.take (j + 2)) b = putOps b ops) ∧
        (budget : ℝ) < idealCost ops + hiddenCount (lsbAllowed sr nbytes) ((c.take (j + 2)).map Prod.fst) + (ops.length : ℝ) / 2048 := by
  intro r
  have hm : ∀ a ∈ c.map Prod.fst, a < 2 ^ 32 := by
    intro a ha
    obtain ⟨p, hp, rfl⟩ := List.mem_map.mp ha
    exact hc p hp
  have hr : r.n = (rateLoop (highRate sr nbytes) (lsbAllowed sr nbytes) (ne dt sr) (budget * 2048) 0 {} (c.map Prod.fst)).nEnd := by
    show (computeNbits dt sr nbytes (c.map Prod.fst) budget).n = _
    unfold computeNbits
    dsimp only
    rw [if_pos (show budget ≠ 0 by omega)]
  constructor
  · intro h0
    rw [hr] at h0 ⊢
    rcases rateLoop_last (highRate sr nbytes) (lsbAllowed sr nbytes) (ne dt sr) (budget * 2048) 0 {} (c.map Prod.fst) hm with h | ⟨j, h, hz⟩
    · exact absurd h h0
    · rw [h, show 0 + j + 2 - 2 = j by omega, show 0 + j + 2 - 1 = j + 1 by omega]
      exact hz
  · intro j hj hn hlen hz
    refine ⟨_, fun b => putQuantized_ops _ _ _ _ _ _ b, ?_⟩
    have hct : ∀ p ∈ c.take (j + 2), p.1 < 2 ^ 32 := fun p hp => hc p (List.mem_of_mem_take hp)
    obtain ⟨P, hP, hle⟩ := quantized_costed (highRate sr nbytes) (lsbAllowed sr nbytes) (lsbAllowed sr nbytes) id (ne dt sr) 0 0 (by decide)
      (c.take (j + 2)) hct
    rw [if_pos rfl, Int.add_zero] at hle
    have hx : budget * 2048 < (rateSum (highRate sr nbytes) (lsbAllowed sr nbytes) (ne dt sr) 0 0 ((c.take (j + 2)).map Prod.fst)).1 := by
      by_contra hcon
      have := rateLoop_max (highRate sr nbytes) (lsbAllowed sr nbytes) (ne dt sr) (budget * 2048) 0 {} (c.map Prod.fst) hm (Nat.le_refl _) j hj
        (by rw [List.length_map]; exact hlen) hz (by
          rw [← List.map_take]
          change (0 : Int) + (rateSum (highRate sr nbytes) (lsbAllowed sr nbytes) (ne dt sr) 0 0 ((c.take (j + 2)).map Prod.fst)).1 ≤ _
          omega)
      omega
    rw [← hle] at hx
    have h1 := hP.ideal.2
    have h2 : (symCount ((c.take (j + 2)).map Prod.fst) : ℝ) ≤ _ := Nat.cast_le.mpr hP.count
    have h3 : ((budget * 2048 : Int) : ℝ) < ((P + 2048 * (hiddenCount (lsbAllowed sr nbytes) ((c.take (j + 2)).map Prod.fst)) : Int) : ℝ) :=
      Int.cast_lt.mpr hx
    push_cast at h3
    rw [sub_div, sub_le_iff_le_add] at h1
    have h4 : (symCount ((c.take (j + 2)).map Prod.fst) : ℝ) / 2048 ≤
      ((opsQuantized (highRate sr nbytes) (lsbAllowed sr nbytes) (ne dt sr) 0 0 (c.take (j + 2))).length : ℝ) / 2048 := by
      gcongr
    have h5 : (budget : ℝ) < (P : ℝ) / 2048 + hiddenCount (lsbAllowed sr nbytes) ((c.take (j + 2)).map Prod.fst) := by
      have : (P : ℝ) / 2048 * 2048 = P := by ring
      linarith
    linarith

/-- **C80**, the least significant bits. They are left out of the spectrum, or a significant pair is dropped, only when writing the whole spectrum in full
costs more than the budget, within the same tolerances. -/
theorem C80_full (dt : Dt) (sr : Srate) (nbytes : Nat) (c : List Coef) (hc : ∀ p ∈ c, p.1 < 2 ^ 32) (he : c.length % 2 = 0) (budget : Int)
    (hb : 0 < budget) :
    let r := computeNbits dt sr nbytes (c.map Prod.fst) budget
    (r.lsbMode = true ∨ ∃ p ∈ c.drop r.n, p.1 ≠ 0) →
      ∃ ops, (∀ b, putQuantized (highRate sr nbytes) false (ne dt sr) 0 0 c b = putOps b ops) ∧
        (budget : ℝ) < idealCost ops + hiddenCount (lsbAllowed sr nbytes) (c.map Prod.fst) + (ops.length : ℝ) / 2048 := by
  intro r hcase
  have hm : ∀ a ∈ c.map Prod.fst, a < 2 ^ 32 := by
    intro a ha
    obtain ⟨p, hp, rfl⟩ := List.mem_map.mp ha
    exact hc p hp
  refine ⟨_, fun b => putQuantized_ops _ _ _ _ _ _ b, ?_⟩
  obtain ⟨P, hP, hle⟩ := quantized_costed (highRate sr nbytes) false (lsbAllowed sr nbytes) (by simp) (ne dt sr) 0 0 (by decide) c hc
  have hx : budget * 2048 < (P : Int) + 2048 * hiddenCount (lsbAllowed sr nbytes) (c.map Prod.fst) := by
    rw [hle]
    have hr : r.n = (rateLoop (highRate sr nbytes) (lsbAllowed sr nbytes) (ne dt sr) (budget * 2048) 0 {} (c.map Prod.fst)).nEnd ∧
        r.lsbMode = (lsbAllowed sr nbytes && decide ((rateLoop (highRate sr nbytes) (lsbAllowed sr nbytes) (ne dt sr) (budget * 2048) 0 {}
          (c.map Prod.fst)).nbitsEnd + 2048 * ((rateLoop (highRate sr nbytes) (lsbAllowed sr nbytes) (ne dt sr) (budget * 2048) 0 {}
          (c.map Prod.fst)).lsb : Int) > budget * 2048)) := by
      show (computeNbits dt sr nbytes (c.map Prod.fst) budget).n = _ ∧ (computeNbits dt sr nbytes (c.map Prod.fst) budget).lsbMode = _
      unfold computeNbits
      dsimp only
      rw [if_pos (show budget ≠ 0 by omega)]
      exact ⟨rfl, rfl⟩
    have hge : (rateSum (highRate sr nbytes) (lsbAllowed sr nbytes) (ne dt sr) 0 0 (c.map Prod.fst)).1 ≤
        (rateSum (highRate sr nbytes) (lsbAllowed sr nbytes) (ne dt sr) 0 0 (c.map Prod.fst)).1 +
          (if false = lsbAllowed sr nbytes then 0 else
            2048 * ((rateSum (highRate sr nbytes) (lsbAllowed sr nbytes) (ne dt sr) 0 0 (c.map Prod.fst)).2 : Int)) := by
      split <;> omega
    rcases hcase with h | ⟨p, hp, hz⟩
    · rw [hr.2, Bool.and_eq_true, decide_eq_true_eq] at h
      obtain ⟨ha, h⟩ := h
      rw [ha, if_neg (by simp)]
      rw [ha] at h
      have h1 := rateLoop_lsb_le (highRate sr nbytes) true (ne dt sr) (budget * 2048) 0 {} (c.map Prod.fst)
      obtain ⟨j, j0, j1, -, j3⟩ := rateLoop_prefix (highRate sr nbytes) true (ne dt sr) (budget * 2048) 0 {} (c.map Prod.fst)
      have h2 := rateSum_take_le (highRate sr nbytes) true (ne dt sr) 0 0 (c.map Prod.fst) hm j j0
      have h3 := rateSum_nonneg (highRate sr nbytes) true (ne dt sr) 0 0 (c.map Prod.fst) hm
      generalize rateLoop (highRate sr nbytes) true (ne dt sr) (budget * 2048) 0 {} (c.map Prod.fst) = st at *
      change st.lsb ≤ 0 + (rateSum (highRate sr nbytes) true (ne dt sr) 0 0 (c.map Prod.fst)).2 at h1
      rcases j3 with ⟨-, -, k⟩ | ⟨-, -, k, -⟩
      · change st.nbitsEnd = 0 at k
        omega
      · change st.nbitsEnd = 0 + (rateSum (highRate sr nbytes) true (ne dt sr) 0 0 ((c.map Prod.fst).take j)).1 at k
        omega
    · refine lt_of_lt_of_le ?_ hge
      by_contra hcon
      obtain ⟨k, hk, hk2⟩ := List.mem_iff_getElem.mp hp
      rw [List.length_drop] at hk
      rw [List.getElem_drop] at hk2
      have heven := (C38_written_in_budget dt sr nbytes c hc budget hb).1
      have hnr : r.n % 2 = 0 := heven
      have hget : (c.map Prod.fst).getD (r.n + k) 0 ≠ 0 := by
        rw [List.getD_eq_getElem _ _ (by rw [List.length_map]; omega), List.getElem_map, hk2]
        exact hz
      have key : ∀ j, j % 2 = 0 → r.n ≤ j → j + 2 ≤ c.length → ((c.map Prod.fst).getD j 0 ≠ 0 ∨ (c.map Prod.fst).getD (j + 1) 0 ≠ 0) → False := by
        intro j hj hn hlen hz
        have h1 := rateSum_take_le (highRate sr nbytes) (lsbAllowed sr nbytes) (ne dt sr) 0 0 (c.map Prod.fst) hm (j + 2) (by omega)
        have := rateLoop_max (highRate sr nbytes) (lsbAllowed sr nbytes) (ne dt sr) (budget * 2048) 0 {} (c.map Prod.fst) hm (Nat.le_refl _) j hj
          (by rw [List.length_map]; exact hlen) hz (by
            change (0 : Int) + (rateSum (highRate sr nbytes) (lsbAllowed sr nbytes) (ne dt sr) 0 0 ((c.map Prod.fst).take (j + 2))).1 ≤ _
            omega)
        have hrn : r.n = (rateLoop (highRate sr nbytes) (lsbAllowed sr nbytes) (ne dt sr) (budget * 2048) 0 {} (c.map Prod.fst)).nEnd := hr.1
        omega
      rcases Nat.mod_two_eq_zero_or_one k with h | h
      · exact key (r.n + k) (by omega) (by omega) (by omega) (Or.inl hget)
      · refine key (r.n + k - 1) (by omega) (by omega) (by omega) (Or.inr ?_)
        rw [show r.n + k - 1 + 1 = r.n + k by omega]
        exact hget
  have h1 := hP.ideal.2
  have h2 : (symCount (c.map Prod.fst) : ℝ) ≤ _ := Nat.cast_le.mpr hP.count
  have h3 : ((budget * 2048 : Int) : ℝ) < ((P + 2048 * (hiddenCount (lsbAllowed sr nbytes) (c.map Prod.fst)) : Int) : ℝ) := Int.cast_lt.mpr hx
  push_cast at h3
  rw [sub_div, sub_le_iff_le_add] at h1
  have h4 : (symCount (c.map Prod.fst) : ℝ) / 2048 ≤ ((opsQuantized (highRate sr nbytes) false (ne dt sr) 0 0 c).length : ℝ) / 2048 := by
    gcongr
  have h5 : (budget : ℝ) < (P : ℝ) / 2048 + hiddenCount (lsbAllowed sr nbytes) (c.map Prod.fst) := by
    have : (P : ℝ) / 2048 * 2048 = P := by ring
    linarith
  linarith

/-- The coefficients considered by the last count of `lc3_spec_analyze`: the others are not significant. -/
theorem specAnalyze_count (A : Arith R) (G : GainMath R) (dt : Dt) (sr : Srate) (nbytes : Nat) (pitch : Bool) (tns : TnsData)
    (st st' : SpecSt R) (x y : List R) (hx : x.length = ne dt sr) (side : SpecSide)
    (h : specAnalyze A G dt sr nbytes pitch tns st x = some (st', y, side)) :
    ∃ n, n % 2 = 0 ∧ n ≤ ne dt sr ∧ y.length = ne dt sr ∧
      (∀ p ∈ (y.take n).map (quantCoef A sr.hr), p.1 < 2 ^ 32) ∧
      side.nq = (computeNbits dt sr nbytes (((y.take n).map (quantCoef A sr.hr)).map Prod.fst) (specBudget dt sr nbytes pitch tns)).n ∧
      side.lsbMode = (computeNbits dt sr nbytes (((y.take n).map (quantCoef A sr.hr)).map Prod.fst) (specBudget dt sr nbytes pitch tns)).lsbMode ∧
      ∀ v ∈ y.drop n, A.le (A.ofRat (xqMin sr)) (A.abs v) = false ∨ (quantCoef A sr.hr v).1 = 0 := by
  unfold specAnalyze at h
  dsimp only at h
  obtain ⟨est, hest, h⟩ := Option.bind_eq_some_iff.mp h
  obtain ⟨⟨q, n1⟩, hq, h⟩ := Option.bind_eq_some_iff.mp h
  split at h
  · cases h
  obtain ⟨m1, hm1, h⟩ := Option.bind_eq_some_iff.mp h
  obtain ⟨⟨q2, n2⟩, hq2, h⟩ := Option.bind_eq_some_iff.mp h
  split at h
  · cases h
  obtain ⟨m2, hm2, h⟩ := Option.bind_eq_some_iff.mp h
  split at h
  · cases h
  rename_i hg0
  injection h with h
  rw [Prod.mk.injEq, Prod.mk.injEq] at h
  obtain ⟨-, hy, hside⟩ := h
  obtain ⟨u, k, hu, e1, k1, k2, k3⟩ := quantize_some A dt sr est.gInt x hx
  rw [hq] at e1
  injection e1 with e1
  rw [Prod.mk.injEq] at e1
  obtain ⟨eq1, en1⟩ := e1
  have hqlen : q.length = ne dt sr := by rw [eq1, List.length_map]; exact hx
  obtain ⟨em1, hm1⟩ := magnitudes_spec _ _ _ _ _ hm1
  have hne : ne dt sr ≤ 960 := by cases dt <;> cases sr <;> decide
  have hlen1 : ((q.take k).map (quantCoef A sr.hr)).length = k := by rw [List.length_map, List.length_take]; omega
  dsimp only at em1 hm2 hq2 en1
  rw [en1, Int.toNat_natCast] at em1
  obtain ⟨-, c2, c3, c4, -⟩ := C38_count dt sr nbytes ((q.take k).map (quantCoef A sr.hr)) (by
      intro p hp
      refine hm1 p.1 ?_
      rw [em1]
      exact List.mem_map_of_mem hp) (by rw [hlen1]; exact k1) (by rw [hlen1]; omega)
  rw [hlen1] at c3
  rw [← em1] at c2 c3 c4
  generalize computeNbits dt sr nbytes m1 0 = c1 at *
  generalize adjustGain dt sr (gainOffset sr nbytes + est.gInt) c1.nbits (specBudget dt sr nbytes pitch tns) (gainOffset sr nbytes + est.gMin) = adj at *
  have hq2' : q2.length = ne dt sr ∧ ∃ k : Nat, n2 = k ∧ k % 2 = 0 ∧ k ≤ ne dt sr ∧
      ∀ v ∈ q2.drop k, A.le (A.ofRat (xqMin sr)) (A.abs v) = false ∨ (quantCoef A sr.hr v).1 = 0 := by
    by_cases c : adj = 0
    · rw [if_neg (fun h => h c)] at hq2
      injection hq2 with hq2
      rw [Prod.mk.injEq] at hq2
      refine ⟨by rw [← hq2.1]; exact hqlen, c1.n, hq2.2.symm, c2, by omega, fun v hv => ?_⟩
      rw [← hq2.1, ← List.take_append_drop k q, List.drop_append_of_le_length (by rw [List.length_take]; omega), List.mem_append] at hv
      rcases hv with hv | hv
      · right
        refine c4 _ ?_
        rw [← List.map_drop]
        exact List.mem_map_of_mem hv
      · left
        rw [eq1] at hv
        exact k3 v hv
    · rw [if_pos c] at hq2
      obtain ⟨u', k', hu', e', k1', k2', k3'⟩ := quantize_some A dt sr adj q hqlen
      rw [hq2] at e'
      injection e' with e'
      rw [Prod.mk.injEq] at e'
      refine ⟨by rw [e'.1, List.length_map]; exact hqlen, k', e'.2, k1', k2', fun v hv => Or.inl ?_⟩
      rw [e'.1] at hv
      exact k3' v hv
  obtain ⟨hl2, k', ek', ke', kl', hz⟩ := hq2'
  rw [ek', Int.toNat_natCast] at hm2
  obtain ⟨em2, hm2⟩ := magnitudes_spec _ _ _ _ _ hm2
  dsimp only at hy
  subst hy
  rw [em2] at hside
  refine ⟨k', ke', kl', hl2, ?_, by rw [← hside], by rw [← hside], hz⟩
  intro p hp
  refine hm2 p.1 ?_
  rw [em2]
  exact List.mem_map_of_mem hp

/-- **C80**, from the analysis, whatever the arithmetic: a coefficient of the scaled spectrum above the threshold of the quantiser, with a quantised value
that is not null, is left out of the frame only when writing the spectrum up to its pair costs more than the bits of the frame, within the tolerances. -/
theorem C80_analysis (A : Arith R) (G : GainMath R) (dt : Dt) (sr : Srate) (nbytes : Nat) (pitch : Bool) (tns : TnsData)
    (st st' : SpecSt R) (x y : List R) (hx : x.length = ne dt sr) (side : SpecSide)
    (h : specAnalyze A G dt sr nbytes pitch tns st x = some (st', y, side)) (hb : 0 < specBudget dt sr nbytes pitch tns)
    (i : Nat) (hi : i < y.length) (hn : side.nq ≤ i) (h1 : A.le (A.ofRat (xqMin sr)) (A.abs y[i]) = true) (h2 : (quantCoef A sr.hr y[i]).1 ≠ 0) :
    ∃ ops, (∀ b, putQuantized (highRate sr nbytes) (lsbAllowed sr nbytes) (ne dt sr) 0 0 ((y.map (quantCoef A sr.hr)).take (i / 2 * 2 + 2)) b =
        putOps b ops) ∧
      (specBudget dt sr nbytes pitch tns : ℝ) < idealCost ops +
        hiddenCount (lsbAllowed sr nbytes) (((y.map (quantCoef A sr.hr)).take (i / 2 * 2 + 2)).map Prod.fst) + (ops.length : ℝ) / 2048 := by
  obtain ⟨n, n0, n1, n2, hc, e1, e2, hz⟩ := specAnalyze_count A G dt sr nbytes pitch tns st st' x y hx side h
  have hin : i < n := by
    by_contra hcon
    have hv : y[i] ∈ y.drop n := by
      refine List.mem_iff_getElem.mpr ⟨i - n, by rw [List.length_drop]; omega, ?_⟩
      rw [List.getElem_drop]
      congr 1
      omega
    rcases hz _ hv with hh | hh
    · rw [hh] at h1; cases h1
    · exact h2 hh
  have hlen : ((y.take n).map (quantCoef A sr.hr)).length = n := by rw [List.length_map, List.length_take]; omega
  have heven := (C38_written_in_budget dt sr nbytes _ hc _ hb).1
  have ht := (C80_truncation dt sr nbytes _ hc _ hb).2 (i / 2 * 2) (by omega)
  rw [← e1] at heven ht
  have hget : (((y.take n).map (quantCoef A sr.hr)).map Prod.fst).getD i 0 ≠ 0 := by
    rw [List.getD_eq_getElem _ _ (by rw [List.length_map]; omega), List.getElem_map, List.getElem_map, List.getElem_take]
    exact h2
  have et : ((y.take n).map (quantCoef A sr.hr)).take (i / 2 * 2 + 2) = (y.map (quantCoef A sr.hr)).take (i / 2 * 2 + 2) := by
    rw [List.map_take, List.take_take]
    congr 1
    omega
  rw [et] at ht
  refine ht (by omega) (by omega) ?_
  rcases Nat.mod_two_eq_zero_or_one i with hm | hm
  · left
    rw [show i / 2 * 2 = i by omega]
    exact hget
  · right
    rw [show i / 2 * 2 + 1 = i by omega]
    exact hget

/-- **C80**, from the analysis: the least significant bits are left out of the coded spectrum only when the significant coefficients cost, in full, more
than the bits of the frame. -/
theorem C80_analysis_lsb (A : Arith R) (G : GainMath R) (dt : Dt) (sr : Srate) (nbytes : Nat) (pitch : Bool) (tns : TnsData)
    (st st' : SpecSt R) (x y : List R) (hx : x.length = ne dt sr) (side : SpecSide)
    (h : specAnalyze A G dt sr nbytes pitch tns st x = some (st', y, side)) (hb : 0 < specBudget dt sr nbytes pitch tns) (hl : side.lsbMode = true) :
    ∃ n ≤ ne dt sr, (∀ v ∈ y.drop n, A.le (A.ofRat (xqMin sr)) (A.abs v) = false ∨ (quantCoef A sr.hr v).1 = 0) ∧
      ∃ ops, (∀ b, putQuantized (highRate sr nbytes) false (ne dt sr) 0 0 ((y.take n).map (quantCoef A sr.hr)) b = putOps b ops) ∧
      (specBudget dt sr nbytes pitch tns : ℝ) < idealCost ops +
        hiddenCount (lsbAllowed sr nbytes) (((y.take n).map (quantCoef A sr.hr)).map Prod.fst) + (ops.length : ℝ) / 2048 := by
  obtain ⟨n, n0, n1, n2, hc, e1, e2, hz⟩ := specAnalyze_count A G dt sr nbytes pitch tns st st' x y hx side h
  refine ⟨n, n1, hz, C80_full dt sr nbytes _ hc ?_ _ hb (Or.inl ?_)⟩
  · rw [List.length_map, List.length_take]; omega
  · rw [← e2]; exact hl

/-! ### Concrete cases -/

/-- Non vacuity: a budget of 60 bits retains 14 coefficients of 32; the pair after them is significant, and the LSB mode is on. -/
example : let r := computeNbits .m10 .k16 100 ([9, 8, 7, 6, 5, 4, 3, 2, 1, 0, 0, 1] ++ List.replicate 20 5) 60
    r.n = 14 ∧ r.lsbMode = true ∧ hiddenCount true [9, 1, 1, 4, 0, 1] = 2 := by decide +kernel

/-! ### A budget of zero -/

/-- TNS data of two filters, leaving no bit to the spectrum of a frame of 20 bytes at 32 kHz. -/
def zeroTns : TnsData := ⟨true, [[3, 3, 3, 3, 3, 3, 3], [-3, 3, 3, 3, 3, 3, 3]]⟩

/-- A spectrum of 40 lines, one by block of 4 coefficients. -/
def zeroX : List Rat := (List.range 80).flatMap fun i => [if i < 40 then 1900 else 0, 0, 0, 0]

/-- The side information. -/
def zeroSide : SideData := ⟨3, ⟨223, 158, false⟩, zeroTns, true, ⟨0, 0, 0, 0, 0, false, 0, false⟩, ⟨false, 100⟩⟩

/-- The spectrum scaled by the gain of index 223. -/
def zeroY : List Rat := (List.range 80).flatMap fun i => [if i < 40 then 14006533 / 16777216 else 0, 0, 0, 0]

theorem zeroSide_encodable : Encodable .m10 .k32 20 zeroSide := by
  refine ⟨by show 3 ≤ _; decide, ⟨?_, ?_, ?_⟩, ⟨rfl, ?_, ?_⟩, ⟨?_, ?_, ?_, ?_, ?_, ?_⟩, ?_⟩
  case refine_5 =>
    intro rc hrc
    have : rc ∈ [[3, 3, 3, 3, 3, 3, 3], [-3, 3, 3, 3, 3, 3, 3]] := hrc
    simp only [List.mem_cons, List.not_mem_nil, or_false] at this
    rcases this with rfl | rfl
    · exact ⟨by decide, by decide⟩
    · exact ⟨by decide, by decide⟩
  all_goals decide +kernel

theorem zero_analysis : (specAnalyze (Arith.rounded rne24) floatMath .m10 .k32 20 true zeroTns ⟨0, 0⟩ zeroX).any
    (fun r => decide (r.2.1 = zeroY) && decide (r.2.2 = zeroSide.spec)) = true := by decide +kernel

theorem zero_refused (sh32 : Nat → Nat) (junk : LtpfData) :
    (encodeFrame (Arith.rounded rne24) .m10 .k32 (List.replicate 20 0) zeroSide zeroY).any
      (fun F => isRefused (decodeFrame (Arith.rounded rne24) .m10 .k32 sh32 junk F)) = true := by
  run_tac do
    let g ← Lean.Elab.Tactic.getMainGoal
    g.assign (Lean.mkApp2 (.const ``Eq.refl [1]) (.const ``Bool []) (.const ``Bool.true []))

/-- **C80**, a budget of zero: the value 0 of the budget means "no limit" to `compute_nbits`. When the TNS data leave exactly no bit to the spectrum (which
a valid side information does in a frame of 20 bytes at 32 kHz), nothing is truncated: 158 coefficients, for 199 bits, are retained, and the frame is refused
by the decoder. -/
theorem C80_zero : Encodable .m10 .k32 20 zeroSide ∧ specBudget .m10 .k32 20 zeroSide.pitchPresent zeroSide.tns = 0 ∧
    ∃ st' F, specAnalyze (Arith.rounded rne24) floatMath .m10 .k32 20 zeroSide.pitchPresent zeroSide.tns ⟨0, 0⟩ zeroX = some (st', zeroY, zeroSide.spec) ∧
      encodeFrame (Arith.rounded rne24) .m10 .k32 (List.replicate 20 0) zeroSide zeroY = some F ∧
      ∀ sh32 junk, ∃ r, decodeFrame (Arith.rounded rne24) .m10 .k32 sh32 junk F = (.refused, r) := by
  refine ⟨zeroSide_encodable, by decide +kernel, ?_⟩
  have h := zero_analysis
  rw [Option.any_eq_true] at h
  obtain ⟨⟨st', y, s⟩, h1, h2⟩ := h
  rw [Bool.and_eq_true, decide_eq_true_eq, decide_eq_true_eq] at h2
  dsimp only at h2
  obtain ⟨rfl, rfl⟩ := h2
  have h3 := zero_refused id ⟨false, 0⟩
  rw [Option.any_eq_true] at h3
  obtain ⟨F, hF, -⟩ := h3
  refine ⟨st', F, h1, hF, fun sh32 junk => ?_⟩
  have h := zero_refused sh32 junk
  rw [hF, Option.any_some] at h
  generalize decodeFrame (Arith.rounded rne24) .m10 .k32 sh32 junk F = w at *
  obtain ⟨o, r⟩ := w
  cases o with
  | refused => exact ⟨r, rfl⟩
  | ub => cases h
  | ok => cases h

end LC3
