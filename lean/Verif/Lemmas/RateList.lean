import Verif.Lemmas.Rate

/-!
The rate loop against the writer, over the whole frame.
-/

namespace LC3

/-- Price and `nbits_lsb` of all the pairs of a list of magnitudes. -/
def rateSum (hrate lsb : Bool) (ne : Nat) : Nat → Nat → List Nat → Int × Nat
  | i, state, a :: b :: l =>
    let w := ratePair (lutOf hrate ne i state) lsb a b
    let r := rateSum hrate lsb ne (i + 2) (nextState state w.k w.a w.b) l
    (w.nbits + r.1, w.lsb + r.2)
  | _, _, _ => (0, 0)

/-- Number of symbols of a spectrum. -/
def symCount : List Nat → Nat
  | a :: b :: l => pairSyms a b + symCount l
  | _ => 0

theorem rateSum_nil (hrate lsb : Bool) (ne i state : Nat) : rateSum hrate lsb ne i state [] = (0, 0) := by
  unfold rateSum; rfl

theorem rateLoop_prefix (hrate lsb : Bool) (ne : Nat) (lim : Int) (i : Nat) (st : RateSt) (l : List Nat) : ∃ j,
    j % 2 = 0 ∧ j ≤ l.length ∧
    st.lsb + (rateSum hrate lsb ne i st.state (l.take j)).2 ≤ (rateLoop hrate lsb ne lim i st l).lsb ∧
    ((j = 0 ∧ (rateLoop hrate lsb ne lim i st l).nEnd = st.nEnd ∧
        (rateLoop hrate lsb ne lim i st l).nbitsEnd = st.nbitsEnd) ∨
     (0 < j ∧ (rateLoop hrate lsb ne lim i st l).nEnd = i + j ∧
        (rateLoop hrate lsb ne lim i st l).nbitsEnd = st.nbits + (rateSum hrate lsb ne i st.state (l.take j)).1 ∧
        (rateLoop hrate lsb ne lim i st l).nbitsEnd ≤ lim)) := by
  fun_induction rateLoop hrate lsb ne lim i st l with
  | case1 i st a b l hle ih =>
    obtain ⟨j, j0, j1, j2, j3⟩ := ih
    have e : ∀ j, rateSum hrate lsb ne i st.state ((a :: b :: l).take (j + 2)) =
        ((ratePair (lutOf hrate ne i st.state) lsb a b).nbits +
          (rateSum hrate lsb ne (i + 2) (rateStep hrate lsb ne lim i st a b).state (l.take j)).1,
         (ratePair (lutOf hrate ne i st.state) lsb a b).lsb +
          (rateSum hrate lsb ne (i + 2) (rateStep hrate lsb ne lim i st a b).state (l.take j)).2) := by
      intro j
      rw [List.take_succ_cons, List.take_succ_cons]
      conv => lhs; unfold rateSum
      rfl
    have hn : (rateStep hrate lsb ne lim i st a b).nbits =
        st.nbits + (ratePair (lutOf hrate ne i st.state) lsb a b).nbits := rfl
    have hl : (rateStep hrate lsb ne lim i st a b).lsb =
        st.lsb + (ratePair (lutOf hrate ne i st.state) lsb a b).lsb := rfl
    rw [hl] at j2
    rw [hn] at j3
    generalize rateLoop hrate lsb ne lim (i + 2) (rateStep hrate lsb ne lim i st a b) l = r at *
    rcases j3 with ⟨k0, k1, k2⟩ | ⟨k0, k1, k2, k3⟩
    · subst k0
      have e2 := e 0
      rw [List.take_zero, rateSum_nil] at e2
      rw [List.take_zero, rateSum_nil] at j2
      have hlen : (a :: b :: l).length = l.length + 2 := rfl
      by_cases hacc : (decide ((ratePair (lutOf hrate ne i st.state) lsb a b).s ≠ 0) &&
          decide (st.nbits + (ratePair (lutOf hrate ne i st.state) lsb a b).nbits ≤ lim)) = true
      · refine ⟨2, rfl, by omega, by rw [e2]; dsimp only at *; omega, Or.inr ⟨by omega, ?_, ?_, ?_⟩⟩
        · rw [k1]; unfold rateStep; dsimp only; rw [if_pos hacc]
        · rw [k2, e2]; unfold rateStep; dsimp only; rw [if_pos hacc]; omega
        · rw [k2]; unfold rateStep; dsimp only; rw [if_pos hacc]
          rw [Bool.and_eq_true, decide_eq_true_eq] at hacc
          exact of_decide_eq_true hacc.2
      · refine ⟨0, rfl, by omega, by rw [List.take_zero, rateSum_nil]; dsimp only at *; omega, Or.inl ⟨rfl, ?_, ?_⟩⟩
        · rw [k1]; unfold rateStep; dsimp only; rw [if_neg hacc]
        · rw [k2]; unfold rateStep; dsimp only; rw [if_neg hacc]
    · have hlen : (a :: b :: l).length = l.length + 2 := rfl
      refine ⟨j + 2, by omega, by omega, by rw [e]; dsimp only; omega, Or.inr ⟨by omega, by omega, ?_, k3⟩⟩
      rw [e, k2]; dsimp only; omega
  | case2 i st a b l hle =>
    exact ⟨0, rfl, Nat.zero_le _, by rw [List.take_zero, rateSum_nil]; exact Nat.le_refl _, Or.inl ⟨rfl, rfl, rfl⟩⟩
  | case3 i st l h =>
    exact ⟨0, rfl, Nat.zero_le _, by rw [List.take_zero, rateSum_nil]; exact Nat.le_refl _, Or.inl ⟨rfl, rfl, rfl⟩⟩

/-- The writer costs no more than priced. -/
theorem quantized_priced (hrate lw lr : Bool) (hm : lw = true → lr = true) (ne i state : Nat) (hs : state < 256)
    (c : List Coef) (hc : ∀ p ∈ c, p.1 < 2 ^ 32) : ∃ P,
    Priced costE (opsQuantized hrate lw ne i state c) P (symCount (c.map Prod.fst)) ∧
    (P : Int) ≤ (rateSum hrate lr ne i state (c.map Prod.fst)).1 +
      (if lw = lr then 0 else 2048 * ((rateSum hrate lr ne i state (c.map Prod.fst)).2 : Int)) ∧
    (lr = false → (P : Int) = (rateSum hrate lr ne i state (c.map Prod.fst)).1) := by
  fun_induction opsQuantized hrate lw ne i state c with
  | case1 i state p q l ih =>
    obtain ⟨w1, w2, w3, P, hP, hle, heq⟩ := pair_priced _ (lutOf_cost hrate ne i state hs) lw lr hm p q
      (hc p (by simp)) (hc q (by simp))
    obtain ⟨P', hP', hle', heq'⟩ := ih (nextState_lt _ _ _ _) (fun x hx => hc x (by simp [hx]))
    refine ⟨P + P', ?_, ?_⟩
    · exact hP.append hP'
    · have e : rateSum hrate lr ne i state ((p :: q :: l).map Prod.fst) =
        ((ratePair (lutOf hrate ne i state) lr p.1 q.1).nbits +
          (rateSum hrate lr ne (i + 2) (nextState state (min (pairEsc lw p.1 q.1) 3) (p.1 >>> pairEsc lw p.1 q.1)
            (q.1 >>> pairEsc lw p.1 q.1)) (l.map Prod.fst)).1,
         (ratePair (lutOf hrate ne i state) lr p.1 q.1).lsb +
          (rateSum hrate lr ne (i + 2) (nextState state (min (pairEsc lw p.1 q.1) 3) (p.1 >>> pairEsc lw p.1 q.1)
            (q.1 >>> pairEsc lw p.1 q.1)) (l.map Prod.fst)).2) := by
        rw [List.map_cons, List.map_cons]
        conv => lhs; unfold rateSum
        dsimp only
        rw [w1, w2, w3]
      rw [e]
      dsimp only
      refine ⟨?_, fun h => by have := heq h; have := heq' h; push_cast; omega⟩
      by_cases h : lw = lr
      · simp only [if_pos h] at hle hle' ⊢
        push_cast; omega
      · simp only [if_neg h] at hle hle' ⊢
        push_cast; omega
  | case2 l i state h =>
    refine ⟨0, ?_, ?_⟩
    · have : symCount (l.map Prod.fst) = 0 := by
        unfold symCount
        split
        · next a b l' e =>
          match l, e with
          | p :: q :: l'', _ => exact absurd rfl (h p q l'')
        · rfl
      rw [this]; exact Priced.nil
    · have : rateSum hrate lr ne i state (l.map Prod.fst) = (0, 0) := by
        unfold rateSum
        split
        · next a b l' e =>
          match l, e with
          | p :: q :: l'', _ => exact absurd rfl (h p q l'')
        · rfl
      rw [this]
      exact ⟨by split <;> simp, fun _ => rfl⟩

/-- The outcome of the rate control, on the coefficients it retains: the price of what is written is in the budget. -/
theorem computeNbits_priced (dt : Dt) (sr : Srate) (nbytes : Nat) (c : List Coef) (hc : ∀ p ∈ c, p.1 < 2 ^ 32)
    (budget : Int) (hb : 0 < budget) :
    let r := computeNbits dt sr nbytes (c.map Prod.fst) budget
    r.n % 2 = 0 ∧ r.n ≤ c.length ∧ ∃ P,
      Priced costE (opsQuantized (highRate sr nbytes) r.lsbMode (ne dt sr) 0 0 (c.take r.n)) P
        (symCount ((c.map Prod.fst).take r.n)) ∧ (P : Int) ≤ 2048 * budget := by
  intro r
  have hr : r = computeNbits dt sr nbytes (c.map Prod.fst) budget := rfl
  unfold computeNbits at hr
  dsimp only at hr
  rw [if_pos (show budget ≠ 0 by omega)] at hr
  obtain ⟨j, j0, j1, j2, j3⟩ := rateLoop_prefix (highRate sr nbytes) (lsbAllowed sr nbytes) (ne dt sr) (budget * 2048)
    0 {} (c.map Prod.fst)
  generalize rateLoop (highRate sr nbytes) (lsbAllowed sr nbytes) (ne dt sr) (budget * 2048) 0 {} (c.map Prod.fst) = st at *
  have hn : r.n = j ∧ st.nbitsEnd = (rateSum (highRate sr nbytes) (lsbAllowed sr nbytes) (ne dt sr) 0 0
      ((c.map Prod.fst).take j)).1 ∧ st.nbitsEnd ≤ budget * 2048 := by
    rw [hr]
    dsimp only
    rcases j3 with ⟨k0, k1, k2⟩ | ⟨k0, k1, k2, k3⟩
    · subst k0
      rw [List.take_zero, rateSum_nil, k1, k2]
      exact ⟨rfl, rfl, by dsimp only; omega⟩
    · refine ⟨by omega, ?_, k3⟩
      rw [k2]; exact Int.zero_add _
  obtain ⟨n1, n2, n3⟩ := hn
  rw [List.length_map] at j1
  rw [n1]
  refine ⟨j0, j1, ?_⟩
  have hl : r.lsbMode = (lsbAllowed sr nbytes && decide (st.nbitsEnd + 2048 * (st.lsb : Int) > budget * 2048)) := by
    rw [hr]
  have hm : r.lsbMode = true → lsbAllowed sr nbytes = true := by
    intro h; rw [hl, Bool.and_eq_true] at h; exact h.1
  obtain ⟨P, hP, hle, -⟩ := quantized_priced (highRate sr nbytes) r.lsbMode (lsbAllowed sr nbytes) hm (ne dt sr) 0 0 (by omega)
    (c.take j) (fun p hp => hc p (List.mem_of_mem_take hp))
  rw [List.map_take] at hP hle
  refine ⟨P, hP, ?_⟩
  rw [← n2] at hle
  by_cases h : r.lsbMode = lsbAllowed sr nbytes
  · rw [if_pos h] at hle; omega
  · rw [if_neg h] at hle
    have hA : lsbAllowed sr nbytes = true := by
      rcases hb : lsbAllowed sr nbytes with _ | _
      · rw [hb] at hm h
        rcases hb2 : r.lsbMode with _ | _
        · exact absurd hb2 h
        · exact (hm hb2)
      · rfl
    have hF : r.lsbMode = false := by
      rcases hb2 : r.lsbMode with _ | _
      · rfl
      · rw [hb2, hA] at h; exact absurd rfl h
    rw [hF, hA, Bool.true_and] at hl
    have := of_decide_eq_false hl.symm
    change 0 + (rateSum (highRate sr nbytes) (lsbAllowed sr nbytes) (ne dt sr) 0 0 ((c.map Prod.fst).take j)).2 ≤ st.lsb at j2
    omega

/-! ### Unlimited budget -/

theorem spectrumBits_max : spectrumBits.all (fun t => t.all fun c => decide (c ≤ 20480)) = true := by decide +kernel

theorem getD_of_ge {α : Type} (l : List α) (d : α) (i : Nat) (h : l.length ≤ i) : l.getD i d = d := by
  rw [List.getD_eq_getElem?_getD, List.getElem?_eq_none h]; rfl

theorem specBits_le (lut : List Nat) (k s : Nat) : specBits lut k s ≤ 20480 := by
  unfold specBits
  rcases Nat.lt_or_ge (lut.getD k 64) spectrumBits.length with h | h
  · rw [getD_of_lt _ _ _ h]
    have h1 := List.all_eq_true.mp spectrumBits_max _ (List.getElem_mem h)
    generalize spectrumBits[lut.getD k 64] = t at *
    rcases Nat.lt_or_ge s t.length with h2 | h2
    · rw [getD_of_lt _ _ _ h2]
      exact of_decide_eq_true (List.all_eq_true.mp h1 _ (List.getElem_mem h2))
    · rw [getD_of_ge _ _ _ h2]; omega
  · rw [getD_of_ge _ _ _ h]; simp

theorem rateEsc_le (lut : List Nat) (f m k : Nat) : (rateEsc lut f m k).1 ≤ 20480 * escN f m := by
  induction f generalizing m k with
  | zero => exact Nat.zero_le _
  | succ f ih =>
    unfold rateEsc escN
    by_cases h : m = 0
    · rw [if_pos h]; exact Nat.zero_le _
    · rw [if_neg h, if_neg h]
      dsimp only
      have := ih (m >>> 1) (k + 1)
      have := specBits_le lut (min k 3) 16
      omega

theorem ratePair_bounds (lut : List Nat) (lsb : Bool) (a b : Nat) (ha : a < 2 ^ 32) (hb : b < 2 ^ 32) :
    0 ≤ (ratePair lut lsb a b).nbits ∧ (ratePair lut lsb a b).nbits ≤ 800000 ∧ (ratePair lut lsb a b).lsb ≤ 4 ∧
    (ratePair lut lsb a b).s = b2n (decide (a ≠ 0)) + b2n (decide (b ≠ 0)) := by
  have c1 := b2n_lt (decide (a ≠ 0))
  have c2 := b2n_lt (decide (b ≠ 0))
  unfold ratePair
  dsimp only
  by_cases h : (a ||| b) >>> 2 = 0
  · rw [if_pos h]
    dsimp only
    have := specBits_le lut 0 (a + 4 * b)
    omega
  · rw [if_neg h]
    dsimp only
    rw [rateEsc_k]
    have hs : b2n (decide (a ≠ 0)) + b2n (decide (b ≠ 0)) ≠ 0 := by
      intro h0
      have h1 : ¬ a ≠ 0 := by
        intro h1; rw [decide_eq_true h1] at h0; simp [b2n] at h0
      have h2 : ¬ b ≠ 0 := by
        intro h1; rw [decide_eq_true h1] at h0; simp [b2n] at h0
      rw [not_not.mp h1, not_not.mp h2] at h
      exact h rfl
    have d1 := specBits_le lut 0 16
    have d2 := specBits_le lut (min (b2n lsb + escN 32 ((a ||| b) >>> 2 >>> b2n lsb)) 3)
      (a >>> (b2n lsb + escN 32 ((a ||| b) >>> 2 >>> b2n lsb)) + 4 * b >>> (b2n lsb + escN 32 ((a ||| b) >>> 2 >>> b2n lsb)))
    have d3 := rateEsc_le lut 32 ((a ||| b) >>> 2 >>> b2n lsb) (b2n lsb)
    have d4 : b2n lsb + escN 32 ((a ||| b) >>> 2 >>> b2n lsb) = escN 32 ((a ||| b) >>> 2) := by
      have := pairEsc_eq lsb a b ha hb
      unfold pairEsc at this
      rw [if_pos h] at this
      exact this
    have d5 : escN 32 ((a ||| b) >>> 2) ≤ 30 := by
      apply escN_le
      have := or_lt ha hb
      rw [Nat.shiftRight_eq_div_pow]; omega
    have d6 : 1 ≤ escN 32 ((a ||| b) >>> 2) := by
      rw [show (32 : Nat) = 31 + 1 by rfl]
      unfold escN
      rw [if_neg h]; omega
    have c3 := b2n_lt (decide (a = 1))
    have c4 := b2n_lt (decide (b = 1))
    generalize specBits lut (min (b2n lsb + escN 32 ((a ||| b) >>> 2 >>> b2n lsb)) 3) _ = z at *
    generalize rateEsc lut 32 ((a ||| b) >>> 2 >>> b2n lsb) (b2n lsb) = r at *
    generalize escN 32 ((a ||| b) >>> 2 >>> b2n lsb) = e at *
    generalize b2n (decide (a ≠ 0)) = u1 at *
    generalize b2n (decide (b ≠ 0)) = u2 at *
    cases lsb
    · simp only [Bool.false_eq_true, if_false, b2n] at *
      refine ⟨?_, ?_, ?_, trivial⟩ <;> push_cast <;> omega
    · simp only [if_true, b2n] at *
      refine ⟨?_, ?_, ?_, trivial⟩ <;> push_cast <;> omega

/-- Number of coefficients up to the last pair that is not zero. -/
def sigCount : List Nat → Nat
  | a :: b :: l => if sigCount l ≠ 0 then sigCount l + 2 else if a ≠ 0 ∨ b ≠ 0 then 2 else 0
  | _ => 0

theorem rateLoop_bounds (hrate lsb : Bool) (ne : Nat) (lim : Int) (i : Nat) (st : RateSt) (l : List Nat)
    (hl : ∀ a ∈ l, a < 2 ^ 32) (h0 : 0 ≤ st.nbits) :
    let r := rateLoop hrate lsb ne lim i st l
    st.nbits ≤ r.nbits ∧ r.nbits ≤ st.nbits + 400000 * l.length ∧ st.lsb ≤ r.lsb ∧ r.lsb ≤ st.lsb + 2 * l.length := by
  fun_induction rateLoop hrate lsb ne lim i st l with
  | case1 i st a b l hle ih =>
    obtain ⟨b1, b2, b3, -⟩ := ratePair_bounds (lutOf hrate ne i st.state) lsb a b (hl a (by simp)) (hl b (by simp))
    have hn : (rateStep hrate lsb ne lim i st a b).nbits =
        st.nbits + (ratePair (lutOf hrate ne i st.state) lsb a b).nbits := rfl
    have hl' : (rateStep hrate lsb ne lim i st a b).lsb =
        st.lsb + (ratePair (lutOf hrate ne i st.state) lsb a b).lsb := rfl
    have := ih (fun x hx => hl x (by simp [hx])) (by omega)
    dsimp only at this ⊢
    rw [hn, hl'] at this
    simp only [List.length_cons]
    push_cast at *
    omega
  | case2 => dsimp only; omega
  | case3 => dsimp only; omega

theorem rateLoop_all (hrate lsb : Bool) (ne : Nat) (lim : Int) (i : Nat) (st : RateSt) (l : List Nat)
    (hl : ∀ a ∈ l, a < 2 ^ 32) (hlim : st.nbits + 400000 * (l.length : Int) ≤ lim) :
    let r := rateLoop hrate lsb ne lim i st l
    r.lsb = st.lsb + (rateSum hrate lsb ne i st.state l).2 ∧
    (sigCount l = 0 → r.nEnd = st.nEnd ∧ r.nbitsEnd = st.nbitsEnd) ∧
    (sigCount l ≠ 0 → r.nEnd = i + sigCount l ∧
      r.nbitsEnd = st.nbits + (rateSum hrate lsb ne i st.state (l.take (sigCount l))).1) := by
  fun_induction rateLoop hrate lsb ne lim i st l with
  | case1 i st a b l hle ih =>
    obtain ⟨b1, b2, b3, b4⟩ := ratePair_bounds (lutOf hrate ne i st.state) lsb a b (hl a (by simp)) (hl b (by simp))
    have hn : (rateStep hrate lsb ne lim i st a b).nbits =
        st.nbits + (ratePair (lutOf hrate ne i st.state) lsb a b).nbits := rfl
    have hl' : (rateStep hrate lsb ne lim i st a b).lsb =
        st.lsb + (ratePair (lutOf hrate ne i st.state) lsb a b).lsb := rfl
    simp only [List.length_cons] at hlim
    push_cast at hlim
    have := ih (fun x hx => hl x (by simp [hx])) (by rw [hn]; omega)
    dsimp only at this ⊢
    rw [hn, hl'] at this
    obtain ⟨i1, i2, i3⟩ := this
    have e : rateSum hrate lsb ne i st.state (a :: b :: l) =
        ((ratePair (lutOf hrate ne i st.state) lsb a b).nbits +
          (rateSum hrate lsb ne (i + 2) (rateStep hrate lsb ne lim i st a b).state l).1,
         (ratePair (lutOf hrate ne i st.state) lsb a b).lsb +
          (rateSum hrate lsb ne (i + 2) (rateStep hrate lsb ne lim i st a b).state l).2) := by
      conv => lhs; unfold rateSum
      rfl
    have et : ∀ j, rateSum hrate lsb ne i st.state ((a :: b :: l).take (j + 2)) =
        ((ratePair (lutOf hrate ne i st.state) lsb a b).nbits +
          (rateSum hrate lsb ne (i + 2) (rateStep hrate lsb ne lim i st a b).state (l.take j)).1,
         (ratePair (lutOf hrate ne i st.state) lsb a b).lsb +
          (rateSum hrate lsb ne (i + 2) (rateStep hrate lsb ne lim i st a b).state (l.take j)).2) := by
      intro j
      rw [List.take_succ_cons, List.take_succ_cons]
      conv => lhs; unfold rateSum
      rfl
    refine ⟨by rw [i1, e]; dsimp only; omega, ?_, ?_⟩
    · intro hs
      unfold sigCount at hs
      by_cases h0 : sigCount l ≠ 0
      · rw [if_pos h0] at hs; omega
      · rw [if_neg h0] at hs
        have hab : ¬ (a ≠ 0 ∨ b ≠ 0) := by
          intro h; rw [if_pos h] at hs; omega
        obtain ⟨k1, k2⟩ := i2 (not_not.mp h0)
        have hs0 : (ratePair (lutOf hrate ne i st.state) lsb a b).s = 0 := by
          rw [b4]
          have ha : a = 0 := by omega
          have hb : b = 0 := by omega
          subst ha; subst hb; rfl
        rw [k1, k2]
        unfold rateStep
        dsimp only
        rw [hs0]
        exact ⟨rfl, rfl⟩
    · intro hs
      unfold sigCount at hs ⊢
      by_cases h0 : sigCount l ≠ 0
      · simp only [if_pos h0] at hs ⊢
        obtain ⟨k1, k2⟩ := i3 h0
        rw [et, k1, k2]
        dsimp only
        omega
      · simp only [if_neg h0] at hs ⊢
        have hab : a ≠ 0 ∨ b ≠ 0 := by
          by_contra h; rw [if_neg h] at hs; exact hs rfl
        simp only [if_pos hab]
        obtain ⟨k1, k2⟩ := i2 (not_not.mp h0)
        have hs0 : (ratePair (lutOf hrate ne i st.state) lsb a b).s ≠ 0 := by
          rw [b4]
          rcases hab with h | h
          · rw [decide_eq_true h]; simp [b2n]
          · rw [decide_eq_true h]; simp [b2n]
        have e2 := et 0
        rw [List.take_zero, rateSum_nil] at e2
        rw [k1, k2, e2]
        have hacc : (decide ((ratePair (lutOf hrate ne i st.state) lsb a b).s ≠ 0) &&
            decide (st.nbits + (ratePair (lutOf hrate ne i st.state) lsb a b).nbits ≤ lim)) = true := by
          rw [decide_eq_true hs0, Bool.true_and, decide_eq_true_eq]
          omega
        unfold rateStep
        dsimp only
        rw [if_pos hacc, if_pos hacc]
        exact ⟨rfl, by omega⟩
  | case2 i st a b l hle =>
    exfalso
    simp only [List.length_cons] at hlim
    push_cast at hlim
    omega
  | case3 l i st h =>
    have e1 : rateSum hrate lsb ne i st.state l = (0, 0) := by
      unfold rateSum
      split
      · next a b l' => exact absurd rfl (h a b l')
      · rfl
    have e2 : sigCount l = 0 := by
      unfold sigCount
      split
      · next a b l' => exact absurd rfl (h a b l')
      · rfl
    dsimp only
    rw [e1, e2]
    exact ⟨rfl, fun _ => ⟨rfl, rfl⟩, fun h => absurd rfl h⟩

theorem sigCount_spec (l : List Nat) (he : l.length % 2 = 0) : sigCount l % 2 = 0 ∧ sigCount l ≤ l.length ∧
    (∀ a ∈ l.drop (sigCount l), a = 0) ∧
    (sigCount l ≠ 0 → l.getD (sigCount l - 2) 0 ≠ 0 ∨ l.getD (sigCount l - 1) 0 ≠ 0) := by
  fun_induction sigCount l with
  | case1 a b l h ih =>
    obtain ⟨i1, i2, i3, i4⟩ := ih (by simp only [List.length_cons] at he; omega)
    have h1 : sigCount l + 2 - 2 = (sigCount l - 2) + 2 := by omega
    have h2 : sigCount l + 2 - 1 = (sigCount l - 1) + 2 := by omega
    refine ⟨by omega, by simp only [List.length_cons]; omega, by rw [List.drop_succ_cons, List.drop_succ_cons]; exact i3, ?_⟩
    intro _
    rw [h1, h2, List.getD_cons_succ, List.getD_cons_succ, List.getD_cons_succ, List.getD_cons_succ]
    exact i4 h
  | case2 a b l h hab ih =>
    obtain ⟨i1, i2, i3, i4⟩ := ih (by simp only [List.length_cons] at he; omega)
    rw [not_not.mp h, List.drop_zero] at i3
    refine ⟨rfl, by simp only [List.length_cons]; omega, ?_, fun _ => by simpa using hab⟩
    rw [List.drop_succ_cons, List.drop_succ_cons, List.drop_zero]
    exact i3
  | case3 a b l h hab ih =>
    obtain ⟨i1, i2, i3, i4⟩ := ih (by simp only [List.length_cons] at he; omega)
    rw [not_not.mp h, List.drop_zero] at i3
    refine ⟨rfl, Nat.zero_le _, ?_, fun h => absurd rfl h⟩
    intro x hx
    simp only [List.drop_zero, List.mem_cons] at hx
    rcases hx with rfl | rfl | hx
    · omega
    · omega
    · exact i3 x hx
  | case4 l h =>
    refine ⟨rfl, Nat.zero_le _, ?_, fun h => absurd rfl h⟩
    match l, h, he with
    | [], _, _ => intro x hx; cases hx
    | [_], _, he => simp at he
    | a :: b :: l, h, _ => exact absurd rfl (h a b l)

/-! ### Side information -/

/-- Number of symbols of the TNS data. -/
def tnsSyms (d : TnsData) : Nat := (d.filters.map fun rc => if rc.length = 0 then 0 else 1 + rc.length).sum

theorem tnsCoeffs_priced (i : Nat) (rc : List Int) (hi : i + rc.length ≤ 8) (hc : ∀ c ∈ rc, -8 ≤ c ∧ c ≤ 8) :
    Priced costE (opsTnsCoeffs i rc) (tnsCoeffsCost i rc) rc.length := by
  induction rc generalizing i with
  | nil => exact Priced.nil
  | cons c l ih =>
    unfold opsTnsCoeffs tnsCoeffsCost
    have h := hc c (by simp)
    simp only [List.length_cons] at hi
    exact priced_sym (cost_of 8 17 _ _ tnsCoeffs_costs i _ (by omega) (by omega))
      (ih (i + 1) (by omega) (fun x hx => hc x (by simp [hx])))

theorem Priced.le_bits {ops : List Op} {P N : Nat} (h : Priced costE ops P N) (n : Nat) (hn : P ≤ 2048 * n) :
    ∃ P, Priced costE ops P N ∧ P ≤ 2048 * n := ⟨P, h, hn⟩

theorem tnsFilter_priced (dt : Dt) (lw : Bool) (rc : List Int) (h : TnsFilterValid dt rc) : ∃ P,
    Priced costE (opsTnsFilter lw rc) P (if rc.length = 0 then 0 else 1 + rc.length) ∧ P ≤ 2048 * tnsFilterBits lw rc := by
  have h8 : rc.length ≤ 8 := by
    have := h.1
    split at this <;> omega
  unfold opsTnsFilter tnsFilterBits
  by_cases h0 : rc.length = 0
  · rw [if_pos h0, if_pos h0]
    refine ⟨2048 + 0, priced_bit Priced.nil, ?_⟩
    rw [Nat.shiftRight_eq_div_pow]; omega
  · rw [if_neg h0, if_neg h0, if_pos (by omega)]
    have hp := priced_bit (v := 1) (priced_sym (cost_of 2 8 _ _ tnsOrder_costs (b2n lw) (rc.length - 1) (b2n_lt _) (by omega))
      (tnsCoeffs_priced 0 rc (by omega) h.2))
    refine ⟨_, hp.cast rfl (by omega), ?_⟩
    rw [Nat.shiftRight_eq_div_pow]; omega

theorem tns_priced (dt : Dt) (bw nbytes : Nat) (d : TnsData) (h : d.Valid dt bw nbytes) : ∃ P,
    Priced costE (opsTns d) P (tnsSyms d) ∧ P ≤ 2048 * tnsNbits d := by
  obtain ⟨-, -, h⟩ := h
  unfold opsTns tnsSyms tnsNbits
  generalize d.filters = fs at *
  induction fs with
  | nil => exact ⟨0, Priced.nil, Nat.zero_le _⟩
  | cons rc fs ih =>
    obtain ⟨P, hP, hle⟩ := tnsFilter_priced dt d.lpcWeighting rc (h rc (by simp))
    obtain ⟨P', hP', hle'⟩ := ih (fun x hx => h x (by simp [hx]))
    refine ⟨P + P', ?_, ?_⟩
    · rw [List.flatMap_cons]
      exact hP.append hP'
    · rw [List.map_cons, List.sum_cons]; omega

theorem plain_priced (ops : List Op) (h : ∀ o ∈ ops, o.isBits = true) :
    Priced costE ops (2048 * (ops.map Op.plain).sum) 0 := by
  induction ops with
  | nil => exact Priced.nil
  | cons o ops ih =>
    have ho := h o (by simp)
    cases o with
    | sym m s => cases ho
    | bits v n =>
      have h1 : Priced costE (Op.bits v n :: ops) (2048 * n + 2048 * (ops.map Op.plain).sum) 0 :=
        (ih (fun x hx => h x (by simp [hx]))).bits
      refine h1.cast ?_ rfl
      simp only [List.map_cons, List.sum_cons, Op.plain]
      omega

/-- Number of bits of the side information, with the noise factor, without the TNS data. -/
def sideBits (dt : Dt) (sr : Srate) (pitch : Bool) : Nat :=
  nbitsNq dt sr + 1 + 8 + bwNbits sr + (1 + 10 * b2n pitch) + 38 + 3

theorem side_priced (dt : Dt) (sr : Srate) (nbytes : Nat) (d : SideData) (h : d.Valid dt sr nbytes) : ∃ P,
    Priced costE (opsSideData dt sr d) P (tnsSyms d.tns) ∧
      P + 2048 * 3 ≤ 2048 * (sideBits dt sr d.pitchPresent + tnsNbits d.tns) := by
  obtain ⟨Pt, hPt, hle⟩ := tns_priced dt d.bw nbytes d.tns h.tns
  have hbw : Priced costE (opsBw sr d.bw) (2048 * bwNbits sr) 0 := by
    unfold opsBw
    by_cases h0 : bwNbits sr > 0
    · rw [if_pos h0]; exact (Priced.nil.bits : Priced costE [Op.bits d.bw (bwNbits sr)] (costE * bwNbits sr + 0) 0)
    · rw [if_neg h0]; exact Priced.nil.cast (by omega) rfl
  have hside : Priced costE (opsSide dt sr d.spec) (2048 * (nbitsNq dt sr + 9)) 0 := by
    refine (plain_priced (opsSide dt sr d.spec) ?_).cast ?_ rfl
    · intro o ho
      simp only [opsSide, List.mem_cons, List.not_mem_nil, or_false] at ho
      rcases ho with rfl | rfl | rfl <;> rfl
    · simp only [opsSide, List.map_cons, List.map_nil, List.sum_cons, List.sum_nil, Op.plain]; omega
  have hsns : Priced costE (opsSns d.sns) (2048 * 38) 0 := by
    refine (plain_priced (opsSns d.sns) ?_).cast (by rw [← opsSns_plain]) rfl
    intro o ho
    unfold opsSns at ho
    split at ho
    · simp only [List.cons_append, List.nil_append, List.mem_cons, List.not_mem_nil, or_false] at ho
      rcases ho with rfl | rfl | rfl | rfl | rfl | rfl <;> rfl
    · simp only [List.cons_append, List.nil_append, List.mem_cons, List.not_mem_nil, or_false] at ho
      rcases ho with rfl | rfl | rfl | rfl | rfl | rfl <;> rfl
  have hltpf : Priced costE (if d.pitchPresent then opsLtpf d.ltpf else []) (2048 * (10 * b2n d.pitchPresent)) 0 := by
    by_cases hp : d.pitchPresent = true
    · rw [if_pos hp, hp]
      refine (plain_priced (opsLtpf d.ltpf) ?_).cast rfl rfl
      intro o ho
      simp only [opsLtpf, List.mem_cons, List.not_mem_nil, or_false] at ho
      rcases ho with rfl | rfl <;> rfl
    · rw [if_neg hp]
      refine Priced.nil.cast ?_ rfl
      rw [Bool.not_eq_true] at hp
      rw [hp]; rfl
  have hA := hbw.append (hside.append (hPt.append ((priced_bit (v := b2n d.pitchPresent) Priced.nil).append (hsns.append hltpf))))
  refine ⟨_, hA.cast rfl (by omega), ?_⟩
  unfold sideBits
  omega

theorem rateSum_le (hrate lsb : Bool) (ne i state : Nat) (l : List Nat) (hl : ∀ a ∈ l, a < 2 ^ 32) :
    0 ≤ (rateSum hrate lsb ne i state l).1 ∧ (rateSum hrate lsb ne i state l).1 ≤ 400000 * (l.length : Int) := by
  fun_induction rateSum hrate lsb ne i state l with
  | case1 i state a b l w r ih =>
    obtain ⟨h1, h2⟩ := ih (fun x hx => hl x (by simp [hx]))
    have hw := ratePair_bounds (lutOf hrate ne i state) lsb a b (hl a (by simp)) (hl b (by simp))
    change 0 ≤ w.nbits + r.1 ∧ w.nbits + r.1 ≤ _
    change 0 ≤ r.1 at h1
    change r.1 ≤ _ at h2
    have : (((a :: b :: l).length : Nat) : Int) = l.length + 2 := by simp; omega
    rw [this]
    have e : ratePair (lutOf hrate ne i state) lsb a b = w := rfl
    rw [e] at hw
    omega
  | case2 l i state h => constructor <;> dsimp only <;> omega

theorem rateLoop_end (hrate lsb : Bool) (ne : Nat) (lim : Int) (i : Nat) (st : RateSt) (l : List Nat)
    (hl : ∀ a ∈ l, a < 2 ^ 32) (h0 : 0 ≤ st.nbits) (h1 : 0 ≤ st.nbitsEnd) (h2 : st.nbitsEnd ≤ st.nbits) :
    let r := rateLoop hrate lsb ne lim i st l
    0 ≤ r.nbitsEnd ∧ r.nbitsEnd ≤ r.nbits := by
  fun_induction rateLoop hrate lsb ne lim i st l with
  | case1 i st a b l hle ih =>
    have hw := ratePair_bounds (lutOf hrate ne i st.state) lsb a b (hl a (by simp)) (hl b (by simp))
    have e1 : (rateStep hrate lsb ne lim i st a b).nbits = st.nbits + (ratePair (lutOf hrate ne i st.state) lsb a b).nbits := rfl
    have e2 : (rateStep hrate lsb ne lim i st a b).nbitsEnd = (rateStep hrate lsb ne lim i st a b).nbits ∨
        (rateStep hrate lsb ne lim i st a b).nbitsEnd = st.nbitsEnd := by
      unfold rateStep
      dsimp only
      split
      · exact Or.inl rfl
      · exact Or.inr rfl
    exact ih (fun x hx => hl x (by simp [hx])) (by omega) (by rcases e2 with e | e <;> rw [e] <;> omega)
      (by rcases e2 with e | e <;> rw [e] <;> omega)
  | case2 => exact ⟨h1, h2⟩
  | case3 => exact ⟨h1, h2⟩

end LC3
