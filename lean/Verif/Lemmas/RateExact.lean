import Verif.Props.Rate

/-!
The cost of what the writer writes, from below: the rates of `compute_nbits` are those of the operations, within the rounding of the tables and the signs
of the values of 1 of the LSB mode.
-/

namespace LC3

/-- The operations cost `P` (in 1/2048 bit) from the tables, and `N` of them are symbols. -/
inductive Costed : List Op → Nat → Nat → Prop
  | nil : Costed [] 0 0
  | bit {v ops P N} : Costed ops P N → Costed (.bits v 1 :: ops) (2048 + P) N
  | sym {m s c ops P N} : costOk (m.sym s).range c = true → Costed ops P N → Costed (.sym m s :: ops) (c + P) (N + 1)

theorem Costed.append {l1 l2 : List Op} {P1 N1 P2 N2 : Nat} (h1 : Costed l1 P1 N1) (h2 : Costed l2 P2 N2) : Costed (l1 ++ l2) (P1 + P2) (N1 + N2) := by
  induction h1 with
  | nil => simpa using h2
  | bit _ ih => rw [List.cons_append, Nat.add_assoc]; exact Costed.bit ih
  | sym hc _ ih => rw [List.cons_append, Nat.add_assoc, Nat.add_right_comm]; exact Costed.sym hc ih

theorem Costed.cast {ops : List Op} {P N P' N' : Nat} (h : Costed ops P N) (hP : P = P') (hN : N = N') : Costed ops P' N' := by
  subst hP; subst hN; exact h

/-- The ideal cost, within the rounding of the tables. -/
theorem Costed.ideal {ops : List Op} {P N : Nat} (h : Costed ops P N) : idealCost ops ≤ (P : ℝ) / 2048 ∧ ((P : ℝ) - N) / 2048 ≤ idealCost ops := by
  unfold idealCost
  induction h with
  | nil => simp
  | @bit v ops P N _ ih =>
    rw [List.map_cons, List.sum_cons]
    have : (Op.bits v 1).ideal = 1 := by unfold Op.ideal; norm_num
    rw [this]
    push_cast
    constructor
    · have := ih.1; linarith
    · have := ih.2; linarith
  | @sym m s c ops P N hc _ ih =>
    rw [List.map_cons, List.sum_cons]
    have h1 := ideal_of_costOk hc
    have e : (Op.sym m s).ideal = Real.logb 2 (1024 / ((m.sym s).range : ℝ)) := rfl
    rw [e]
    push_cast
    constructor
    · have := ih.1; linarith [h1.1]
    · have := ih.2; linarith [h1.2]

/-- The values of 1 in a pair having a value of 4 or more: in LSB mode, their sign is not with the other ones. -/
def hiddenSigns (lsb : Bool) (a b : Nat) : Nat :=
  if lsb = true ∧ (a ||| b) >>> 2 ≠ 0 then b2n (decide (a = 1)) + b2n (decide (b = 1)) else 0

/-- Number of these values in a spectrum. -/
def hiddenCount (lsb : Bool) : List Nat → Nat
  | a :: b :: l => hiddenSigns lsb a b + hiddenCount lsb l
  | _ => 0

theorem wEsc_costed (lut : List Nat) (hl : LutCost lut) (a c f m k : Nat) :
    Costed (wEsc lut a c k (escN f m)) ((rateEsc lut f m k).1 + 4096 * escN f m) (escN f m) := by
  induction f generalizing m k with
  | zero => exact Costed.nil
  | succ f ih =>
    unfold rateEsc escN
    by_cases h : m = 0
    · rw [if_pos h, if_pos h]; exact Costed.nil
    · rw [if_neg h, if_neg h]
      dsimp only
      unfold wEsc
      refine (Costed.bit (Costed.bit (Costed.sym (hl (min k 3) (by omega) 16 (by omega)) (ih (m >>> 1) (k + 1))))).cast ?_ rfl
      omega

theorem opsSign_costed (a : Nat) (neg : Bool) : Costed (opsSign a neg) (2048 * b2n (decide (a ≠ 0))) 0 := by
  unfold opsSign
  by_cases h : a ≠ 0
  · rw [if_pos h, decide_eq_true h]
    exact Costed.bit Costed.nil
  · rw [if_neg h, decide_eq_false h]
    exact Costed.nil

/-- The rate of a pair is the cost of what is written, plus the hidden signs. `lw` is the mode of the writer, `lr` the
mode of the rate loop. -/
theorem pair_costed (lut : List Nat) (hl : LutCost lut) (lw lr : Bool) (hm : lw = true → lr = true) (p q : Coef)
    (hp : p.1 < 2 ^ 32) (hq : q.1 < 2 ^ 32) :
    let w := ratePair lut lr p.1 q.1
    w.k = min (pairEsc lw p.1 q.1) 3 ∧ w.a = p.1 >>> pairEsc lw p.1 q.1 ∧ w.b = q.1 >>> pairEsc lw p.1 q.1 ∧
    ∃ P, Costed (opsPair lut lw p q) P (pairSyms p.1 q.1) ∧
      (P : Int) + 2048 * hiddenSigns lr p.1 q.1 = w.nbits + (if lw = lr then 0 else 2048 * (w.lsb : Int)) := by
  intro w
  by_cases h : (p.1 ||| q.1) >>> 2 = 0
  · have e : ∀ l, pairEsc l p.1 q.1 = 0 := by
      intro l; unfold pairEsc; rw [if_neg (by simpa using h)]
    have ew : w = ⟨2048 * ((b2n (decide (p.1 ≠ 0)) + b2n (decide (q.1 ≠ 0)) : Nat) : Int) +
        (specBits lut 0 (p.1 + 4 * q.1) : Nat), 0, 0, p.1, q.1, b2n (decide (p.1 ≠ 0)) + b2n (decide (q.1 ≠ 0))⟩ := by
      show ratePair lut lr p.1 q.1 = _
      unfold ratePair
      dsimp only
      rw [if_pos h]
    rw [e, ew]
    refine ⟨rfl, rfl, rfl, 2048 * b2n (decide (p.1 ≠ 0)) + 2048 * b2n (decide (q.1 ≠ 0)) + (specBits lut 0 (p.1 + 4 * q.1) + 0), ?_, ?_⟩
    · unfold opsPair
      rw [if_neg (by simpa using h)]
      have h4 := shr_lt4 p.1 q.1 0 h
      simp only [Nat.shiftRight_zero] at h4
      refine (((opsSign_costed p.1 p.2).append (opsSign_costed q.1 q.2)).append
        (Costed.sym (hl 0 (by omega) _ (by omega)) Costed.nil)).cast rfl ?_
      rw [← escN_or _ _ hp hq, h]
      rfl
    · dsimp only
      unfold hiddenSigns
      rw [if_neg (by simp [h])]
      split <;> push_cast <;> omega
  · have hesc := pairEsc_eq lw p.1 q.1 hp hq
    have hescr := pairEsc_eq lr p.1 q.1 hp hq
    have hsum : ∀ l, pairEsc l p.1 q.1 = b2n l + escN 32 (((p.1 ||| q.1) >>> 2) >>> b2n l) := by
      intro l; unfold pairEsc; rw [if_pos h]
    have hk : (rateEsc lut 32 (((p.1 ||| q.1) >>> 2) >>> b2n lr) (b2n lr)).2 = pairEsc lw p.1 q.1 := by
      rw [rateEsc_k, ← hsum, hescr, hesc]
    have hne : 1 ≤ pairEsc lw p.1 q.1 := by
      rw [hesc, show (32 : Nat) = 31 + 1 by rfl]
      unfold escN
      rw [if_neg h]; omega
    have hw : w = ⟨2048 * ((b2n (decide (p.1 ≠ 0)) + b2n (decide (q.1 ≠ 0)) : Nat) : Int) +
        (if lr then ((specBits lut 0 16 : Nat) : Int) - 2 * 2048 else 0) +
        ((rateEsc lut 32 (((p.1 ||| q.1) >>> 2) >>> b2n lr) (b2n lr)).1 : Nat) + 2 * 2048 * ((pairEsc lw p.1 q.1 : Nat) : Int) +
        ((specBits lut (min (pairEsc lw p.1 q.1) 3) (p.1 >>> pairEsc lw p.1 q.1 + 4 * (q.1 >>> pairEsc lw p.1 q.1)) : Nat) : Int),
        (if lr then 2 + b2n (decide (p.1 = 1)) + b2n (decide (q.1 = 1)) else 0), min (pairEsc lw p.1 q.1) 3,
        p.1 >>> pairEsc lw p.1 q.1, q.1 >>> pairEsc lw p.1 q.1, b2n (decide (p.1 ≠ 0)) + b2n (decide (q.1 ≠ 0))⟩ := by
      show ratePair lut lr p.1 q.1 = _
      unfold ratePair
      dsimp only
      rw [if_neg h, hk]
      rfl
    have hz : (p.1 ||| q.1) >>> (2 + pairEsc lw p.1 q.1) = 0 := by
      rw [Nat.shiftRight_add, hesc]
      apply escN_zero
      have := or_lt hp hq
      rw [Nat.shiftRight_eq_div_pow]
      omega
    have h4 := shr_lt4 p.1 q.1 _ hz
    rw [hw]
    refine ⟨rfl, rfl, rfl, ?_⟩
    -- the writer
    have hE := wEsc_costed lut hl p.1 q.1 32 (((p.1 ||| q.1) >>> 2) >>> b2n lw) (b2n lw)
    have hS := (opsSign_costed (p.1 >>> b2n lw) p.2).append (opsSign_costed (q.1 >>> b2n lw) q.2)
    have hM := Costed.sym (hl (min (pairEsc lw p.1 q.1) 3) (by omega)
      (p.1 >>> pairEsc lw p.1 q.1 + 4 * (q.1 >>> pairEsc lw p.1 q.1)) (by omega)) Costed.nil
    have hT := (hE.append hS).append hM
    have hF : Costed (if lw then [Op.sym (specModel lut 0) 16] else []) (if lw then specBits lut 0 16 else 0)
        (b2n lw) := by
      cases lw
      · exact Costed.nil
      · exact Costed.sym (hl 0 (by omega) 16 (by omega)) Costed.nil
    have hA := hF.append hT
    unfold opsPair
    rw [if_pos h]
    refine ⟨_, hA.cast rfl ?_, ?_⟩
    · rw [← escN_or _ _ hp hq, ← hesc, hsum]
      omega
    · have hx : ∀ a : Nat, b2n (decide (a ≠ 0)) = b2n (decide (a >>> 1 ≠ 0)) + b2n (decide (a = 1)) := by
        intro a
        rw [Nat.shiftRight_eq_div_pow, Nat.pow_one]
        rcases a with _ | _ | a
        · rfl
        · rfl
        · rw [decide_eq_true (by omega), decide_eq_true (by omega), decide_eq_false (by omega)]; rfl
      have hb1 : lw = true → b2n (decide (p.1 ≠ 0)) = b2n (decide (p.1 >>> b2n lw ≠ 0)) + b2n (decide (p.1 = 1)) := by
        intro h; rw [h]; exact hx _
      have hb2 : lw = true → b2n (decide (q.1 ≠ 0)) = b2n (decide (q.1 >>> b2n lw ≠ 0)) + b2n (decide (q.1 = 1)) := by
        intro h; rw [h]; exact hx _
      have hb3 : lw = false → b2n (decide (p.1 >>> b2n lw ≠ 0)) = b2n (decide (p.1 ≠ 0)) ∧
          b2n (decide (q.1 >>> b2n lw ≠ 0)) = b2n (decide (q.1 ≠ 0)) := by
        intro h; rw [h]; exact ⟨rfl, rfl⟩
      have hsw := hsum lw
      have hh : hiddenSigns lr p.1 q.1 = if lr then b2n (decide (p.1 = 1)) + b2n (decide (q.1 = 1)) else 0 := by
        unfold hiddenSigns; cases lr <;> simp [h]
      rw [hh]
      generalize b2n (decide (p.1 >>> b2n lw ≠ 0)) = u1 at *
      generalize b2n (decide (q.1 >>> b2n lw ≠ 0)) = u2 at *
      generalize b2n (decide (p.1 ≠ 0)) = v1 at *
      generalize b2n (decide (q.1 ≠ 0)) = v2 at *
      generalize specBits lut (min (pairEsc lw p.1 q.1) 3) _ = z at *
      generalize b2n (decide (p.1 = 1)) = z1 at *
      generalize b2n (decide (q.1 = 1)) = z2 at *
      cases lw
      · cases lr
        · simp only [Bool.false_eq_true, if_false, if_true, b2n, forall_const] at *
          push_cast
          omega
        · -- the first escape
          simp only [Bool.false_eq_true, if_false, if_true, b2n, forall_const] at *
          have hr : (rateEsc lut 32 ((p.1 ||| q.1) >>> 2 >>> 0) 0).1 =
              specBits lut 0 16 + (rateEsc lut 32 ((p.1 ||| q.1) >>> 2 >>> 1) 1).1 := by
            have hx : ∀ f m k, m < 2 ^ f → (rateEsc lut (f + 1) m k).1 = (rateEsc lut f m k).1 := by
              intro f
              induction f with
              | zero => intro m k hm; simp at hm; subst hm; rfl
              | succ f ih =>
                intro m k hm
                unfold rateEsc
                by_cases h0 : m = 0
                · rw [if_pos h0, if_pos h0]
                · rw [if_neg h0, if_neg h0]
                  dsimp only
                  rw [ih]
                  rw [Nat.shiftRight_eq_div_pow, Nat.pow_one]
                  rw [Nat.pow_succ] at hm
                  omega
            have hlt : (p.1 ||| q.1) >>> 2 >>> 1 < 2 ^ 31 := by
              have := or_lt hp hq
              rw [← Nat.shiftRight_add, Nat.shiftRight_eq_div_pow]
              omega
            rw [hx 31 _ 1 hlt, Nat.shiftRight_zero, show (32 : Nat) = 31 + 1 by rfl]
            conv => lhs; unfold rateEsc
            rw [if_neg h]
            rfl
          push_cast
          omega
      · have := hm rfl
        subst this
        simp only [if_true, b2n, forall_const] at *
        push_cast
        omega

/-- The rate of a spectrum is the cost of what is written, plus the hidden signs. -/
theorem quantized_costed (hrate lw lr : Bool) (hm : lw = true → lr = true) (ne i state : Nat) (hs : state < 256)
    (c : List Coef) (hc : ∀ p ∈ c, p.1 < 2 ^ 32) : ∃ P,
    Costed (opsQuantized hrate lw ne i state c) P (symCount (c.map Prod.fst)) ∧
    (P : Int) + 2048 * hiddenCount lr (c.map Prod.fst) = (rateSum hrate lr ne i state (c.map Prod.fst)).1 +
      (if lw = lr then 0 else 2048 * ((rateSum hrate lr ne i state (c.map Prod.fst)).2 : Int)) := by
  fun_induction opsQuantized hrate lw ne i state c with
  | case1 i state p q l ih =>
    obtain ⟨w1, w2, w3, P, hP, hle⟩ := pair_costed _ (lutOf_cost hrate ne i state hs) lw lr hm p q
      (hc p (by simp)) (hc q (by simp))
    obtain ⟨P', hP', hle'⟩ := ih (nextState_lt _ _ _ _) (fun x hx => hc x (by simp [hx]))
    refine ⟨P + P', ?_, ?_⟩
    · exact hP.append hP'
    · have e : rateSum hrate lr ne i state ((p :: q :: l).map Prod.fst) =
        ((ratePair (lutOf hrate ne i state) lr p.1 q.1).nbits +
          (rateSum hrate lr ne (i + 2) (nextState state (min (pairEsc lw p.1 q.1) 3) (p.1 >>> pairEsc lw p.1 q.1)
            (q.1 >>> pairEsc lw p.1 q.1)) (l.map Prod.fst)).1,
         (ratePair (lutOf hrate ne i state) lr p.1 q.1).lsb +
          (rateSum hrate lr ne (i + 2) (nextState state (min (pairEsc lw p.1 q.1) 3) (p.1 >>> pairEsc lw p.1 q.1)
            (q.1 >>> pairEsc lw p.1 q.1)) (l.map Prod.fst)).2) := by
        rw [List.map_cons, List.map_cons]
        conv => lhs; unfold rateSum
        dsimp only
        rw [w1, w2, w3]
      have eh : hiddenCount lr ((p :: q :: l).map Prod.fst) = hiddenSigns lr p.1 q.1 + hiddenCount lr (l.map Prod.fst) := by
        rw [List.map_cons, List.map_cons]
        conv => lhs; unfold hiddenCount
      rw [e, eh]
      dsimp only
      by_cases h : lw = lr
      · simp only [if_pos h] at hle hle' ⊢
        push_cast; omega
      · simp only [if_neg h] at hle hle' ⊢
        push_cast; omega
  | case2 l i state h =>
    refine ⟨0, ?_, ?_⟩
    · have : symCount (l.map Prod.fst) = 0 := by
        unfold symCount
        split
        · next a b l' e =>
          match l, e with
          | p :: q :: l'', _ => exact absurd rfl (h p q l'')
        · rfl
      rw [this]; exact Costed.nil
    · have : rateSum hrate lr ne i state (l.map Prod.fst) = (0, 0) := by
        unfold rateSum
        split
        · next a b l' e =>
          match l, e with
          | p :: q :: l'', _ => exact absurd rfl (h p q l'')
        · rfl
      have h2 : hiddenCount lr (l.map Prod.fst) = 0 := by
        unfold hiddenCount
        split
        · next a b l' e =>
          match l, e with
          | p :: q :: l'', _ => exact absurd rfl (h p q l'')
        · rfl
      rw [this, h2]
      split <;> simp

end LC3
