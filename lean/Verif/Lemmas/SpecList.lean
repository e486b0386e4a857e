import Verif.Lemmas.Spec

/-!
The coding of the quantised spectrum, of the LSB stage and of the noise seed, over the whole
spectrum.
-/

namespace LC3

/-- What is written for the spectrum. -/
def opsQuantized (hrate lsb : Bool) (ne : Nat) : Nat → Nat → List Coef → List Op
  | i, state, p :: q :: l =>
    opsPair (lutOf hrate ne i state) lsb p q ++
    opsQuantized hrate lsb ne (i + 2) (nextState state (min (pairEsc lsb p.1 q.1) 3)
      (p.1 >>> pairEsc lsb p.1 q.1) (q.1 >>> pairEsc lsb p.1 q.1)) l
  | _, _, _ => []

theorem putQuantized_ops (hrate lsb : Bool) (ne i state : Nat) (l : List Coef) (b : Bits) :
    putQuantized hrate lsb ne i state l b = putOps b (opsQuantized hrate lsb ne i state l) := by
  fun_induction putQuantized hrate lsb ne i state l b with
  | case1 i state b p q l w ih =>
    unfold opsQuantized
    rw [putOps_append, ih]
    simp only [w, putPair_ops]
  | case2 => unfold opsQuantized; split <;> simp_all [putOps]

/-- Coefficients that can be coded: magnitudes below `2^16`, or `2^24` in high resolution. -/
def CoefOk (hr : Bool) (l : List Coef) : Prop := ∀ p ∈ l, p.1 < 2 ^ (maxShl hr + 2)

theorem maxShl_range (hr : Bool) : 1 ≤ maxShl hr ∧ maxShl hr ≤ 22 := by cases hr <;> decide

theorem opsQuantized_sound (hrate lsb : Bool) (M : Nat) (h30 : M ≤ 30) (h1 : 1 ≤ M) (ne i state : Nat) (l : List Coef)
    (hs : state < 256) (hl : ∀ p ∈ l, p.1 < 2 ^ (M + 2)) : ∀ o ∈ opsQuantized hrate lsb ne i state l, o.Valid := by
  fun_induction opsQuantized hrate lsb ne i state l with
  | case1 i state p q l ih =>
    intro o ho
    rcases List.mem_append.mp ho with ho | ho
    · exact opsPair_valid _ (lutOf_ok _ _ _ _ hs) lsb p q M h30 h1 (hl p (by simp)) (hl q (by simp)) o ho
    · exact ih (nextState_lt _ _ _ _) (fun x hx => hl x (by simp [hx])) o ho
  | case2 => intro o ho; cases ho

theorem opsQuantized_valid (hrate lsb hr : Bool) (ne i state : Nat) (l : List Coef)
    (hs : state < 256) (hl : CoefOk hr l) : ∀ o ∈ opsQuantized hrate lsb ne i state l, o.Valid := by
  have h := maxShl_range hr
  exact opsQuantized_sound hrate lsb (maxShl hr) (by omega) h.1 ne i state l hs hl

/-- The values sent in place of the coefficients. -/
def received (lsb : Bool) : List Coef → List Int
  | p :: q :: l => withSign p.2 (sent lsb p.1 q.1 p.1) :: withSign q.2 (sent lsb p.1 q.1 q.1) :: received lsb l
  | _ => []

/-- The seed after the coefficients `l` at index `i`. -/
def seedAll : Nat → Nat → List Int → Nat
  | seed, i, x :: y :: l => seedAll (seedAdd seed i x y) (i + 2) l
  | seed, _, _ => seed

theorem getQuantized_ready {F : List Nat} {rest : List Op} (hrate lsb hr : Bool) (ne : Nat)
    (n i state seed : Nat) (l : List Coef) (hn : l.length = 2 * n) (hl : CoefOk hr l) (b r : Bits)
    (h : Ready F b r (opsQuantized hrate lsb ne i state l ++ rest)) :
    ∃ r', getQuantized hrate lsb hr ne n i state seed r =
        (some (received lsb l, seedAll seed i (received lsb l)), r') ∧
      Ready F (putOps b (opsQuantized hrate lsb ne i state l)) r' rest := by
  induction n generalizing i state seed l b r with
  | zero =>
    have : l = [] := List.eq_nil_of_length_eq_zero (by omega)
    subst this
    exact ⟨r, rfl, h⟩
  | succ n ih =>
    match l, hn with
    | p :: q :: l, hn =>
      simp only [List.length_cons] at hn
      unfold opsQuantized at h ⊢
      rw [List.append_assoc] at h
      obtain ⟨r1, x, e1, x1, x2, x3, h1⟩ := getPair_ready _ lsb p q (maxShl hr) (maxShl_range hr).2
        (maxShl_range hr).1 (hl p (by simp)) (hl q (by simp)) b r h
      obtain ⟨r2, e2, h2⟩ := ih (i + 2) _ (seedAdd seed i (withSign p.2 (sent lsb p.1 q.1 p.1))
        (withSign q.2 (sent lsb p.1 q.1 q.1))) l (by omega) (fun y hy => hl y (by simp [hy])) _ _ h1
      refine ⟨r2, ?_, by rw [putOps_append]; exact h2⟩
      unfold getQuantized
      rw [e1]
      dsimp only
      rw [x1, x2, x3, e2]
      rfl

/-! ### LSB stage -/

/-- The bits of a value in the LSB stage. -/
def opsLsb1 (p : Coef) (nbits : Int) : List Op :=
  (if nbits > 0 then [.bits (p.1 &&& 1) 1] else []) ++
  (if p.1 = 1 then (if nbits - 1 > 0 then [.bits (b2n p.2) 1] else []) else [])

/-- Number of bits of a value in the LSB stage. -/
def lsbCost1 (p : Coef) : Int := if p.1 = 1 then 2 else 1

/-- The bits written by the LSB stage. -/
def opsLsb : Int → List Coef → List Op
  | nbits, p :: q :: l =>
    if nbits ≤ 0 then [] else
    if (p.1 ||| q.1) >>> 2 = 0 then opsLsb nbits l else
    opsLsb1 p nbits ++ opsLsb1 q (nbits - lsbCost1 p) ++ opsLsb (nbits - lsbCost1 p - lsbCost1 q) l
  | _, _ => []

theorem putLsb1_ops (p : Coef) (nbits : Int) (b : Bits) :
    putLsb1 p nbits b = (nbits - lsbCost1 p, putOps b (opsLsb1 p nbits)) := by
  unfold putLsb1 opsLsb1 lsbCost1
  dsimp only
  rw [putOps_append]
  have e1 : putOps b (if nbits > 0 then [Op.bits (p.1 &&& 1) 1] else []) =
      if nbits > 0 then putBit b (p.1 &&& 1) else b := by split <;> rfl
  rw [e1]
  generalize (if nbits > 0 then putBit b (p.1 &&& 1) else b) = b1
  by_cases h1 : p.1 = 1
  · rw [if_pos h1, if_pos h1, if_pos h1]
    congr 1
    · omega
    · split <;> rfl
  · rw [if_neg h1, if_neg h1, if_neg h1]; rfl

theorem putLsb_ops (nbits : Int) (l : List Coef) (b : Bits) :
    putLsb nbits l b = putOps b (opsLsb nbits l) := by
  fun_induction putLsb nbits l b with
  | case1 => unfold opsLsb; rw [if_pos (by assumption)]; rfl
  | case2 => unfold opsLsb; rw [if_neg (by assumption), if_pos (by assumption)]; assumption
  | case3 nbits b p q l h1 h2 w w2 ih =>
    unfold opsLsb
    rw [if_neg h1, if_neg h2, putOps_append, putOps_append, ih]
    simp only [w2, w, putLsb1_ops]
  | case4 => unfold opsLsb; split <;> simp_all [putOps]

theorem opsLsb1_valid (p : Coef) (nbits : Int) : ∀ o ∈ opsLsb1 p nbits, o.Valid := by
  intro o ho
  unfold opsLsb1 at ho
  rcases List.mem_append.mp ho with ho | ho
  · split at ho
    · simp only [List.mem_singleton] at ho
      subst ho
      refine ⟨by omega, by omega, ?_⟩
      rw [Nat.and_one_is_mod]; omega
    · cases ho
  · split at ho
    · split at ho
      · simp only [List.mem_singleton] at ho
        subst ho
        exact ⟨by omega, by omega, by have := b2n_lt p.2; simpa using this⟩
      · cases ho
    · cases ho

theorem opsLsb_valid (nbits : Int) (l : List Coef) : ∀ o ∈ opsLsb nbits l, o.Valid := by
  fun_induction opsLsb nbits l with
  | case1 => intro o ho; cases ho
  | case2 => assumption
  | case3 nbits p q l h1 h2 ih =>
    intro o ho
    rcases List.mem_append.mp ho with ho | ho
    · rcases List.mem_append.mp ho with ho | ho
      · exact opsLsb1_valid _ _ o ho
      · exact opsLsb1_valid _ _ o ho
    · exact ih o ho
  | case4 => intro o ho; cases ho

/-- The value restored by the LSB stage, with `nbits` bits left. -/
def lsbVal (nbits : Int) (p : Coef) : Int :=
  if nbits < lsbCost1 p then withSign p.2 (2 * (p.1 / 2)) else withSign p.2 p.1

/-- The spectrum restored by the LSB stage. -/
def restored : Int → List Coef → List Int
  | nbits, p :: q :: l =>
    if nbits ≤ 0 then received true (p :: q :: l) else
    if (p.1 ||| q.1) >>> 2 = 0 then withSign p.2 p.1 :: withSign q.2 q.1 :: restored nbits l else
    lsbVal nbits p :: lsbVal (nbits - lsbCost1 p) q :: restored (nbits - lsbCost1 p - lsbCost1 q) l
  | _, _ => []

/-- Increment of the seed when the value changes from the even value `x` to `y`. -/
def seedStep (seed i : Nat) (x y : Int) : Nat := if x = y then seed else (seed + i) &&& 0xffff

theorem getLsb1_ready {F : List Nat} {rest : List Op} (p : Coef) (i seed : Nat) (nw nr : Int)
    (hn : nw = nr ∨ (nw ≤ 0 ∧ nr ≤ 0)) (b r : Bits) (h : Ready F b r (opsLsb1 p nw ++ rest)) :
    ∃ r' nr', getLsb1 i (withSign p.2 (2 * (p.1 / 2))) nr seed r = (nr', lsbVal nw p,
        seedStep seed i (withSign p.2 (2 * (p.1 / 2))) (lsbVal nw p), r') ∧
      (nw - lsbCost1 p = nr' ∨ (nw - lsbCost1 p ≤ 0 ∧ nr' ≤ 0)) ∧
      Ready F (putOps b (opsLsb1 p nw)) r' rest := by
  by_cases h0 : nw > 0
  · obtain rfl : nw = nr := by omega
    unfold opsLsb1 at h ⊢
    rw [if_pos h0, Nat.and_one_is_mod] at h ⊢
    obtain ⟨r1, e1, h1⟩ := Ready.bit h
    unfold getLsb1
    rw [if_pos h0, e1]
    dsimp only
    by_cases hodd : p.1 % 2 = 1
    · rw [if_pos (by omega)]
      by_cases hone : p.1 = 1
      · rw [if_pos hone] at h1 ⊢
        have hz : withSign p.2 (2 * (p.1 / 2)) = 0 := by
          rw [hone]; unfold withSign; split <;> rfl
        rw [hz, if_neg (by simp)]
        by_cases h2 : nw - 1 > 0
        · rw [if_pos h2] at h1
          obtain ⟨r2, e2, h2'⟩ := Ready.bit h1
          rw [if_pos h2, e2]
          dsimp only
          have hv : lsbVal nw p = if b2n p.2 ≠ 0 then -1 else 1 := by
            unfold lsbVal lsbCost1
            rw [if_pos hone, if_neg (by omega), hone]
            unfold withSign
            cases p.2 <;> rfl
          refine ⟨r2, nw - 1 - 1, ?_, ?_, ?_⟩
          · rw [hv]
            have hne : (0 : Int) ≠ if b2n p.2 ≠ 0 then -1 else 1 := by split <;> decide
            unfold seedStep
            rw [if_neg hne]
          · unfold lsbCost1; rw [if_pos hone]; omega
          · rw [if_pos h2]; exact h2'
        · rw [if_neg h2] at h1
          rw [if_neg h2]
          have hv : lsbVal nw p = 0 := by
            unfold lsbVal lsbCost1
            rw [if_pos hone, if_pos (by omega)]
            exact hz
          refine ⟨r1, nw - 1 - 1, ?_, ?_, ?_⟩
          · rw [hv]; unfold seedStep; rw [if_pos rfl]
          · unfold lsbCost1; rw [if_pos hone]; omega
          · rw [if_neg h2]; exact h1
      · rw [if_neg hone] at h1 ⊢
        have hne : withSign p.2 (2 * (p.1 / 2)) ≠ 0 := by
          unfold withSign; split <;> omega
        have hv : lsbVal nw p = if withSign p.2 (2 * (p.1 / 2)) < 0 then withSign p.2 (2 * (p.1 / 2)) - 1
            else withSign p.2 (2 * (p.1 / 2)) + 1 := by
          unfold lsbVal lsbCost1
          rw [if_neg hone, if_neg (by omega)]
          unfold withSign
          cases p.2
          · simp only [Bool.false_eq_true, if_false]
            rw [if_neg (by omega)]; omega
          · simp only [if_true]
            rw [if_pos (by omega)]; omega
        rw [if_pos hne]
        refine ⟨r1, nw - 1, ?_, ?_, h1⟩
        · rw [hv]
          have hne2 : withSign p.2 (2 * (p.1 / 2)) ≠ if withSign p.2 (2 * (p.1 / 2)) < 0 then
              withSign p.2 (2 * (p.1 / 2)) - 1 else withSign p.2 (2 * (p.1 / 2)) + 1 := by split <;> omega
          unfold seedStep
          rw [if_neg hne2]
        · unfold lsbCost1; rw [if_neg hone]; omega
    · rw [if_neg (by omega)]
      have hone : p.1 ≠ 1 := by omega
      rw [if_neg hone] at h1 ⊢
      have hv : lsbVal nw p = withSign p.2 (2 * (p.1 / 2)) := by
        unfold lsbVal lsbCost1
        rw [if_neg hone, if_neg (by omega)]
        congr 1; omega
      refine ⟨r1, nw - 1, ?_, ?_, h1⟩
      · rw [hv]; unfold seedStep; rw [if_pos rfl]
      · unfold lsbCost1; rw [if_neg hone]; omega
  · have hnr : ¬ nr > 0 := by omega
    have hc : 1 ≤ lsbCost1 p := by unfold lsbCost1; split <;> omega
    have hops : opsLsb1 p nw = [] := by
      unfold opsLsb1
      rw [if_neg h0, if_neg (by omega : ¬ nw - 1 > 0)]
      split <;> rfl
    have hv : lsbVal nw p = withSign p.2 (2 * (p.1 / 2)) := by
      unfold lsbVal; rw [if_pos (by omega)]
    rw [hops] at h ⊢
    unfold getLsb1
    rw [if_neg hnr, hv]
    refine ⟨r, nr - 1, ?_, by omega, h⟩
    unfold seedStep; rw [if_pos rfl]

theorem natAbs_withSign (neg : Bool) (u : Nat) : (withSign neg u).natAbs = u := by
  unfold withSign; split <;> simp

theorem large_max (a c : Nat) : (a ||| c) >>> 2 ≠ 0 ↔ 4 ≤ max a c := by
  constructor
  · intro h
    by_cases hm : max a c < 4
    · exfalso
      apply h
      have h1 : a ||| c < 2 ^ 2 := or_lt (by omega) (by omega)
      rw [Nat.shiftRight_eq_div_pow]
      exact Nat.div_eq_of_lt h1
    · omega
  · intro h h0
    obtain ⟨h1, h2⟩ := shr_lt4 a c 0 h0
    simp only [Nat.shiftRight_zero] at h1 h2
    omega

/-- The seed after the LSB stage. -/
def seedLsb : Nat → Nat → List Int → List Int → Nat
  | seed, i, x :: y :: l, x' :: y' :: l' =>
    seedLsb (seedStep (seedStep seed i x x') (i + 1) y y') (i + 2) l l'
  | seed, _, _, _ => seed

theorem seedLsb_refl (l : List Int) (seed i : Nat) : seedLsb seed i l l = seed := by
  match l with
  | [] => rfl
  | [_] => rfl
  | x :: y :: l =>
    have := seedLsb_refl l seed (i + 2)
    unfold seedLsb
    rw [show seedStep seed i x x = seed from if_pos rfl, show seedStep seed (i + 1) y y = seed from if_pos rfl]
    exact this

theorem seedLsb_same (x y : Int) (l l' : List Int) (seed i : Nat) :
    seedLsb seed i (x :: y :: l) (x :: y :: l') = seedLsb seed (i + 2) l l' := by
  rw [seedLsb, show seedStep seed i x x = seed from if_pos rfl,
    show seedStep seed (i + 1) y y = seed from if_pos rfl]

theorem getLsb_done (l : List Int) (i seed : Nat) (n : Int) (hn : n ≤ 0) (r : Bits) :
    getLsb i n l seed r = (l, seed, r) := by
  unfold getLsb
  split
  · rw [if_pos hn]
  · rfl

theorem getLsb_ready {F : List Nat} {rest : List Op} (l : List Coef) (i seed : Nat) (nw nr : Int)
    (hn : nw = nr ∨ (nw ≤ 0 ∧ nr ≤ 0)) (b r : Bits) (h : Ready F b r (opsLsb nw l ++ rest)) :
    ∃ r', getLsb i nr (received true l) seed r =
        (restored nw l, seedLsb seed i (received true l) (restored nw l), r') ∧
      Ready F (putOps b (opsLsb nw l)) r' rest := by
  match l with
  | [] => exact ⟨r, rfl, h⟩
  | [_] => exact ⟨r, rfl, h⟩
  | p :: q :: l =>
    unfold opsLsb at h ⊢
    unfold restored
    by_cases h0 : nw ≤ 0
    · rw [if_pos h0] at h ⊢
      rw [if_pos h0, seedLsb_refl]
      exact ⟨r, getLsb_done _ _ _ _ (by omega) _, h⟩
    · rw [if_neg h0] at h ⊢
      rw [if_neg h0]
      obtain rfl : nw = nr := by omega
      by_cases hs : (p.1 ||| q.1) >>> 2 = 0
      · rw [if_pos hs] at h ⊢
        rw [if_pos hs]
        obtain ⟨r', e1, h1⟩ := getLsb_ready l (i + 2) seed nw nw (Or.inl rfl) b r h
        refine ⟨r', ?_, h1⟩
        have hm : ¬ (4 ≤ max p.1 q.1) := by
          rw [← large_max]; simpa using hs
        have hS : ∀ x, sent true p.1 q.1 x = x := by
          intro x; unfold sent; rw [if_neg (by intro hh; exact hh.2 hs)]
        unfold received
        rw [hS, hS]
        unfold getLsb
        rw [if_neg h0, natAbs_withSign, natAbs_withSign, if_pos (by omega), e1]
        dsimp only
        rw [seedLsb_same]
      · rw [if_neg hs] at h ⊢
        rw [if_neg hs]
        rw [List.append_assoc, List.append_assoc] at h
        have hm := (large_max p.1 q.1).mp hs
        have hS : ∀ x, sent true p.1 q.1 x = 2 * (x / 2) := by
          intro x; unfold sent; rw [if_pos ⟨rfl, hs⟩]
        obtain ⟨r1, n1, e1, g1, h1⟩ := getLsb1_ready p i seed nw nw (Or.inl rfl) b r h
        obtain ⟨r2, n2, e2, g2, h2⟩ := getLsb1_ready q (i + 1)
          (seedStep seed i (withSign p.2 (2 * (p.1 / 2))) (lsbVal nw p)) (nw - lsbCost1 p) n1 g1 _ r1 h1
        obtain ⟨r3, e3, h3⟩ := getLsb_ready l (i + 2) (seedStep (seedStep seed i (withSign p.2 (2 * (p.1 / 2)))
          (lsbVal nw p)) (i + 1) (withSign q.2 (2 * (q.1 / 2))) (lsbVal (nw - lsbCost1 p) q)) _ n2 g2 _ r2 h2
        refine ⟨r3, ?_, by rw [putOps_append, putOps_append]; exact h3⟩
        unfold received
        rw [hS, hS]
        unfold getLsb
        rw [if_neg h0, natAbs_withSign, natAbs_withSign, if_neg (by omega), e1]
        dsimp only
        rw [e2]
        dsimp only
        rw [e3]
        rfl
  termination_by l.length

/-! ### What the LSB stage restores -/

/-- Number of bits of the LSB stage. -/
def lsbCost : List Coef → Int
  | p :: q :: l => (if 4 ≤ max p.1 q.1 then lsbCost1 p + lsbCost1 q else 0) + lsbCost l
  | _ => 0

theorem lsbCost1_pos (p : Coef) : 1 ≤ lsbCost1 p ∧ lsbCost1 p ≤ 2 := by
  unfold lsbCost1; split <;> omega

theorem lsbCost_nonneg (l : List Coef) : 0 ≤ lsbCost l := by
  match l with
  | [] => exact Int.le_refl _
  | [_] => exact Int.le_refl _
  | p :: q :: l =>
    have := lsbCost_nonneg l
    have := lsbCost1_pos p
    have := lsbCost1_pos q
    unfold lsbCost
    split <;> omega

theorem restored_done (l : List Coef) (n : Int) (h : n ≤ 0) : restored n l = received true l := by
  match l with
  | [] => rfl
  | [_] => rfl
  | p :: q :: l => rw [restored, if_pos h]

theorem received_small (l1 l2 : List Coef) (h0 : l1.length % 2 = 0) (hn : lsbCost l1 ≤ 0) :
    received true (l1 ++ l2) = l1.map Coef.val ++ received true l2 := by
  match l1, h0 with
  | [], _ => rfl
  | p :: q :: l1, h0 =>
    simp only [List.length_cons] at h0
    have g1 := lsbCost_nonneg l1
    have g2 := lsbCost1_pos p
    have g3 := lsbCost1_pos q
    unfold lsbCost at hn
    by_cases hm : 4 ≤ max p.1 q.1
    · rw [if_pos hm] at hn; omega
    · rw [if_neg hm] at hn
      have hS : ∀ x, sent true p.1 q.1 x = x := by
        intro x; unfold sent; rw [if_neg (by rw [large_max]; intro hh; exact hm hh.2)]
      simp only [List.cons_append, List.map_cons]
      rw [received, hS, hS, received_small l1 l2 (by omega) (by omega)]
      rfl

/-- As many values are restored as there are bits for. -/
theorem restored_exact (l1 l2 : List Coef) (n : Int) (h0 : l1.length % 2 = 0) (hn : lsbCost l1 ≤ n) :
    restored n (l1 ++ l2) = l1.map Coef.val ++ restored (n - lsbCost l1) l2 := by
  match l1, h0 with
  | [], _ => simp [lsbCost]
  | p :: q :: l1, h0 =>
    simp only [List.length_cons] at h0
    have g1 := lsbCost_nonneg l1
    have g2 := lsbCost1_pos p
    have g3 := lsbCost1_pos q
    by_cases hz : n ≤ 0
    · have := lsbCost_nonneg (p :: q :: l1)
      rw [restored_done _ _ hz, restored_done _ _ (by omega)]
      exact received_small (p :: q :: l1) l2 (by simp only [List.length_cons]; omega) (by omega)
    unfold lsbCost at hn ⊢
    simp only [List.cons_append]
    rw [restored]
    rw [if_neg hz]
    by_cases hs : (p.1 ||| q.1) >>> 2 = 0
    · have hm : ¬ (4 ≤ max p.1 q.1) := by rw [← large_max]; simpa using hs
      rw [if_neg hm] at hn ⊢
      rw [if_pos hs, restored_exact l1 l2 n (by omega) (by omega)]
      simp only [List.map_cons, List.cons_append, Int.zero_add]
      rfl
    · have hm := (large_max p.1 q.1).mp hs
      rw [if_pos hm] at hn ⊢
      rw [if_neg hs, restored_exact l1 l2 _ (by omega) (by omega)]
      unfold lsbVal
      rw [if_neg (by omega), if_neg (by omega)]
      simp only [List.map_cons, List.cons_append]
      rw [show n - lsbCost1 p - lsbCost1 q - lsbCost l1 = n - (lsbCost1 p + lsbCost1 q + lsbCost l1) by omega]
      rfl

theorem received_length (lsb : Bool) (l : List Coef) (h : l.length % 2 = 0) :
    (received lsb l).length = l.length := by
  match l, h with
  | [], _ => rfl
  | p :: q :: l, h =>
    simp only [List.length_cons] at h
    rw [received]
    simp only [List.length_cons]
    rw [received_length lsb l (by omega)]

/-- In normal mode the values are sent exactly. -/
theorem received_false (l : List Coef) (h : l.length % 2 = 0) : received false l = l.map Coef.val := by
  match l, h with
  | [], _ => rfl
  | p :: q :: l, h =>
    simp only [List.length_cons] at h
    have hS : ∀ x, sent false p.1 q.1 x = x := by intro x; unfold sent; rw [if_neg (by simp)]
    rw [received, hS, hS, received_false l (by omega)]
    rfl

/-- Values of a coefficient after the LSB stage: the lowest bit may be missing. -/
def LsbOf (p : Coef) (y : Int) : Prop := y = p.val ∨ y = withSign p.2 (2 * (p.1 / 2))

theorem received_lsbOf (l : List Coef) (h : l.length % 2 = 0) :
    List.Forall₂ LsbOf l (received true l) := by
  match l, h with
  | [], _ => exact .nil
  | p :: q :: l, h =>
    simp only [List.length_cons] at h
    rw [received]
    have hS : ∀ x : Coef, LsbOf x (withSign x.2 (sent true p.1 q.1 x.1)) := by
      intro x; unfold sent
      by_cases hs : (true = true) ∧ (p.1 ||| q.1) >>> 2 ≠ 0
      · rw [if_pos hs]; exact Or.inr rfl
      · rw [if_neg hs]; exact Or.inl rfl
    exact .cons (hS p) (.cons (hS q) (received_lsbOf l (by omega)))

theorem restored_lsbOf (l : List Coef) (n : Int) (h : l.length % 2 = 0) :
    List.Forall₂ LsbOf l (restored n l) := by
  match l, h with
  | [], _ => exact .nil
  | p :: q :: l, h =>
    simp only [List.length_cons] at h
    rw [restored]
    by_cases hz : n ≤ 0
    · rw [if_pos hz]; exact received_lsbOf _ (by simp only [List.length_cons]; omega)
    · rw [if_neg hz]
      by_cases hs : (p.1 ||| q.1) >>> 2 = 0
      · rw [if_pos hs]
        exact .cons (Or.inl rfl) (.cons (Or.inl rfl) (restored_lsbOf l n (by omega)))
      · rw [if_neg hs]
        have hV : ∀ (m : Int) (x : Coef), LsbOf x (lsbVal m x) := by
          intro m x; unfold lsbVal
          by_cases hc : m < lsbCost1 x
          · rw [if_pos hc]; exact Or.inr rfl
          · rw [if_neg hc]; exact Or.inl rfl
        exact .cons (hV _ p) (.cons (hV _ q) (restored_lsbOf l _ (by omega)))

/-! ### The noise seed -/

/-- The weighted sum of magnitudes. -/
def seedSum : Nat → List Int → Nat
  | _, [] => 0
  | i, x :: l => (x.natAbs % 32768) * i + seedSum (i + 1) l

theorem seedAdd_eq (seed i : Nat) (x y : Int) : seedAdd seed i x y =
    (seed + (x.natAbs % 32768) * i + (y.natAbs % 32768) * (i + 1)) % 65536 := by
  unfold seedAdd
  rw [show (0x7fff : Nat) = 2 ^ 15 - 1 by decide, show (0xffff : Nat) = 2 ^ 16 - 1 by decide,
    Nat.and_two_pow_sub_one_eq_mod, Nat.and_two_pow_sub_one_eq_mod, Nat.and_two_pow_sub_one_eq_mod]

theorem seedAll_eq (l : List Int) (seed i : Nat) (hl : l.length % 2 = 0) (hs : seed < 65536) :
    seedAll seed i l = (seed + seedSum i l) % 65536 := by
  match l, hl with
  | [], _ => show seed = (seed + 0) % 65536; omega
  | x :: y :: l, hl =>
    simp only [List.length_cons] at hl
    rw [seedAll, seedAdd_eq, seedAll_eq l _ (i + 2) (by omega) (Nat.mod_lt _ (by decide))]
    rw [seedSum, seedSum]
    generalize seedSum (i + 1 + 1) l = S at *
    generalize x.natAbs % 32768 * i = X
    generalize y.natAbs % 32768 * (i + 1) = Y
    omega

/-- Even values and their restored values. -/
def LsbStep (x y : Int) : Prop := x = y ∨ (y.natAbs = x.natAbs + 1 ∧ x.natAbs % 2 = 0)

theorem seedStep_eq (seed i : Nat) (x y : Int) (h : LsbStep x y) (hs : seed < 65536) :
    (seedStep seed i x y + x.natAbs % 32768 * i) % 65536 = (seed + y.natAbs % 32768 * i) % 65536 ∧
    seedStep seed i x y < 65536 := by
  unfold seedStep
  rw [show (0xffff : Nat) = 2 ^ 16 - 1 by decide, Nat.and_two_pow_sub_one_eq_mod]
  by_cases hxy : x = y
  · rw [if_pos hxy, hxy]; exact ⟨rfl, hs⟩
  · rw [if_neg hxy]
    rcases h with h | ⟨h1, h2⟩
    · exact absurd h hxy
    · have : y.natAbs % 32768 = x.natAbs % 32768 + 1 := by omega
      rw [this, Nat.add_mul, Nat.one_mul]
      generalize x.natAbs % 32768 * i = X
      constructor
      · omega
      · exact Nat.mod_lt _ (by decide)

theorem seedLsb_eq (l l' : List Int) (seed i : Nat) (h : List.Forall₂ LsbStep l l')
    (hl : l.length % 2 = 0) (hs : seed < 65536) :
    (seedLsb seed i l l' + seedSum i l) % 65536 = (seed + seedSum i l') % 65536 ∧
    seedLsb seed i l l' < 65536 := by
  match l, l', h, hl with
  | [], [], _, _ => exact ⟨rfl, hs⟩
  | x :: y :: l, x' :: y' :: l', .cons h1 (.cons h2 h3), hl =>
    simp only [List.length_cons] at hl
    rw [seedLsb]
    obtain ⟨a1, a2⟩ := seedStep_eq seed i x x' h1 hs
    obtain ⟨b1, b2⟩ := seedStep_eq _ (i + 1) y y' h2 a2
    obtain ⟨c1, c2⟩ := seedLsb_eq l l' _ (i + 2) h3 (by omega) b2
    refine ⟨?_, c2⟩
    simp only [seedSum]
    rw [show i + 1 + 1 = i + 2 by omega]
    omega

theorem restored_step (l : List Coef) (n : Int) (h : l.length % 2 = 0) :
    List.Forall₂ LsbStep (received true l) (restored n l) := by
  match l, h with
  | [], _ => exact .nil
  | p :: q :: l, h =>
    simp only [List.length_cons] at h
    have hrefl : ∀ l : List Int, List.Forall₂ LsbStep l l := by
      intro l
      induction l with
      | nil => exact .nil
      | cons x l ih => exact .cons (Or.inl rfl) ih
    rw [restored]
    by_cases hz : n ≤ 0
    · rw [if_pos hz]; exact hrefl _
    · rw [if_neg hz]
      by_cases hs : (p.1 ||| q.1) >>> 2 = 0
      · have hS : ∀ x, sent true p.1 q.1 x = x := by
          intro x; unfold sent; rw [if_neg (by intro hh; exact hh.2 hs)]
        rw [if_pos hs, received, hS, hS]
        exact .cons (Or.inl rfl) (.cons (Or.inl rfl) (restored_step l n (by omega)))
      · have hS : ∀ x, sent true p.1 q.1 x = 2 * (x / 2) := by
          intro x; unfold sent; rw [if_pos ⟨rfl, hs⟩]
        rw [if_neg hs, received, hS, hS]
        have hV : ∀ (m : Int) (x : Coef), LsbStep (withSign x.2 (2 * (x.1 / 2))) (lsbVal m x) := by
          intro m x; unfold lsbVal
          by_cases hc : m < lsbCost1 x
          · rw [if_pos hc]; exact Or.inl rfl
          · rw [if_neg hc]
            by_cases hev : x.1 % 2 = 0
            · left; congr 1; omega
            · right; rw [natAbs_withSign, natAbs_withSign]; omega
        exact .cons (hV _ p) (.cons (hV _ q) (restored_step l _ (by omega)))

end LC3
