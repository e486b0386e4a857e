import Verif.Lemmas.SpecList

/-!
The residual stage, for any arithmetic: the reader consumes the bits written, as long as both sides
agree on the coefficients that are refined.
-/

namespace LC3

variable {R : Type}

/-- Bits of a pass: remaining number of bits, updated coefficients, bits. -/
def encPass (A : Arith R) (lim off : R) : Nat → List R → Nat × List R × List Op
  | 0, l => (0, l, [])
  | n + 1, x :: l =>
    match residualBit A lim off x with
    | none =>
      let w := encPass A lim off (n + 1) l
      (w.1, x :: w.2.1, w.2.2)
    | some (v, x) =>
      let w := encPass A lim off n l
      (w.1, x :: w.2.1, .bits v 1 :: w.2.2)
  | n + 1, [] => (n + 1, [], [])

theorem putResidualPass_ops (A : Arith R) (lim off : R) (n : Nat) (l : List R) (b : Bits) :
    putResidualPass A lim off n l b = ((encPass A lim off n l).1, (encPass A lim off n l).2.1,
      putOps b (encPass A lim off n l).2.2) := by
  fun_induction putResidualPass A lim off n l b with
  | case1 => rw [encPass]; rfl
  | case2 n b x l e w ih => unfold encPass; rw [e]; simp only [w, ih]
  | case3 n b x l v x' e w ih => unfold encPass; rw [e]; simp only [w, ih]; rfl
  | case4 => rfl

/-- Bits of the passes. -/
def encIter (A : Arith R) (lim : R) : Nat → R → Nat → List R → List Op
  | 0, _, _, _ => []
  | f + 1, off, n, l =>
    if n = 0 then [] else
    (encPass A lim off n l).2.2 ++
      encIter A lim f (A.mul off lim) (encPass A lim off n l).1 (encPass A lim off n l).2.1

theorem putResidualIter_ops (A : Arith R) (lim off : R) (f n : Nat) (l : List R) (b : Bits) :
    putResidualIter A lim f off n l b = putOps b (encIter A lim f off n l) := by
  induction f generalizing off n l b with
  | zero => rfl
  | succ f ih =>
    unfold putResidualIter encIter
    by_cases h : n = 0
    · rw [if_pos h, if_pos h]; rfl
    · rw [if_neg h, if_neg h, putResidualPass_ops]
      dsimp only
      rw [ih, putOps_append]

/-- The bits of the residual. -/
def opsResidual (A : Arith R) (hr : Bool) (nbits : Nat) (l : List R) : List Op :=
  encIter A (A.ofRat (if hr then 1/2 else 10/16)) (if hr then 20 else 1)
    (A.div (A.ofRat (if hr then 1/2 else 10/16)) (A.ofRat 2)) nbits l

theorem putResidual_ops (A : Arith R) (hr : Bool) (nbits : Nat) (l : List R) (b : Bits) :
    putResidual A hr nbits l b = putOps b (opsResidual A hr nbits l) := putResidualIter_ops ..

theorem encPass_valid (A : Arith R) (lim off : R) (n : Nat) (l : List R) :
    ∀ o ∈ (encPass A lim off n l).2.2, o.Valid := by
  fun_induction encPass A lim off n l with
  | case1 => intro o ho; cases ho
  | case2 n x l e w ih => exact ih
  | case3 n x l v x' e w ih =>
    intro o ho
    rcases List.mem_cons.mp ho with rfl | ho
    · unfold residualBit at e
      dsimp only at e
      split at e
      · cases e
      · injection e with e
        injection e with e1 e2
        refine ⟨by omega, by omega, ?_⟩
        rw [← e1]
        have := b2n_lt ((A.lt (A.sub (A.abs x) (A.ofInt (A.trunc (A.abs x)))) lim).xor (A.lt x (A.ofRat 0)))
        simpa using this
    · exact ih o ho
  | case4 => intro o ho; cases ho

theorem encIter_valid (A : Arith R) (lim off : R) (f n : Nat) (l : List R) :
    ∀ o ∈ encIter A lim f off n l, o.Valid := by
  induction f generalizing off n l with
  | zero => intro o ho; cases ho
  | succ f ih =>
    intro o ho
    unfold encIter at ho
    by_cases h : n = 0
    · rw [if_pos h] at ho; cases ho
    · rw [if_neg h] at ho
      rcases List.mem_append.mp ho with ho | ho
      · exact encPass_valid A _ _ _ _ o ho
      · exact ih _ _ _ o ho

theorem encPass_count (A : Arith R) (lim off : R) (n : Nat) (l : List R) :
    (encPass A lim off n l).2.2.length + (encPass A lim off n l).1 = n := by
  fun_induction encPass A lim off n l with
  | case1 => rfl
  | case2 n x l e w ih => exact ih
  | case3 n x l v x' e w ih =>
    simp only [w, List.length_cons] at ih ⊢
    omega
  | case4 => simp

/-- No more bits are written than allowed. -/
theorem encIter_count (A : Arith R) (lim off : R) (f n : Nat) (l : List R) :
    (encIter A lim f off n l).length ≤ n := by
  induction f generalizing off n l with
  | zero => exact Nat.zero_le _
  | succ f ih =>
    unfold encIter
    by_cases h : n = 0
    · rw [if_pos h]; exact Nat.zero_le _
    · rw [if_neg h, List.length_append]
      have := ih (A.mul off lim) (encPass A lim off n l).1 (encPass A lim off n l).2.1
      have := encPass_count A lim off n l
      omega

/-- A coefficient on its way: original, state of the writer, state of the reader. -/
abbrev Trip (R : Type) := R × R × R

/-- Number of coefficients refined by a pass. -/
def refined (A : Arith R) (lim : R) (T : List (Trip R)) : Nat :=
  T.countP fun t => !A.lt (A.abs t.1) lim

/-- Both sides agree on a coefficient during a pass, which leads from `P` to `P'`. -/
def StepOk (A : Arith R) (lim off off1 off2 : R) (P P' : Trip R → Prop) : Prop :=
  ∀ t, P t →
    (A.lt (A.abs t.1) lim = true ∧ residualBit A lim off t.2.1 = none ∧ A.isZero t.2.2 = true ∧ P' t) ∨
    (A.lt (A.abs t.1) lim = false ∧ A.isZero t.2.2 = false ∧
      ∃ v x', residualBit A lim off t.2.1 = some (v, x') ∧
        P' (t.1, x', residualMove A off1 off2 t.2.2 v))

theorem refined_cons_skip (A : Arith R) (lim : R) (t : Trip R) (T : List (Trip R))
    (h : A.lt (A.abs t.1) lim = true) : refined A lim (t :: T) = refined A lim T := by
  unfold refined
  rw [List.countP_cons]
  simp [h]

theorem refined_cons (A : Arith R) (lim : R) (t : Trip R) (T : List (Trip R))
    (h : A.lt (A.abs t.1) lim = false) : refined A lim (t :: T) = refined A lim T + 1 := by
  unfold refined
  rw [List.countP_cons]
  simp [h]

theorem getResidualPass_ready {F : List Nat} {rest : List Op} (A : Arith R) (lim off off1 off2 : R)
    (P P' : Trip R → Prop) (hst : StepOk A lim off off1 off2 P P') (T : List (Trip R)) (n : Nat)
    (hT : ∀ t ∈ T, P t) (b r : Bits)
    (h : Ready F b r ((encPass A lim off n (T.map fun t => t.2.1)).2.2 ++ rest)) :
    ∃ (r' : Bits) (T' : List (Trip R)), getResidualPass A off1 off2 n (T.map fun t => t.2.2) r =
        (n - refined A lim T, T'.map fun t => t.2.2, r') ∧
      (encPass A lim off n (T.map fun t => t.2.1)).1 = n - refined A lim T ∧
      (encPass A lim off n (T.map fun t => t.2.1)).2.1 = T'.map (fun t => t.2.1) ∧
      T'.map (fun t => t.1) = T.map (fun t => t.1) ∧
      Ready F (putOps b (encPass A lim off n (T.map fun t => t.2.1)).2.2) r' rest ∧
      ∀ i (hi : i < T'.length), (refined A lim (T.take i) < n → P' T'[i]) ∧
        (n ≤ refined A lim (T.take i) → P T'[i]) := by
  induction T generalizing n b r with
  | nil =>
    refine ⟨r, [], ?_, ?_, ?_, rfl, ?_, fun i hi => by simp at hi⟩
    · cases n <;> rfl
    · cases n <;> rfl
    · cases n <;> rfl
    · cases n <;> exact h
  | cons t T ih =>
    cases n with
    | zero =>
      refine ⟨r, t :: T, ?_, ?_, rfl, rfl, h, ?_⟩
      · rw [Nat.zero_sub]; rfl
      · rw [Nat.zero_sub]; rfl
      · intro i hi
        exact ⟨fun h => by omega, fun _ => hT _ (List.getElem_mem _)⟩
    | succ n =>
      have hT' : ∀ t ∈ T, P t := fun x hx => hT x (by simp [hx])
      rcases hst t (hT t (by simp)) with ⟨c1, c2, c3, c4⟩ | ⟨c1, c2, v, x', c3, c4⟩
      · have e1 : encPass A lim off (n + 1) ((t :: T).map fun t => t.2.1) =
            ((encPass A lim off (n + 1) (T.map fun t => t.2.1)).1,
              t.2.1 :: (encPass A lim off (n + 1) (T.map fun t => t.2.1)).2.1,
              (encPass A lim off (n + 1) (T.map fun t => t.2.1)).2.2) := by
          rw [List.map_cons, encPass, c2]
        rw [e1] at h ⊢
        obtain ⟨r', T', g1, g2, g3, g4, g5, g6⟩ := ih (n + 1) hT' b r h
        rw [refined_cons_skip A lim t T c1]
        refine ⟨r', t :: T', ?_, g2, ?_, ?_, g5, ?_⟩
        · rw [List.map_cons, getResidualPass, if_pos c3]
          dsimp only
          rw [g1]
          rfl
        · rw [List.map_cons, g3]
        · rw [List.map_cons, List.map_cons, g4]
        · intro i hi
          cases i with
          | zero => exact ⟨fun _ => c4, fun h => by simp [refined] at h⟩
          | succ i =>
            rw [List.take_succ_cons, refined_cons_skip A lim t _ c1]
            exact g6 i (by simpa using hi)
      · have e1 : encPass A lim off (n + 1) ((t :: T).map fun t => t.2.1) =
            ((encPass A lim off n (T.map fun t => t.2.1)).1,
              x' :: (encPass A lim off n (T.map fun t => t.2.1)).2.1,
              .bits v 1 :: (encPass A lim off n (T.map fun t => t.2.1)).2.2) := by
          rw [List.map_cons, encPass, c3]
        rw [e1] at h ⊢
        obtain ⟨r1, f1, h1⟩ := Ready.bit h
        obtain ⟨r', T', g1, g2, g3, g4, g5, g6⟩ := ih n hT' _ r1 h1
        rw [refined_cons A lim t T c1, Nat.add_sub_add_right]
        refine ⟨r', (t.1, x', residualMove A off1 off2 t.2.2 v) :: T', ?_, g2, ?_, ?_, g5, ?_⟩
        · rw [List.map_cons, getResidualPass, c2, if_neg (by simp), f1]
          dsimp only
          rw [g1]
          rfl
        · rw [List.map_cons, g3]
        · rw [List.map_cons, List.map_cons, g4]
        · intro i hi
          cases i with
          | zero => exact ⟨fun _ => c4, fun h => by simp [refined] at h⟩
          | succ i =>
            rw [List.take_succ_cons, refined_cons A lim t _ c1]
            obtain ⟨k1, k2⟩ := g6 i (by simpa using hi)
            exact ⟨fun h => k1 (by omega), fun h => k2 (by omega)⟩

theorem refined_congr (A : Arith R) (lim : R) (T T' : List (Trip R))
    (h : T'.map (fun t => t.1) = T.map (fun t => t.1)) : refined A lim T' = refined A lim T := by
  have e : ∀ U : List (Trip R), refined A lim U = (U.map (fun t => t.1)).countP fun x => !A.lt (A.abs x) lim := by
    intro U
    unfold refined
    rw [List.countP_map]
    rfl
  rw [e, e, h]

theorem refined_take_le (A : Arith R) (lim : R) (T : List (Trip R)) (i : Nat) :
    refined A lim (T.take i) ≤ refined A lim T :=
  List.Sublist.countP_le (List.take_sublist _ _)

theorem getResidualIter_zero (A : Arith R) (f : Nat) (off1 off2 : R) (l : List R) (r : Bits) :
    getResidualIter A f off1 off2 0 l r = (l, r) := by
  cases f with
  | zero => rfl
  | succ f => rw [getResidualIter, if_pos rfl]

theorem encIter_zero (A : Arith R) (lim off : R) (f : Nat) (l : List R) : encIter A lim f off 0 l = [] := by
  cases f with
  | zero => rfl
  | succ f => rw [encIter, if_pos rfl]

theorem getResidualIter_ready {F : List Nat} {rest : List Op} (A : Arith R) (lim : R)
    (offE off1 off2 : Nat → R) (P : Nat → Trip R → Prop)
    (hE : ∀ k, offE (k + 1) = A.mul (offE k) lim)
    (h1 : ∀ k, off1 (k + 1) = A.mul (off1 k) (A.ofRat (1/2)))
    (h2 : ∀ k, off2 (k + 1) = A.mul (off2 k) (A.ofRat (1/2)))
    (f k n : Nat) (hst : ∀ j, k ≤ j → j < k + f → StepOk A lim (offE j) (off1 j) (off2 j) (P j) (P (j + 1)))
    (T : List (Trip R)) (hT : ∀ t ∈ T, P k t) (b r : Bits)
    (h : Ready F b r (encIter A lim f (offE k) n (T.map fun t => t.2.1) ++ rest)) :
    ∃ (r' : Bits) (T' : List (Trip R)),
      getResidualIter A f (off1 k) (off2 k) n (T.map fun t => t.2.2) r = (T'.map fun t => t.2.2, r') ∧
      T'.map (fun t => t.1) = T.map (fun t => t.1) ∧
      Ready F (putOps b (encIter A lim f (offE k) n (T.map fun t => t.2.1))) r' rest ∧
      ∀ i (hi : i < T'.length), ∃ j, k ≤ j ∧ j ≤ k + f ∧ P j T'[i] ∧
        (∀ m, 1 ≤ m → m ≤ f → (m - 1) * refined A lim T + refined A lim (T.take i) < n → k + m ≤ j) ∧
        ∀ m, n ≤ m * refined A lim T + refined A lim (T.take i) → j ≤ k + m := by
  induction f generalizing k n T b r with
  | zero =>
    refine ⟨r, T, rfl, rfl, h, ?_⟩
    intro i hi
    exact ⟨k, Nat.le_refl _, Nat.le_refl _, hT _ (List.getElem_mem _), fun m g1 g2 => by omega,
      fun m _ => by omega⟩
  | succ f ih =>
    by_cases hn : n = 0
    · subst hn
      rw [encIter_zero] at h ⊢
      rw [getResidualIter_zero]
      refine ⟨r, T, rfl, rfl, h, ?_⟩
      intro i hi
      exact ⟨k, Nat.le_refl _, by omega, hT _ (List.getElem_mem _), fun m g1 g2 g3 => by omega,
        fun m _ => by omega⟩
    · rw [encIter, if_neg hn] at h ⊢
      rw [getResidualIter, if_neg hn]
      rw [List.append_assoc] at h
      obtain ⟨r1, T1, e1, e2, e3, e4, g1, g2⟩ := getResidualPass_ready A lim (offE k) (off1 k) (off2 k)
        (P k) (P (k + 1)) (hst k (Nat.le_refl _) (by omega)) T n hT b r h
      dsimp only
      rw [e1]
      dsimp only
      rw [e2, e3, ← hE] at g1 ⊢
      rw [← h1, ← h2]
      have hl : T1.length = T.length := by
        have := congrArg List.length e4
        simpa using this
      by_cases hN : n ≤ refined A lim T
      · rw [Nat.sub_eq_zero_of_le hN, encIter_zero] at g1 ⊢
        rw [getResidualIter_zero, List.append_nil]
        refine ⟨r1, T1, rfl, e4, g1, ?_⟩
        intro i hi
        obtain ⟨c1, c2⟩ := g2 i hi
        by_cases hc : refined A lim (T.take i) < n
        · refine ⟨k + 1, by omega, by omega, c1 hc, ?_, ?_⟩
          rotate_left
          · intro m hm
            rcases Nat.eq_zero_or_pos m with rfl | hm0
            · rw [Nat.zero_mul] at hm; omega
            · omega
          intro m m1 m2 m3
          by_cases hm : m = 1
          · omega
          · exfalso
            obtain ⟨p, rfl⟩ : ∃ p, m = p + 2 := ⟨m - 2, by omega⟩
            rw [show p + 2 - 1 = p + 1 by omega, Nat.add_mul] at m3
            generalize p * refined A lim T = z at m3
            omega
        · refine ⟨k, by omega, by omega, c2 (by omega), ?_, fun m _ => by omega⟩
          intro m m1 m2 m3
          generalize (m - 1) * refined A lim T = z at m3
          omega
      · have hT1 : ∀ t ∈ T1, P (k + 1) t := by
          intro t ht
          obtain ⟨i, hi, rfl⟩ := List.getElem_of_mem ht
          have := refined_take_le A lim T i
          exact (g2 i hi).1 (by omega)
        obtain ⟨r', T', f1, f2, f3, f4⟩ := ih (k + 1) (n - refined A lim T)
          (fun j j1 j2 => hst j (by omega) (by omega)) T1 hT1 _ r1 g1
        refine ⟨r', T', f1, f2.trans e4, by rw [putOps_append]; exact f3, ?_⟩
        intro i hi
        obtain ⟨j, j1, j2, j3, j4, j5⟩ := f4 i hi
        have q1 := refined_congr A lim T T1 e4
        have q2 := refined_congr A lim (T.take i) (T1.take i) (by rw [List.map_take, List.map_take, e4])
        have q3 := refined_take_le A lim T i
        refine ⟨j, by omega, by omega, j3, ?_, ?_⟩
        rotate_left
        · intro m hm
          rcases Nat.eq_zero_or_pos m with rfl | hm0
          · rw [Nat.zero_mul] at hm; omega
          · obtain ⟨p, rfl⟩ : ∃ p, m = p + 1 := ⟨m - 1, by omega⟩
            have := j5 p (by
              rw [q1, q2]
              rw [Nat.add_mul] at hm
              generalize p * refined A lim T = z at hm ⊢
              omega)
            omega
        intro m m1 m2 m3
        by_cases hm : m = 1
        · omega
        · obtain ⟨p, rfl⟩ : ∃ p, m = p + 2 := ⟨m - 2, by omega⟩
          have := j4 (p + 1) (by omega) (by omega) (by
            rw [q1, q2]
            rw [show p + 2 - 1 = p + 1 by omega, Nat.add_mul] at m3
            rw [show p + 1 - 1 = p by omega]
            generalize p * refined A lim T = z at m3 ⊢
            omega)
          omega

end LC3
