import Verif.Lemmas.Levinson
import Verif.Lemmas.Tns

/-!
The step-down recursion recovers the reflection coefficients, and the lattice filter is the prediction error filter.
-/

namespace LC3

open Finset

/-! ### Step-down recursion -/

theorem pef_ext (a b : List Rat) (hl : a.length = b.length) (h : ∀ j, 1 ≤ j → j ≤ a.length → pef a j = pef b j) : a = b := by
  apply List.ext_getElem hl
  intro i h1 h2
  have := h (i + 1) (by omega) (by omega)
  rw [pef_succ, pef_succ, List.getD_eq_getElem?_getD, List.getD_eq_getElem?_getD, List.getElem?_eq_getElem h1,
    List.getElem?_eq_getElem h2] at this
  exact this

/-- The previous predictor. -/
def stepDown (a : List Rat) (rc : Rat) : List Rat :=
  a.zipWith (fun u v => (u - rc * v) / (1 - rc * rc)) a.reverse

theorem stepDown_getD (a : List Rat) (rc : Rat) (j : Nat) (h : j < a.length) :
    (stepDown a rc).getD j 0 = (a.getD j 0 - rc * a.getD (a.length - 1 - j) 0) / (1 - rc * rc) := by
  unfold stepDown
  simp only [List.getD_eq_getElem?_getD]
  rw [List.getElem?_zipWith, List.getElem?_reverse h, List.getElem?_eq_getElem h, List.getElem?_eq_getElem (by omega)]
  rfl

theorem stepDown_length (a : List Rat) (rc : Rat) : (stepDown a rc).length = a.length := by
  simp [stepDown]

theorem stepUp_dropLast (a : List Rat) (rc : Rat) : (stepUp a rc).dropLast = a.zipWith (fun u v => u + rc * v) a.reverse := by
  unfold stepUp
  rw [List.dropLast_concat]

/-- The step-down undoes the step-up. -/
theorem stepDown_up (a : List Rat) (rc : Rat) (h : rc * rc ≠ 1) : stepDown (stepUp a rc).dropLast rc = a := by
  have hn : (1 - rc * rc) ≠ 0 := fun e => h (by linarith)
  have hl : (stepUp a rc).dropLast.length = a.length := by rw [List.length_dropLast, stepUp_length]; omega
  apply pef_ext
  · rw [stepDown_length, hl]
  intro j h1 h2
  rw [stepDown_length, hl] at h2
  obtain ⟨j, rfl⟩ : ∃ k, j = k + 1 := ⟨j - 1, by omega⟩
  rw [pef_succ, stepDown_getD _ _ _ (by omega), hl]
  have key : ∀ i, i < a.length → (stepUp a rc).dropLast.getD i 0 = pef a (i + 1) + rc * pef a (a.length - i) := by
    intro i hi
    have := stepUp_pef a rc (i + 1) (by omega)
    rw [pef_succ] at this
    rw [show a.length + 1 - (i + 1) = a.length - i by omega] at this
    rw [← this]
    unfold stepUp
    rw [List.dropLast_concat]
    simp only [List.getD_eq_getElem?_getD]
    rw [List.getElem?_append_left (by simpa using hi)]
  rw [key j (by omega), key (a.length - 1 - j) (by omega), show a.length - 1 - j + 1 = a.length - j by omega,
    show a.length - (a.length - 1 - j) = j + 1 by omega, pef_succ, div_eq_iff hn]
  ring

theorem lpcReflection_concat (f : Nat) (a : List Rat) (rc : Rat) :
    lpcReflection Arith.exact (f + 1) (a ++ [rc]) = lpcReflection Arith.exact f (stepDown a rc) ++ [rc] := by
  rw [lpcReflection]
  simp only [List.getLast?_concat, List.dropLast_concat]
  rfl

theorem stepUp_concat (a : List Rat) (rc : Rat) : stepUp a rc = (stepUp a rc).dropLast ++ [rc] := by
  rw [stepUp_dropLast]
  rfl

/-- The reflection coefficients of the predictor built from `ks` are `ks`. The first one may have any value. -/
theorem lpcReflection_up (ks : List Rat) (h : ∀ k ∈ ks.tail, k * k ≠ 1) (f : Nat) (hf : ks.length ≤ f) :
    lpcReflection Arith.exact f (ks.foldl stepUp []) = ks := by
  induction ks using List.reverseRecOn generalizing f with
  | nil => cases f <;> rfl
  | append_singleton ks k ih =>
    rw [List.length_append, List.length_singleton] at hf
    obtain ⟨f, rfl⟩ : ∃ g, f = g + 1 := ⟨f - 1, by omega⟩
    rw [List.foldl_append]
    change lpcReflection Arith.exact (f + 1) (stepUp (ks.foldl stepUp []) k) = ks ++ [k]
    rw [stepUp_concat, lpcReflection_concat]
    congr 1
    by_cases h0 : ks = []
    · subst h0
      cases f <;> rfl
    · rw [stepDown_up _ _ (h k (by
        rw [List.tail_append_of_ne_nil h0]
        exact List.mem_append_right _ (List.mem_singleton_self k)))]
      apply ih _ f (by omega)
      intro j hj
      apply h j
      rw [List.tail_append_of_ne_nil h0]
      exact List.mem_append_left _ hj

/-- The recursion is a sequence of steps, of which the error is the product. -/
theorem levinson_steps (r : List Rat) (n : Nat) (a : List Rat) (e : Rat) (q : List Rat × Rat)
    (h : levinson Arith.exact r n (a, e) = some q) :
    ∃ ks : List Rat, ks.length = n ∧ q.1 = ks.foldl stepUp a ∧ q.2 = e * (ks.map fun k => 1 - k * k).prod := by
  induction n generalizing a e with
  | zero =>
    rw [levinson, Option.some.injEq] at h
    subst h
    exact ⟨[], rfl, rfl, by simp⟩
  | succ n ih =>
    rw [levinson, Option.bind_eq_some_iff] at h
    obtain ⟨s, h1, h2⟩ := h
    obtain ⟨-, rc, -, hs1, hs2⟩ := levinsonStep_eq 0 r a e s h1
    obtain ⟨ks, l, m1, m2⟩ := ih s.1 s.2 h2
    refine ⟨rc :: ks, by simp [l], ?_, ?_⟩
    · rw [m1, hs1]; rfl
    · rw [m2, hs2, List.map_cons, List.prod_cons]
      ring

/-! ### Lattice filter -/

/-- The forward error, on the values `u`, most recent first. -/
def latF (a : List Rat) (u : Nat → Rat) : Rat := ∑ j ∈ range (a.length + 1), pef a j * u j

/-- The backward error. -/
def latB (a : List Rat) (u : Nat → Rat) : Rat := ∑ j ∈ range (a.length + 1), pef a (a.length - j) * u j

theorem latF_step (a : List Rat) (rc : Rat) (u : Nat → Rat) :
    latF (stepUp a rc) u = latF a u + rc * latB a (fun j => u (j + 1)) := by
  unfold latF latB
  rw [stepUp_length]
  have h1 : ∀ j ∈ range (a.length + 1 + 1), pef (stepUp a rc) j * u j = pef a j * u j + rc * (pef a (a.length + 1 - j) * u j) := by
    intro j hj
    rw [mem_range] at hj
    rw [stepUp_pef a rc j (by omega)]
    ring
  rw [sum_congr rfl h1, sum_add_distrib, ← mul_sum]
  congr 1
  · rw [sum_range_succ, pef_big a (a.length + 1) (by omega)]
    ring
  · congr 1
    rw [sum_range_succ', pef_big a (a.length + 1 - 0) (by omega), zero_mul, add_zero]
    apply sum_congr rfl
    intro j _
    rw [show a.length + 1 - (j + 1) = a.length - j by omega]

theorem latB_step (a : List Rat) (rc : Rat) (u : Nat → Rat) :
    latB (stepUp a rc) u = rc * latF a u + latB a (fun j => u (j + 1)) := by
  unfold latF latB
  rw [stepUp_length]
  have h1 : ∀ j ∈ range (a.length + 1 + 1), pef (stepUp a rc) (a.length + 1 - j) * u j =
      rc * (pef a j * u j) + pef a (a.length + 1 - j) * u j := by
    intro j hj
    rw [mem_range] at hj
    rw [stepUp_pef a rc (a.length + 1 - j) (by omega), show a.length + 1 - (a.length + 1 - j) = j by omega]
    ring
  rw [sum_congr rfl h1, sum_add_distrib, ← mul_sum]
  congr 1
  · congr 1
    rw [sum_range_succ, pef_big a (a.length + 1) (by omega)]
    ring
  · rw [sum_range_succ', pef_big a (a.length + 1 - 0) (by omega), zero_mul, add_zero]
    apply sum_congr rfl
    intro j _
    rw [show a.length + 1 - (j + 1) = a.length - j by omega]

/-- The states of the lattice, after the values `u`. -/
def latStates : List Rat → List Rat → (Nat → Rat) → List Rat
  | _, [], _ => []
  | a, rc :: rcs, u => latB a u :: latStates (stepUp a rc) rcs u

theorem fwdLoop_lattice (rcs a : List Rat) (u : Nat → Rat) (rest : List Rat) :
    fwdLoop Arith.exact rcs (latStates a rcs (fun j => u (j + 1)) ++ rest) (latF a u) (latB a u) =
      some (latF (rcs.foldl stepUp a) u, latStates a rcs u ++ rest) := by
  induction rcs generalizing a with
  | nil => rfl
  | cons rc rcs ih =>
    rw [latStates, List.cons_append, fwdLoop]
    have h1 : Arith.exact.add (latF a u) (Arith.exact.mul rc (latB a fun j => u (j + 1))) = latF (stepUp a rc) u := by
      rw [latF_step]; rfl
    have h2 : Arith.exact.add (Arith.exact.mul rc (latF a u)) (latB a fun j => u (j + 1)) = latB (stepUp a rc) u := by
      rw [latB_step]; rfl
    rw [h1, h2, ih]
    rfl

/-- The values preceding, most recent first, with zeros before the first one. -/
def past (p : List Rat) (j : Nat) : Rat := p.getD j 0

theorem filterRun_lattice (rcs : List Rat) (rest : List Rat) (l p : List Rat) :
    ∃ y s, filterRun (fwdStep Arith.exact rcs) l (latStates [] rcs (past p) ++ rest) = some (y, s) ∧ y.length = l.length ∧
      ∀ i, i < l.length → y.getD i 0 = latF (rcs.foldl stepUp []) (past ((l.take (i + 1)).reverse ++ p)) := by
  induction l generalizing p with
  | nil => exact ⟨[], _, rfl, rfl, fun i h => by cases h⟩
  | cons x l ih =>
    have h0 : fwdStep Arith.exact rcs (latStates [] rcs (past p) ++ rest) x =
        some (latF (rcs.foldl stepUp []) (past (x :: p)), latStates [] rcs (past (x :: p)) ++ rest) := by
      have := fwdLoop_lattice rcs [] (past (x :: p)) rest
      have f0 : latF [] (past (x :: p)) = x := by
        unfold latF
        rw [List.length_nil, sum_range_one, pef_zero, one_mul]
        rfl
      have b0 : latB [] (past (x :: p)) = x := by
        unfold latB
        rw [List.length_nil, sum_range_one, pef_zero, one_mul]
        rfl
      rw [f0, b0] at this
      exact this
    obtain ⟨y, s, h1, h2, h3⟩ := ih (x :: p)
    refine ⟨latF (rcs.foldl stepUp []) (past (x :: p)) :: y, s, ?_, by simp [h2], ?_⟩
    · rw [filterRun, h0]
      dsimp only [Option.bind_some]
      rw [h1]
      rfl
    · intro i hi
      rcases i with _ | i
      · rfl
      · rw [List.getD_cons_succ, h3 i (by simpa using hi), List.take_succ_cons, List.reverse_cons, List.append_assoc]
        rfl

theorem latStates_zero (a rcs : List Rat) : latStates a rcs (past []) = List.replicate rcs.length 0 := by
  induction rcs generalizing a with
  | nil => rfl
  | cons rc rcs ih =>
    rw [latStates, ih, List.length_cons, List.replicate_succ]
    congr 1
    unfold latB past
    simp

theorem past_take (l : List Rat) (i j : Nat) (hi : i < l.length) :
    past ((l.take (i + 1)).reverse ++ []) j = if j ≤ i then l.getD (i - j) 0 else 0 := by
  unfold past
  rw [List.append_nil]
  simp only [List.getD_eq_getElem?_getD]
  split
  · rw [List.getElem?_reverse (by rw [List.length_take]; omega), List.length_take, Nat.min_eq_left (by omega),
      List.getElem?_take, if_pos (by omega)]
    congr 2
  · rw [List.getElem?_eq_none (by rw [List.length_reverse, List.length_take]; omega)]
    rfl

/-- The lattice filter, from null states, is the prediction error filter. -/
theorem lattice_fir (rcs : List Rat) (h8 : rcs.length ≤ 8) (l : List Rat) :
    ∃ y s, filterRun (fwdStep Arith.exact rcs) l (List.replicate 8 0) = some (y, s) ∧ y.length = l.length ∧
      ∀ i, i < l.length → y.getD i 0 = ∑ j ∈ range (rcs.length + 1),
        pef (rcs.foldl stepUp []) j * (if j ≤ i then l.getD (i - j) 0 else 0) := by
  have hs : List.replicate 8 (0 : Rat) = latStates [] rcs (past []) ++ List.replicate (8 - rcs.length) 0 := by
    rw [latStates_zero, ← List.replicate_add]
    congr 1
    omega
  have hl : (rcs.foldl stepUp []).length = rcs.length := by
    have : ∀ (rcs a : List Rat), (rcs.foldl stepUp a).length = a.length + rcs.length := by
      intro rcs
      induction rcs with
      | nil => intro a; rfl
      | cons k rcs ih => intro a; rw [List.foldl_cons, ih, stepUp_length, List.length_cons]; omega
    simpa using this rcs []
  obtain ⟨y, s, h1, h2, h3⟩ := filterRun_lattice rcs (List.replicate (8 - rcs.length) 0) l []
  rw [← hs] at h1
  refine ⟨y, s, h1, h2, fun i hi => ?_⟩
  rw [h3 i hi]
  unfold latF
  rw [hl]
  apply sum_congr rfl
  intro j _
  rw [past_take l i j hi]

end LC3
