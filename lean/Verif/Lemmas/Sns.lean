import Verif.Model.Sns
import Verif.Lemmas.Syntax

/-!
Enumeration of the pulse configurations: a recursive description, and its equality with the loops.
-/

namespace LC3

/-- Offset, 0 out of the table. -/
def offA (i j : Nat) : Nat := (mpvq i j).getD 0

/-- Number of vectors of `n` values with `k` pulses, up to the sign of the first non-null value, for
`k` non-null. -/
def mcount : Nat → Nat → Nat
  | 0, _ => 0
  | n + 1, k => offA n k + mcount n k

/-- Number of pulses. -/
def psum : List Int → Nat
  | [] => 0
  | c :: l => c.natAbs + psum l

theorem mpvq_all : (List.range 16).all (fun i => (List.range 11).all fun j =>
    mpvq i j == some (offA i j)) = true := by decide +kernel

theorem mpvq_some (i j : Nat) (hi : i < 16) (hj : j ≤ 10) : mpvq i j = some (offA i j) := by
  have := List.all_eq_true.mp mpvq_all i (List.mem_range.mpr hi)
  have := List.all_eq_true.mp this j (List.mem_range.mpr (by omega))
  exact beq_iff_eq.mp this

theorem offA_all : (List.range 16).all (fun i => offA i 0 == 0 && offA i 1 == 1 &&
    (List.range 9).all fun j => offA i (j + 2) == offA i (j + 1) + 2 * mcount i (j + 1)) = true := by
  decide +kernel

theorem offA_zero (i : Nat) (hi : i < 16) : offA i 0 = 0 := by
  have := List.all_eq_true.mp offA_all i (List.mem_range.mpr hi)
  simp only [Bool.and_eq_true, beq_iff_eq] at this
  exact this.1.1

theorem offA_one (i : Nat) (hi : i < 16) : offA i 1 = 1 := by
  have := List.all_eq_true.mp offA_all i (List.mem_range.mpr hi)
  simp only [Bool.and_eq_true, beq_iff_eq] at this
  exact this.1.2

theorem offA_succ (i j : Nat) (hi : i < 16) (h1 : 1 ≤ j) (h2 : j ≤ 9) :
    offA i (j + 1) = offA i j + 2 * mcount i j := by
  have := List.all_eq_true.mp offA_all i (List.mem_range.mpr hi)
  simp only [Bool.and_eq_true] at this
  have := List.all_eq_true.mp this.2 (j - 1) (List.mem_range.mpr (by omega))
  rw [beq_iff_eq, show j - 1 + 2 = j + 1 by omega, show j - 1 + 1 = j by omega] at this
  exact this

theorem offA_mono (i j k : Nat) (hi : i < 16) (h1 : j ≤ k) (h2 : k ≤ 10) : offA i j ≤ offA i k := by
  induction k with
  | zero => rw [show j = 0 by omega]
  | succ k ih =>
    by_cases h : j = k + 1
    · rw [h]
    · have := ih (by omega) (by omega)
      by_cases hk : k = 0
      · subst hk
        rw [show j = 0 by omega, offA_zero i hi]
        exact Nat.zero_le _
      · have := offA_succ i k hi (by omega) (by omega)
        omega

theorem offA_pos (i k : Nat) (hi : i < 16) (h1 : 1 ≤ k) (h2 : k ≤ 10) : 1 ≤ offA i k := by
  have := offA_mono i 1 k hi h1 h2
  rw [offA_one i hi] at this
  exact this

/-- Recursive description of the enumeration, from the first to the last coefficient. -/
def enumR : List Int → Nat × Bool
  | [] => (0, false)
  | ci :: rest =>
    if psum rest = 0 then (0, decide (ci < 0))
    else if ci ≠ 0 then
      (2 * (enumR rest).1 + b2n (enumR rest).2 + offA rest.length (psum rest), decide (ci < 0))
    else ((enumR rest).1 + offA rest.length (psum rest), (enumR rest).2)

theorem psum_zero {l : List Int} (h : psum l = 0) : l = List.replicate l.length 0 := by
  induction l with
  | nil => rfl
  | cons c l ih =>
    simp only [psum] at h
    rw [List.length_cons, List.replicate_succ, ← ih (by omega), show c = 0 by omega]

theorem psum_replicate (n : Nat) : psum (List.replicate n 0) = 0 := by
  induction n with
  | zero => rfl
  | succ n ih => rw [List.replicate_succ]; simp only [psum, ih]; rfl

theorem psum_append (l1 l2 : List Int) : psum (l1 ++ l2) = psum l1 + psum l2 := by
  induction l1 with
  | nil => simp [psum]
  | cons c l ih => simp only [List.cons_append, psum, ih]; omega

theorem psum_reverse (l : List Int) : psum l.reverse = psum l := by
  induction l with
  | nil => rfl
  | cons c l ih => rw [List.reverse_cons, psum_append, ih]; simp only [psum]; omega

/-! ### The loops of the enumeration -/

theorem b2n_decide' (x : Nat) : b2n (decide (x &&& 1 ≠ 0)) = x % 2 := by
  rw [Nat.and_one_is_mod]
  have : x % 2 = 0 ∨ x % 2 = 1 := by omega
  rcases this with h | h <;> rw [h] <;> rfl

theorem shl_or (idx : Nat) (ls : Bool) : (idx <<< 1) ||| b2n ls = 2 * idx + b2n ls := by
  have := Nat.two_pow_add_eq_or_of_lt (i := 1) (b := b2n ls) (by have := b2n_lt ls; omega) idx
  rw [Nat.shiftLeft_eq, Nat.mul_comm, ← this]

theorem enumLoop_eq (d p : List Int) (hl : d.length + p.length ≤ 16) (hp : 0 < psum p)
    (hs : psum d + psum p ≤ 10) :
    enumLoop p.length (psum p) (enumR p).1 (enumR p).2 d = some (enumR (d.reverse ++ p)) := by
  induction d generalizing p with
  | nil => rfl
  | cons ci d ih =>
    simp only [List.length_cons] at hl
    simp only [psum] at hs
    have h := ih (ci :: p) (by simp only [List.length_cons]; omega) (by simp only [psum]; omega)
      (by simp only [psum]; omega)
    rw [List.reverse_cons, List.append_assoc, List.singleton_append, ← h]
    have hm : min (psum p) 10 = psum p := by omega
    simp only [enumLoop, hm, mpvq_some p.length (psum p) (by omega) (by omega), Option.bind_eq_bind,
      Option.bind_some, List.length_cons, psum, enumR, if_neg (show ¬ psum p = 0 by omega), shl_or]
    rw [Nat.add_comm (psum p)]
    by_cases hc : ci = 0
    · simp only [hc, ne_eq, not_true_eq_false, if_false]
    · simp only [hc, ne_eq, not_false_eq_true, if_true]

theorem enumR_zeros (n : Nat) (ci : Int) : enumR (ci :: List.replicate n 0) = (0, decide (ci < 0)) := by
  simp only [enumR, psum_replicate, if_true]

theorem scanFirst_eq (d : List Int) (i : Nat) (h : 0 < psum d) (hl : i + d.length ≤ 16) :
    ∃ ci d' k, ci ≠ 0 ∧ d = List.replicate k 0 ++ ci :: d' ∧ scanFirst i d = some (ci, i + k, d') := by
  induction d generalizing i with
  | nil => simp [psum] at h
  | cons c d ih =>
    simp only [List.length_cons] at hl
    by_cases hc : c = 0
    · subst hc
      have hpd : 0 < psum d := by simpa [psum] using h
      have hd : d ≠ [] := by rintro rfl; simp [psum] at hpd
      have : 0 < d.length := List.length_pos_iff.mpr hd
      obtain ⟨ci, d', k, h1, h2, h3⟩ := ih (i + 1) hpd (by omega)
      refine ⟨ci, d', k + 1, h1, by rw [List.replicate_succ, List.cons_append, ← h2], ?_⟩
      simp only [scanFirst]
      rw [if_pos ⟨trivial, by omega⟩, h3, show i + 1 + k = i + (k + 1) by omega]
    · refine ⟨c, d, 0, hc, rfl, ?_⟩
      simp only [scanFirst]
      rw [if_neg (by simp [hc])]
      rfl

theorem enumMvpq_eq (c : List Int) (hl : c.length ≤ 16) (h1 : 0 < psum c) (h2 : psum c ≤ 10) :
    enumMvpq c = some (enumR c) := by
  obtain ⟨ci, d', k, e1, e2, e3⟩ := scanFirst_eq c.reverse 0 (by rw [psum_reverse]; exact h1)
    (by rw [List.length_reverse]; omega)
  unfold enumMvpq
  simp only [e3, Option.bind_eq_bind, Option.bind_some, Nat.zero_add]
  have hc : c = d'.reverse ++ (ci :: List.replicate k 0) := by
    have := congrArg List.reverse e2
    rw [List.reverse_reverse] at this
    rw [this]
    simp
  have hlen : c.length = d'.length + (k + 1) := by rw [hc]; simp
  have hps : psum c = psum d' + ci.natAbs := by
    rw [hc, psum_append, psum_reverse]
    simp only [psum, psum_replicate]
    rfl
  have := enumLoop_eq d' (ci :: List.replicate k 0) (by simp; omega)
    (by simp only [psum, psum_replicate]; omega) (by simp only [psum, psum_replicate]; omega)
  rw [enumR_zeros] at this
  simp only [List.length_cons, List.length_replicate, psum, psum_replicate, Nat.add_zero] at this
  rw [this, ← hc]

/-! ### Range of the index -/

theorem enumR_lt (c : List Int) (hl : c.length ≤ 16) (h1 : 0 < psum c) (h2 : psum c ≤ 10) :
    (enumR c).1 < mcount c.length (psum c) := by
  induction c with
  | nil => simp [psum] at h1
  | cons ci rest ih =>
    simp only [List.length_cons] at hl ⊢
    simp only [psum] at h1 h2
    have hpos := offA_pos rest.length (ci.natAbs + psum rest) (by omega) (by omega) h2
    simp only [mcount, psum, enumR]
    by_cases hz : psum rest = 0
    · simp only [if_pos hz]; omega
    · simp only [if_neg hz]
      have hi := ih (by omega) (by omega) (by omega)
      by_cases hc : ci = 0
      · simp only [hc, ne_eq, not_true_eq_false, if_false, Int.natAbs_zero, Nat.zero_add]
        omega
      · simp only [hc, ne_eq, not_false_eq_true, if_true]
        have := b2n_lt (enumR rest).2
        have hs := offA_succ rest.length (psum rest) (by omega) (by omega) (by omega)
        have hm := offA_mono rest.length (psum rest + 1) (ci.natAbs + psum rest) (by omega) (by omega) h2
        omega

/-! ### Decoding -/

theorem searchPulse_eq (i idx j k : Nat) (hi : i < 16) (hj : j ≤ k) (hk : k ≤ 10)
    (h1 : offA i j ≤ idx) (h2 : j < k → idx < offA i (j + 1)) :
    searchPulse i idx k = some (j, offA i j) := by
  induction k with
  | zero =>
    rw [show j = 0 by omega] at h1 ⊢
    simp only [searchPulse, mpvq_some i 0 hi (by omega), Option.bind_eq_bind, Option.bind_some,
      if_neg (show ¬ idx < offA i 0 by omega)]
  | succ k ih =>
    simp only [searchPulse, mpvq_some i (k + 1) hi hk, Option.bind_eq_bind, Option.bind_some]
    by_cases h : j = k + 1
    · subst h
      rw [if_neg (by omega)]
    · have := offA_mono i (j + 1) (k + 1) hi (by omega) hk
      rw [if_pos (by have := h2 (by omega); omega)]
      exact ih (by omega) (by omega) (fun h => h2 (by omega))

theorem signed_abs (c : Int) : signed (decide (c < 0)) c.natAbs = c := by
  unfold signed
  by_cases h : c < 0
  · rw [decide_eq_true h, if_pos rfl]; omega
  · rw [decide_eq_false h, if_neg (by decide)]; omega

theorem signed_zero (ls : Bool) : signed ls 0 = 0 := by cases ls <;> rfl

theorem signed_neg (ls : Bool) (k : Nat) (h : 0 < k) : decide (signed ls k < 0) = ls := by
  cases ls <;> simp [signed] <;> omega

theorem natAbs_signed (ls : Bool) (k : Nat) : (signed ls k).natAbs = k := by
  cases ls <;> simp [signed]

theorem deenum_enumR (c : List Int) (hl : c.length ≤ 16) (h1 : 0 < psum c) (h2 : psum c ≤ 10) :
    deenumMvpq c.length (enumR c).1 (enumR c).2 (psum c) = some c := by
  induction c with
  | nil => simp [psum] at h1
  | cons ci rest ih =>
    simp only [List.length_cons] at hl ⊢
    simp only [psum] at h1 h2
    simp only [deenumMvpq, psum, enumR]
    by_cases hz : psum rest = 0
    · simp only [if_pos hz, if_true, hz, Nat.add_zero, signed_abs]
      rw [← psum_zero hz]
    · simp only [if_neg hz]
      have hpos := offA_pos rest.length (psum rest) (by omega) (by omega) (by omega)
      have hi := ih (by omega) (by omega) (by omega)
      have hlt := enumR_lt rest (by omega) (by omega) (by omega)
      by_cases hc : ci = 0
      · subst hc
        simp only [ne_eq, not_true_eq_false, if_false, Int.natAbs_zero, Nat.zero_add]
        rw [if_neg (by omega), searchPulse_eq rest.length _ (psum rest) (psum rest) (by omega)
          (Nat.le_refl _) (by omega) (by omega) (by omega)]
        simp only [Option.bind_eq_bind, Option.bind_some, Nat.sub_self, Nat.lt_irrefl, if_false,
          gt_iff_lt, Nat.add_sub_cancel, hi, signed_zero]
      · simp only [hc, ne_eq, not_false_eq_true, if_true]
        have hb := b2n_lt (enumR rest).2
        have hs := offA_succ rest.length (psum rest) (by omega) (by omega) (by omega)
        rw [if_neg (by omega), searchPulse_eq rest.length _ (psum rest) _ (by omega)
          (by omega) (by omega) (by omega) (by omega)]
        simp only [Option.bind_eq_bind, Option.bind_some, Nat.add_sub_cancel]
        rw [if_pos (by omega)]
        have e1 : (2 * (enumR rest).1 + b2n (enumR rest).2) >>> 1 = (enumR rest).1 := by
          rw [Nat.shiftRight_eq_div_pow]; omega
        have e2 : decide ((2 * (enumR rest).1 + b2n (enumR rest).2) &&& 1 ≠ 0) = (enumR rest).2 := by
          rw [Nat.and_one_is_mod, show (2 * (enumR rest).1 + b2n (enumR rest).2) % 2 =
            b2n (enumR rest).2 by omega, b2n_ne]
        simp only [e1, e2, hi, Option.bind_some, signed_abs]

/-- The largest number of pulses whose offset does not exceed the index. -/
theorem exists_pulse (i idx k : Nat) (hi : i < 16) (h1 : 1 ≤ k) (hk : k ≤ 10) (h : idx ≠ 0) :
    ∃ j, 1 ≤ j ∧ j ≤ k ∧ offA i j ≤ idx ∧ (j < k → idx < offA i (j + 1)) := by
  induction k with
  | zero => omega
  | succ k ih =>
    by_cases hc : offA i (k + 1) ≤ idx
    · exact ⟨k + 1, by omega, Nat.le_refl _, hc, by omega⟩
    · by_cases hk0 : k = 0
      · subst hk0
        rw [offA_one i hi] at hc
        omega
      · obtain ⟨j, j1, j2, j3, j4⟩ := ih (by omega) (by omega)
        refine ⟨j, j1, by omega, j3, fun hj => ?_⟩
        by_cases hjk : j = k
        · subst hjk; omega
        · exact j4 (by omega)

theorem deenum_spec (n idx : Nat) (ls : Bool) (k : Nat) (hn : n ≤ 16) (h1 : 1 ≤ k) (hk : k ≤ 10)
    (hlt : idx < mcount n k) :
    ∃ c, deenumMvpq n idx ls k = some c ∧ c.length = n ∧ psum c = k ∧ enumR c = (idx, ls) := by
  induction n generalizing idx ls k with
  | zero => simp [mcount] at hlt
  | succ i ih =>
    simp only [deenumMvpq]
    by_cases hz : idx = 0
    · subst hz
      refine ⟨_, if_pos rfl, by simp, ?_, ?_⟩
      · simp only [psum, psum_replicate, natAbs_signed]; rfl
      · rw [enumR_zeros, signed_neg ls k (by omega)]
    · rw [if_neg hz]
      obtain ⟨j, j1, j2, j3, j4⟩ := exists_pulse i idx k (by omega) h1 hk hz
      rw [searchPulse_eq i idx j k (by omega) j2 hk j3 j4]
      simp only [Option.bind_eq_bind, Option.bind_some]
      by_cases hjk : j = k
      · subst hjk
        simp only [mcount] at hlt
        obtain ⟨c, c1, c2, c3, c4⟩ := ih (idx - offA i j) ls j (by omega) h1 hk (by omega)
        simp only [Nat.sub_self, gt_iff_lt, Nat.lt_irrefl, if_false, c1, Option.bind_some, signed_zero]
        refine ⟨_, rfl, by simp [c2], by simp [psum, c3], ?_⟩
        simp only [enumR, c3, if_neg (show ¬ j = 0 by omega), ne_eq, not_true_eq_false, if_false, c4, c2]
        rw [show idx - offA i j + offA i j = idx by omega]
      · have hs := offA_succ i j (by omega) j1 (by omega)
        have hx := j4 (by omega)
        rw [if_pos (show k - j > 0 by omega)]
        dsimp only
        obtain ⟨c, c1, c2, c3, c4⟩ := ih ((idx - offA i j) >>> 1)
          (decide ((idx - offA i j) &&& 1 ≠ 0)) j (by omega) j1 (by omega)
          (by rw [Nat.shiftRight_eq_div_pow]; omega)
        rw [c1]
        simp only [Option.bind_some]
        refine ⟨_, rfl, by simp [c2], by simp only [psum, natAbs_signed, c3]; omega, ?_⟩
        have hne : signed ls (k - j) ≠ 0 := by
          intro e
          have := natAbs_signed ls (k - j)
          rw [e] at this
          simp at this
          omega
        simp only [enumR, c3, if_neg (show ¬ j = 0 by omega), if_pos hne, c4, c2,
          signed_neg ls (k - j) (by omega)]
        rw [b2n_decide' _, Nat.shiftRight_eq_div_pow]
        rw [show 2 * ((idx - offA i j) / 2 ^ 1) + (idx - offA i j) % 2 + offA i j = idx by omega]

end LC3
