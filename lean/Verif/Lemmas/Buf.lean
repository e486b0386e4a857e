import Verif.Model.Mdct
import Mathlib.Data.List.GetD

/-! Accesses and loops of the transforms. -/

namespace LC3

variable {R : Type}

theorem rd_cast (z : R) (l : List R) (k : Nat) (hk : k < l.length) : rd l (k : Int) = some (l.getD k z) := by
  unfold rd
  rw [if_pos (by omega), Int.toNat_natCast, List.getElem?_eq_getElem hk, List.getD_eq_getElem l z hk]

theorem rd_at (z : R) (l : List R) (i : Int) (k : Nat) (hi : i = k) (hk : k < l.length) : rd l i = some (l.getD k z) := by
  rw [hi]; exact rd_cast z l k hk

theorem wr_cast (l : List R) (k : Nat) (v : R) (hk : k < l.length) : wr l (k : Int) v = some (l.set k v) := by
  unfold wr
  rw [if_pos (by omega), Int.toNat_natCast]

theorem wr_at (l : List R) (i : Int) (k : Nat) (v : R) (hi : i = k) (hk : k < l.length) : wr l i v = some (l.set k v) := by
  rw [hi]; exact wr_cast l k v hk

theorem rdc_at (z : R) (l : List R) (i : Int) (k : Nat) (hi : i = k) (hk : 2 * k + 1 < l.length) :
    rdc l i = some (l.getD (2 * k) z, l.getD (2 * k + 1) z) := by
  unfold rdc
  rw [rd_at z l _ (2 * k) (by omega) (by omega), rd_at z l _ (2 * k + 1) (by omega) (by omega)]
  rfl

theorem getD_set_at (z : R) (l : List R) (i : Nat) (v : R) (hi : i < l.length) (k : Nat) :
    (l.set i v).getD k z = if k = i then v else l.getD k z := by
  rw [List.getD_eq_getElem?_getD, List.getD_eq_getElem?_getD, List.getElem?_set]
  by_cases h : i = k
  · subst h; simp [hi]
  · rw [if_neg h, if_neg (fun e => h e.symm)]

theorem getD_set_ne (z : R) (l : List R) (i : Nat) (v : R) (k : Nat) (h : k ≠ i) : (l.set i v).getD k z = l.getD k z := by
  rw [List.getD_eq_getElem?_getD, List.getD_eq_getElem?_getD, List.getElem?_set, if_neg (fun e => h e.symm)]

/-- Invariant of a loop. -/
theorem iter_inv {S : Type} (body : Nat → S → Option S) (Inv : Nat → S → Prop) :
    ∀ (n i : Nat) (s : S), Inv i s → (∀ j s, i ≤ j → j < i + n → Inv j s → ∃ s', body j s = some s' ∧ Inv (j + 1) s') →
      ∃ s', iter body i n s = some s' ∧ Inv (i + n) s' := by
  intro n
  induction n with
  | zero => intro i s h _; exact ⟨s, rfl, h⟩
  | succ n ih =>
    intro i s h hs
    obtain ⟨s1, h1, h2⟩ := hs i s (Nat.le_refl _) (by omega) h
    obtain ⟨s2, h3, h4⟩ := ih (i + 1) s1 h2 (fun j t a b c => hs j t (by omega) (by omega) c)
    refine ⟨s2, ?_, ?_⟩
    · rw [iter, h1, Option.bind_some, h3]
    · rw [show i + (n + 1) = i + 1 + n by omega]; exact h4

/-- Invariant of a loop of two steps by iteration. -/
theorem pairs_inv {S : Type} (step : Nat → S → Option S) (Inv : Nat → S → Prop) (n j0 : Nat) (s : S) (h0 : Inv j0 s)
    (hs : ∀ j s, j0 ≤ j → j < j0 + 2 * n → Inv j s → ∃ s', step j s = some s' ∧ Inv (j + 1) s') :
    ∃ s', pairs step j0 n s = some s' ∧ Inv (j0 + 2 * n) s' := by
  unfold pairs
  obtain ⟨s', h1, h2⟩ := iter_inv (fun i s => (step (j0 + 2 * i) s).bind (step (j0 + 2 * i + 1)))
    (fun i s => Inv (j0 + 2 * i) s) n 0 s (by simpa using h0) (by
      intro i s _ hi h
      obtain ⟨s1, a1, a2⟩ := hs (j0 + 2 * i) s (by omega) (by omega) h
      obtain ⟨s2, b1, b2⟩ := hs (j0 + 2 * i + 1) s1 (by omega) (by omega) a2
      exact ⟨s2, by rw [a1, Option.bind_some, b1], by rw [show j0 + 2 * (i + 1) = j0 + 2 * i + 1 + 1 by omega]; exact b2⟩)
  exact ⟨s', h1, by simpa using h2⟩

end LC3
