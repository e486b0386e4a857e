import Verif.Lemmas.Dft
import Mathlib.Algebra.Order.Floor.Ring

/-!
The exact arithmetic of an ordered field: the rational numbers (`Arith.exact`, that can be evaluated) and the real numbers (`Arith.real`).
-/

namespace LC3

/-- The exact operations of an ordered field. -/
noncomputable def Arith.ofField (K : Type) [Field K] [LinearOrder K] [IsStrictOrderedRing K] [FloorRing K] : Arith K where
  ofRat := fun q => (q : K)
  add := (· + ·)
  sub := (· - ·)
  mul := (· * ·)
  div := (· / ·)
  max := Max.max
  abs := fun a => |a|
  lt := fun a b => @decide (a < b) (Classical.dec _)
  le := fun a b => @decide (a ≤ b) (Classical.dec _)
  floor := Int.floor
  trunc := fun a => @ite _ (a < 0) (Classical.dec _) (-⌊-a⌋) ⌊a⌋

theorem ofField_real : Arith.ofField ℝ = Arith.real := rfl

theorem ofField_exact : Arith.ofField Rat = Arith.exact := by
  have e1 : (Max.max : Rat → Rat → Rat) = fun a b => if a ≤ b then b else a := by
    funext a b
    by_cases h : a ≤ b
    · rw [if_pos h, max_eq_right h]
    · rw [if_neg h, max_eq_left (le_of_lt (not_le.mp h))]
  have e2 : (fun a : Rat => |a|) = fun a => if a < 0 then -a else a := by
    funext a
    by_cases h : a < 0
    · rw [if_pos h, abs_of_neg h]
    · rw [if_neg h, abs_of_nonneg (not_lt.mp h)]
  have e3 : (fun a b : Rat => @decide (a < b) (Classical.dec _)) = fun a b => decide (a < b) := by
    funext a b; congr
  have e4 : (fun a b : Rat => @decide (a ≤ b) (Classical.dec _)) = fun a b => decide (a ≤ b) := by
    funext a b; congr
  have e5 : (fun a : Rat => @ite _ (a < 0) (Classical.dec _) (-⌊-a⌋) ⌊a⌋) = fun a => if a < 0 then -(Rat.floor (-a)) else Rat.floor a := by
    funext a
    by_cases h : a < 0
    · rw [if_pos h, if_pos h]; rfl
    · rw [if_neg h, if_neg h]; rfl
  unfold Arith.ofField
  rw [e1, e2, e3, e4, e5]
  rfl

end LC3
