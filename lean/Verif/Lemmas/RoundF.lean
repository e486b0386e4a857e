import Verif.Lemmas.Level
import Verif.Lemmas.FftErr
import Mathlib.Tactic.Linarith
import Mathlib.Tactic.NormNum

/-! Roundings of the single precision: half a unit of the 24th significant bit, or of `2^-149`, as long as the outcome does not go over
`2^126`. Nothing is known of the outcome over this limit. -/

namespace LC3

structure RoundF (rnd : Rat → Rat) : Prop where
  zero : rnd 0 = 0
  near : ∀ x, |x| ≤ 2 ^ 126 → |rnd x - x| ≤ (|x| + 1 / 2 ^ 126) / 2 ^ 24
  rel : ∀ x, 1 / 2 ^ 126 ≤ |x| → |x| ≤ 2 ^ 126 → |rnd x - x| ≤ |x| / 2 ^ 24

theorem Round24.roundF {rnd : Rat → Rat} (h : Round24 rnd) : RoundF rnd where
  zero := by
    have := h 0
    rw [abs_zero, zero_div, sub_zero] at this
    exact abs_eq_zero.1 (le_antisymm this (abs_nonneg _))
  near x _ := by
    refine (h x).trans ?_
    apply div_le_div_of_nonneg_right _ (by norm_num)
    exact le_add_of_nonneg_right (by norm_num)
  rel x _ _ := h x

variable {rnd : Rat → Rat}

theorem RoundF.mag (h : RoundF rnd) {x b : Rat} (hx : |x| ≤ b) (hb : b ≤ 2 ^ 126) : |rnd x| ≤ b + (b + 1 / 2 ^ 126) / 2 ^ 24 := by
  have h1 := h.near x (hx.trans hb)
  have h2 : (|x| + 1 / 2 ^ 126) / 2 ^ 24 ≤ (b + 1 / 2 ^ 126) / 2 ^ 24 := by
    apply div_le_div_of_nonneg_right _ (by norm_num)
    linarith
  have h3 := abs_add_le (rnd x - x) x
  rw [sub_add_cancel] at h3
  linarith

theorem RoundF.err (h : RoundF rnd) {x b : Rat} (hx : |x| ≤ b) (hb : b ≤ 2 ^ 126) : |rnd x - x| ≤ (b + 1 / 2 ^ 126) / 2 ^ 24 := by
  have h1 := h.near x (hx.trans hb)
  have h2 : (|x| + 1 / 2 ^ 126) / 2 ^ 24 ≤ (b + 1 / 2 ^ 126) / 2 ^ 24 := by
    apply div_le_div_of_nonneg_right _ (by norm_num)
    linarith
  linarith

theorem RoundF.real (h : RoundF rnd) (q : Rat) (hq : |(q : ℝ)| ≤ 2 ^ 126) : |((rnd q : Rat) : ℝ) - q| ≤ (|(q : ℝ)| + 1 / 2 ^ 126) / 2 ^ 24 := by
  have h1 : |q| ≤ 2 ^ 126 := by
    have : ((|q| : Rat) : ℝ) ≤ ((2 ^ 126 : Rat) : ℝ) := by push_cast; exact hq
    exact_mod_cast this
  have h2 : ((|rnd q - q| : Rat) : ℝ) ≤ (((|q| + 1 / 2 ^ 126) / 2 ^ 24 : Rat) : ℝ) := by exact_mod_cast h.near q h1
  push_cast at h2
  exact h2

theorem RoundF.approx (h : RoundF rnd) : Approx (Arith.rounded rnd) (fun q : Rat => (q : ℝ)) where
  add a b hb := by have := h.real (a + b) (by push_cast; exact hb); push_cast at this; exact this
  sub a b hb := by have := h.real (a - b) (by push_cast; exact hb); push_cast at this; exact this
  mul a b hb := by have := h.real (a * b) (by push_cast; exact hb); push_cast at this; exact this
  ofRat q hb := h.real q hb
  zero := by
    change ((rnd 0 : Rat) : ℝ) = 0
    rw [h.zero]
    norm_num

/-- A product with a coefficient of a lattice filter, added to or removed from a value. -/
theorem RoundF.lattice (h : RoundF rnd) {a s r : Rat} (σ : Rat) (hσ : σ = 1 ∨ σ = -1) (hr : |r| ≤ 1) (ha : |a| ≤ 2 ^ 120) (hs : |s| ≤ 2 ^ 120) (p : Rat)
    (hp : |p - s * r| ≤ (|s| + 1 / 2 ^ 126) / 2 ^ 24) :
    |rnd (a + σ * p) - (a + σ * (s * r))| ≤ (|a| + |s| + 1 / 2 ^ 100) * (101 / 100) / 2 ^ 23 := by
  have hσ1 : |σ| = 1 := by rcases hσ with e | e <;> rw [e] <;> norm_num
  have hsr : |s * r| ≤ |s| := by
    rw [abs_mul]
    have := mul_le_mul_of_nonneg_left hr (abs_nonneg s)
    linarith
  have hp2 : |p| ≤ |s| + (|s| + 1 / 2 ^ 126) / 2 ^ 24 := by
    have := abs_add_le (p - s * r) (s * r)
    rw [sub_add_cancel] at this
    linarith
  have hx : |a + σ * p| ≤ |a| + (|s| + (|s| + 1 / 2 ^ 126) / 2 ^ 24) := by
    have := abs_add_le a (σ * p)
    rw [abs_mul, hσ1, one_mul] at this
    linarith
  have h1 := h.err hx (by norm_num at ha hs ⊢; linarith)
  have h2 := abs_add_le (rnd (a + σ * p) - (a + σ * p)) (σ * (p - s * r))
  rw [abs_mul, hσ1, one_mul] at h2
  rw [show rnd (a + σ * p) - (a + σ * p) + σ * (p - s * r) = rnd (a + σ * p) - (a + σ * (s * r)) by ring] at h2
  have a0 := abs_nonneg a
  have s0 := abs_nonneg s
  norm_num at h1 h2 hp ⊢
  linarith

end LC3
