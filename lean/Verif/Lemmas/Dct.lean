import Verif.Lemmas.Dft
import Mathlib.Algebra.BigOperators.Intervals

/-! The type-IV discrete cosine transform and its computation by a complex Fourier transform of half the size. -/

namespace LC3

open Finset

/-- The orthonormal type-IV discrete cosine transform of `n` points. -/
noncomputable def dct4 (n : ℕ) (t : ℕ → ℝ) (k : ℕ) : ℝ :=
  Real.sqrt (2 / n) * ∑ l ∈ range n, t l * Real.cos (Real.pi / n * ((l : ℝ) + 1 / 2) * ((k : ℝ) + 1 / 2))

theorem sum_cos_half (α : ℝ) (n : ℕ) :
    2 * Real.sin (α / 2) * ∑ k ∈ range n, Real.cos (α * ((k : ℝ) + 1 / 2)) = Real.sin (α * n) := by
  induction n with
  | zero => simp
  | succ n ih =>
    rw [Finset.sum_range_succ, mul_add, ih]
    have h1 : α * ((n + 1 : ℕ) : ℝ) = α * ((n : ℝ) + 1 / 2) + α / 2 := by push_cast; ring
    have h2 : α * (n : ℝ) = α * ((n : ℝ) + 1 / 2) - α / 2 := by ring
    rw [h1, h2, Real.sin_add, Real.sin_sub]
    ring

theorem sum_cos_zero (n : ℕ) (d : ℤ) (h0 : d ≠ 0) (h1 : d.natAbs < 2 * n) :
    ∑ k ∈ range n, Real.cos (Real.pi / n * d * ((k : ℝ) + 1 / 2)) = 0 := by
  have hn : 0 < n := by omega
  have hn' : (n : ℝ) ≠ 0 := by exact_mod_cast hn.ne'
  have h := sum_cos_half (Real.pi / n * d) n
  have e : Real.pi / n * d * n = d * Real.pi := by field_simp
  rw [e, Real.sin_int_mul_pi] at h
  have hs : Real.sin (Real.pi / n * d / 2) ≠ 0 := by
    intro hs
    rw [Real.sin_eq_zero_iff] at hs
    obtain ⟨m, hm⟩ := hs
    have hp := Real.pi_ne_zero
    have : (m : ℝ) * (2 * n) = d := by
      have : (m : ℝ) * Real.pi * (2 * n) = Real.pi * d := by rw [hm]; field_simp
      have h3 : Real.pi * ((m : ℝ) * (2 * n)) = Real.pi * d := by rw [← this]; ring
      exact mul_left_cancel₀ hp h3
    have h3 : m * (2 * (n : ℤ)) = d := by exact_mod_cast this
    have h4 : d.natAbs = m.natAbs * (2 * n) := by rw [← h3, Int.natAbs_mul]; rfl
    rcases Nat.eq_zero_or_pos m.natAbs with hz | hz
    · rw [hz, Nat.zero_mul] at h4; omega
    · have := Nat.le_mul_of_pos_left (2 * n) hz
      omega
  rcases mul_eq_zero.mp h with h | h
  · exact absurd (by linarith) hs
  · exact h

theorem dct4_orth (n a b : ℕ) (ha : a < n) (hb : b < n) :
    ∑ k ∈ range n, Real.cos (Real.pi / n * ((a : ℝ) + 1 / 2) * ((k : ℝ) + 1 / 2)) *
      Real.cos (Real.pi / n * ((k : ℝ) + 1 / 2) * ((b : ℝ) + 1 / 2)) = if a = b then (n : ℝ) / 2 else 0 := by
  have e : ∀ k : ℕ, Real.cos (Real.pi / n * ((a : ℝ) + 1 / 2) * ((k : ℝ) + 1 / 2)) *
      Real.cos (Real.pi / n * ((k : ℝ) + 1 / 2) * ((b : ℝ) + 1 / 2)) =
      1 / 2 * Real.cos (Real.pi / n * ((a : ℤ) - (b : ℤ) : ℤ) * ((k : ℝ) + 1 / 2)) +
      1 / 2 * Real.cos (Real.pi / n * ((a : ℤ) + (b : ℤ) + 1 : ℤ) * ((k : ℝ) + 1 / 2)) := by
    intro k
    have h1 : Real.pi / n * (((a : ℤ) - (b : ℤ) : ℤ) : ℝ) * ((k : ℝ) + 1 / 2) =
      Real.pi / n * ((a : ℝ) + 1 / 2) * ((k : ℝ) + 1 / 2) - Real.pi / n * ((k : ℝ) + 1 / 2) * ((b : ℝ) + 1 / 2) := by push_cast; ring
    have h2 : Real.pi / n * (((a : ℤ) + (b : ℤ) + 1 : ℤ) : ℝ) * ((k : ℝ) + 1 / 2) =
      Real.pi / n * ((a : ℝ) + 1 / 2) * ((k : ℝ) + 1 / 2) + Real.pi / n * ((k : ℝ) + 1 / 2) * ((b : ℝ) + 1 / 2) := by push_cast; ring
    rw [h1, h2, Real.cos_sub, Real.cos_add]
    ring
  rw [Finset.sum_congr rfl (fun k _ => e k), Finset.sum_add_distrib, ← Finset.mul_sum, ← Finset.mul_sum,
    sum_cos_zero n ((a : ℤ) + (b : ℤ) + 1) (by omega) (by omega)]
  by_cases h : a = b
  · subst h
    rw [if_pos rfl]
    simp
    ring
  · rw [if_neg h, sum_cos_zero n ((a : ℤ) - (b : ℤ)) (by omega) (by omega)]
    ring

/-- The transform is its own inverse. -/
theorem dct4_invol (n : ℕ) (t : ℕ → ℝ) (k : ℕ) (hk : k < n) : dct4 n (dct4 n t) k = t k := by
  unfold dct4
  have hn : (0 : ℝ) < n := by exact_mod_cast (by omega : 0 < n)
  have e : ∀ l : ℕ, Real.sqrt (2 / n) * (∑ j ∈ range n, t j * Real.cos (Real.pi / n * ((j : ℝ) + 1 / 2) * ((l : ℝ) + 1 / 2))) *
      Real.cos (Real.pi / n * ((l : ℝ) + 1 / 2) * ((k : ℝ) + 1 / 2)) =
      ∑ j ∈ range n, Real.sqrt (2 / n) * (t j * (Real.cos (Real.pi / n * ((j : ℝ) + 1 / 2) * ((l : ℝ) + 1 / 2)) *
        Real.cos (Real.pi / n * ((l : ℝ) + 1 / 2) * ((k : ℝ) + 1 / 2)))) := by
    intro l
    rw [Finset.mul_sum, Finset.sum_mul]
    exact Finset.sum_congr rfl fun j _ => by ring
  rw [Finset.sum_congr rfl (fun l _ => e l), Finset.sum_comm]
  have e2 : ∀ j ∈ range n, ∑ l ∈ range n, Real.sqrt (2 / n) * (t j * (Real.cos (Real.pi / n * ((j : ℝ) + 1 / 2) * ((l : ℝ) + 1 / 2)) *
        Real.cos (Real.pi / n * ((l : ℝ) + 1 / 2) * ((k : ℝ) + 1 / 2)))) =
      if j = k then Real.sqrt (2 / n) * (t j * ((n : ℝ) / 2)) else 0 := by
    intro j hj
    rw [← Finset.mul_sum, ← Finset.mul_sum, dct4_orth n j k (Finset.mem_range.mp hj) hk]
    by_cases h : j = k
    · rw [if_pos h, if_pos h]
    · rw [if_neg h, if_neg h]; ring
  rw [Finset.sum_congr rfl e2, Finset.sum_ite_eq', if_pos (Finset.mem_range.mpr hk)]
  have h2 : Real.sqrt (2 / n) * Real.sqrt (2 / n) = 2 / n := Real.mul_self_sqrt (by positivity)
  calc Real.sqrt (2 / n) * (Real.sqrt (2 / n) * (t k * ((n : ℝ) / 2))) = (Real.sqrt (2 / n) * Real.sqrt (2 / n)) * (t k * ((n : ℝ) / 2)) := by ring
    _ = t k := by rw [h2]; field_simp

/-! ### Computation by a Fourier transform -/

/-- Exact rotation factors for `2 * m` points: `sqrt(sqrt(2 / n)) exp(2 i pi (p + 1/8) / (2 n))`, with `n = 2 * m`. -/
def ExactRot (m : ℕ) (tw : Option (ℕ × List ℝ)) : Prop :=
  ∃ w, tw = some (m, w) ∧ 2 * m ≤ w.length ∧ ∀ p, p < m →
    cplx w p = (Real.sqrt (Real.sqrt (2 / (2 * m : ℕ))) : ℂ) * Complex.exp (Real.pi * ((p : ℂ) + 1 / 8) / (2 * m : ℕ) * Complex.I)

/-- The angle of a product of 3 factors. -/
noncomputable def phase (m p q : ℕ) : ℝ := Real.pi / (2 * m : ℕ) * (2 * (p : ℝ) + 1 / 2) * (2 * (q : ℝ) + 1 / 2)

theorem rot_prod (m : ℕ) (hm : 0 < m) (w : List ℝ)
    (hw : ∀ p, p < m → cplx w p = (Real.sqrt (Real.sqrt (2 / (2 * m : ℕ))) : ℂ) *
      Complex.exp (Real.pi * ((p : ℂ) + 1 / 8) / (2 * m : ℕ) * Complex.I)) (p q : ℕ) (hp : p < m) (hq : q < m) :
    (starRingEnd ℂ) (cplx w p) * W m (q * p) * (starRingEnd ℂ) (cplx w q) =
      (Real.sqrt (2 / (2 * m : ℕ)) : ℂ) * Complex.exp (((-phase m p q : ℝ) : ℂ) * Complex.I) := by
  have hm' : (m : ℂ) ≠ 0 := by exact_mod_cast hm.ne'
  have hs : (Real.sqrt (Real.sqrt (2 / (2 * m : ℕ))) : ℂ) * (Real.sqrt (Real.sqrt (2 / (2 * m : ℕ))) : ℂ) = (Real.sqrt (2 / (2 * m : ℕ)) : ℂ) := by
    rw [← Complex.ofReal_mul, Real.mul_self_sqrt (Real.sqrt_nonneg _)]
  have hc : ∀ p : ℕ, (starRingEnd ℂ) (Complex.exp (Real.pi * ((p : ℂ) + 1 / 8) / (2 * m : ℕ) * Complex.I)) =
      Complex.exp (-(Real.pi * ((p : ℂ) + 1 / 8) / (2 * m : ℕ) * Complex.I)) := by
    intro p
    rw [← Complex.exp_conj]
    rw [show Real.pi * ((p : ℂ) + 1 / 8) / (2 * m : ℕ) * Complex.I = ((Real.pi * ((p : ℝ) + 1 / 8) / (2 * m : ℕ) : ℝ) : ℂ) * Complex.I by
      push_cast; ring, map_mul, Complex.conj_ofReal, Complex.conj_I, mul_neg]
  rw [hw p hp, hw q hq, map_mul, map_mul, Complex.conj_ofReal, hc, hc]
  unfold W phase
  rw [← hs]
  rw [show ∀ r a b c : ℂ, r * a * b * (r * c) = r * r * (a * b * c) by intros; ring, ← Complex.exp_add, ← Complex.exp_add]
  congr 2
  push_cast
  field_simp
  ring

theorem sum_even_odd (m : ℕ) (f : ℕ → ℝ) : ∑ l ∈ range (2 * m), f l = ∑ p ∈ range m, (f (2 * p) + f (2 * m - 1 - 2 * p)) := by
  rw [Finset.sum_add_distrib]
  have h1 : ∀ m : ℕ, ∑ l ∈ range (2 * m), f l = ∑ p ∈ range m, f (2 * p) + ∑ p ∈ range m, f (2 * p + 1) := by
    intro m
    induction m with
    | zero => simp
    | succ m ih =>
      rw [show 2 * (m + 1) = 2 * m + 1 + 1 by ring, Finset.sum_range_succ, Finset.sum_range_succ, ih, Finset.sum_range_succ, Finset.sum_range_succ]
      ring
  rw [h1, ← Finset.sum_range_reflect (fun p => f (2 * p + 1))]
  congr 1
  refine Finset.sum_congr rfl fun p hp => ?_
  rw [Finset.mem_range] at hp
  congr 1
  omega

theorem cos_shift (x : ℝ) (q : ℕ) : Real.cos (Real.pi * (2 * (q : ℝ) + 1 / 2) - x) = Real.sin x := by
  rw [show Real.pi * (2 * (q : ℝ) + 1 / 2) - x = (Real.pi / 2 - x) + (q : ℕ) * (2 * Real.pi) by ring, Real.cos_add_nat_mul_two_pi,
    Real.cos_pi_div_two_sub]

theorem cos_neg_shift (x : ℝ) (k : ℤ) : Real.cos (x + (2 * (k : ℝ) + 1) * Real.pi) = -Real.cos x := by
  rw [show x + (2 * (k : ℝ) + 1) * Real.pi = (x + Real.pi) + (k : ℤ) * (2 * Real.pi) by ring, Real.cos_add_int_mul_two_pi, Real.cos_add_pi]

/-- The two outcomes of the transform given by a complex number. -/
theorem dct4_fold (m : ℕ) (hm : 0 < m) (w : List ℝ)
    (hw : ∀ p, p < m → cplx w p = (Real.sqrt (Real.sqrt (2 / (2 * m : ℕ))) : ℂ) *
      Complex.exp (Real.pi * ((p : ℂ) + 1 / 8) / (2 * m : ℕ) * Complex.I)) (t : ℕ → ℝ) (q : ℕ) (hq : q < m) :
    (∑ p ∈ range m, (⟨t (2 * p), t (2 * m - 1 - 2 * p)⟩ : ℂ) * (starRingEnd ℂ) (cplx w p) * W m (q * p)) * (starRingEnd ℂ) (cplx w q) =
      ⟨dct4 (2 * m) t (2 * q), -dct4 (2 * m) t (2 * m - 1 - 2 * q)⟩ := by
  have hm0 : (m : ℝ) ≠ 0 := by exact_mod_cast hm.ne'
  rw [Finset.sum_mul]
  have e : ∀ p ∈ range m, (⟨t (2 * p), t (2 * m - 1 - 2 * p)⟩ : ℂ) * (starRingEnd ℂ) (cplx w p) * W m (q * p) * (starRingEnd ℂ) (cplx w q) =
      ⟨Real.sqrt (2 / (2 * m : ℕ)) * (t (2 * p) * Real.cos (phase m p q) + t (2 * m - 1 - 2 * p) * Real.sin (phase m p q)),
       Real.sqrt (2 / (2 * m : ℕ)) * (t (2 * m - 1 - 2 * p) * Real.cos (phase m p q) - t (2 * p) * Real.sin (phase m p q))⟩ := by
    intro p hp
    rw [show ∀ a b c d : ℂ, a * b * c * d = a * (b * c * d) by intros; ring, rot_prod m hm w hw p q (Finset.mem_range.mp hp) hq]
    apply Complex.ext
    · rw [Complex.mul_re, Complex.re_ofReal_mul, Complex.im_ofReal_mul, Complex.exp_ofReal_mul_I_re, Complex.exp_ofReal_mul_I_im,
        Real.cos_neg, Real.sin_neg]
      ring
    · rw [Complex.mul_im, Complex.re_ofReal_mul, Complex.im_ofReal_mul, Complex.exp_ofReal_mul_I_re, Complex.exp_ofReal_mul_I_im,
        Real.cos_neg, Real.sin_neg]
      ring
  rw [Finset.sum_congr rfl e]
  have hA : ∀ p, p < m → (((2 * m - 1 - 2 * p : ℕ) : ℝ) + 1 / 2) = (2 * m : ℕ) - (2 * (p : ℝ) + 1 / 2) := by
    intro p hp
    rw [show 2 * m - 1 - 2 * p = 2 * m - (1 + 2 * p) by omega, Nat.cast_sub (by omega)]
    push_cast; ring
  have c1 : ∀ p, Real.cos (Real.pi / (2 * m : ℕ) * (((2 * p : ℕ) : ℝ) + 1 / 2) * (((2 * q : ℕ) : ℝ) + 1 / 2)) = Real.cos (phase m p q) := by
    intro p; unfold phase; congr 1; push_cast; ring
  have c2 : ∀ p, p < m → Real.cos (Real.pi / (2 * m : ℕ) * (((2 * m - 1 - 2 * p : ℕ) : ℝ) + 1 / 2) * (((2 * q : ℕ) : ℝ) + 1 / 2)) =
      Real.sin (phase m p q) := by
    intro p hp
    rw [hA p hp, ← cos_shift _ q]
    unfold phase
    congr 1
    push_cast; field_simp
  have c3 : ∀ p, Real.cos (Real.pi / (2 * m : ℕ) * (((2 * p : ℕ) : ℝ) + 1 / 2) * (((2 * m - 1 - 2 * q : ℕ) : ℝ) + 1 / 2)) =
      Real.sin (phase m p q) := by
    intro p
    rw [hA q hq, ← cos_shift _ p]
    unfold phase
    congr 1
    push_cast; field_simp
  have c4 : ∀ p, p < m → Real.cos (Real.pi / (2 * m : ℕ) * (((2 * m - 1 - 2 * p : ℕ) : ℝ) + 1 / 2) * (((2 * m - 1 - 2 * q : ℕ) : ℝ) + 1 / 2)) =
      -Real.cos (phase m p q) := by
    intro p hp
    rw [hA q hq, hA p hp, ← cos_neg_shift _ ((m : ℤ) - p - q - 1)]
    unfold phase
    congr 1
    push_cast; field_simp; ring
  unfold dct4
  rw [sum_even_odd, sum_even_odd]
  apply Complex.ext
  · rw [Complex.re_sum]
    dsimp only
    rw [Finset.mul_sum]
    refine Finset.sum_congr rfl fun p hp => ?_
    rw [c1, c2 p (Finset.mem_range.mp hp)]
  · rw [Complex.im_sum]
    dsimp only
    rw [Finset.mul_sum, ← Finset.sum_neg_distrib]
    refine Finset.sum_congr rfl fun p hp => ?_
    rw [c3, c4 p (Finset.mem_range.mp hp)]
    ring

end LC3
