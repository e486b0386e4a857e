import Mathlib.Dynamics.PeriodicPts.Defs
import Mathlib.Data.Nat.Prime.Basic
import Mathlib.Data.Fintype.EquivFin
import Mathlib.Tactic.Ring
import Verif.Model.Noise
import Verif.Model.Plc

/-!
Period of the pseudo-random generators.
-/

namespace LC3

/-- An affine generator of 16 bits. -/
def affine (p : Nat × Nat) (x : Nat) : Nat := (p.2 + x * p.1) % 65536

/-- The generator applied twice is an affine generator. -/
def affineTwice (p : Nat × Nat) : Nat × Nat := (p.1 * p.1 % 65536, (p.2 + p.2 * p.1) % 65536)

theorem affine_twice (p : Nat × Nat) (x : Nat) : affine p (affine p x) = affine (affineTwice p) x := by
  unfold affine affineTwice
  dsimp only
  have h : (p.2 + (p.2 + x * p.1) % 65536 * p.1) % 65536 = (p.2 + (p.2 + x * p.1) * p.1) % 65536 := by
    rw [Nat.add_mod, Nat.mul_mod, Nat.mod_mod, ← Nat.mul_mod, ← Nat.add_mod]
  rw [h]
  conv_rhs => rw [Nat.add_mod, Nat.mul_mod x, Nat.mod_mod, Nat.mod_mod, ← Nat.mul_mod, ← Nat.add_mod]
  congr 1
  ring

theorem affine_iter (p : Nat × Nat) (k x : Nat) : (affine p)^[2 ^ k] x = affine (affineTwice^[k] p) x := by
  induction k generalizing p x with
  | zero => rfl
  | succ k ih =>
    have e : (affine p)^[2] = affine (affineTwice p) := by
      funext x
      exact affine_twice p x
    rw [show 2 ^ (k + 1) = 2 * 2 ^ k by ring, Function.iterate_mul, e, ih]
    rfl

/-- A generator with these iterates has all the states in one orbit. -/
theorem affine_period (p : Nat × Nat) (h15 : affineTwice^[15] p = (1, 32768)) (h16 : affineTwice^[16] p = (1, 0))
    (s : Nat) (hs : s < 65536) : Function.minimalPeriod (affine p) s = 65536 := by
  have p16 : Function.IsPeriodicPt (affine p) (2 ^ 16) s := by
    change (affine p)^[2 ^ 16] s = s
    rw [affine_iter, h16]
    unfold affine
    dsimp only
    omega
  have n15 : ¬ Function.IsPeriodicPt (affine p) (2 ^ 15) s := by
    change ¬ (affine p)^[2 ^ 15] s = s
    rw [affine_iter, h15]
    unfold affine
    dsimp only
    omega
  obtain ⟨k, hk, e⟩ := (Nat.dvd_prime_pow Nat.prime_two).mp p16.minimalPeriod_dvd
  by_cases hk : k = 16
  · rw [e, hk]; rfl
  · exfalso
    apply n15
    rw [Function.isPeriodicPt_iff_minimalPeriod_dvd, e]
    exact pow_dvd_pow 2 (by omega)

theorem affine_lt (p : Nat × Nat) (k s : Nat) (hs : s < 65536) : (affine p)^[k] s < 65536 := by
  cases k with
  | zero => exact hs
  | succ k =>
    rw [Function.iterate_succ_apply']
    unfold affine
    omega

theorem affine_visits (p : Nat × Nat) (h15 : affineTwice^[15] p = (1, 32768)) (h16 : affineTwice^[16] p = (1, 0))
    (s t : Nat) (hs : s < 65536) (ht : t < 65536) : ∃! k, k < 65536 ∧ (affine p)^[k] s = t := by
  have hp := affine_period p h15 h16 s hs
  have hinj := Function.iterate_injOn_Iio_minimalPeriod (f := affine p) (x := s)
  rw [hp] at hinj
  let f : Fin 65536 → Fin 65536 := fun k => ⟨(affine p)^[k.1] s, affine_lt p k.1 s hs⟩
  have hf : Function.Injective f := by
    intro a b h
    have h1 := congrArg Fin.val h
    exact Fin.ext (hinj a.2 b.2 h1)
  obtain ⟨k, hk⟩ := (Finite.injective_iff_surjective.mp hf) ⟨t, ht⟩
  refine ⟨k.1, ⟨k.2, congrArg Fin.val hk⟩, ?_⟩
  rintro y ⟨y1, y2⟩
  exact hinj y1 k.2 (y2.trans (congrArg Fin.val hk).symm)

theorem noiseLcg_affine : noiseLcg = affine (31821, 13849) := by
  funext s
  unfold noiseLcg affine
  rw [show 0xffff = 2 ^ 16 - 1 from rfl, Nat.and_two_pow_sub_one_eq_mod]

theorem plcLcg_affine : plcLcg = affine (12821, 16831) := by
  funext s
  unfold plcLcg affine
  rw [show 0xffff = 2 ^ 16 - 1 from rfl, Nat.and_two_pow_sub_one_eq_mod]

theorem noise15 : affineTwice^[15] (31821, 13849) = (1, 32768) := by decide +kernel
theorem noise16 : affineTwice^[16] (31821, 13849) = (1, 0) := by decide +kernel
theorem plc15 : affineTwice^[15] (12821, 16831) = (1, 32768) := by decide +kernel
theorem plc16 : affineTwice^[16] (12821, 16831) = (1, 0) := by decide +kernel

end LC3
