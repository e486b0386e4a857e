import Verif.Lemmas.Simd
import Mathlib.Tactic.Linarith
import Mathlib.Tactic.Ring
import Mathlib.Algebra.Order.Group.Unbundled.Int
import Mathlib.Algebra.Order.Ring.Abs

/-!
The level of the 50 Hz high-pass filter of the pitch analysis, `filter_hp50`, src/ltpf.c:184-197.

The outputs without input, from a state `(s1, s2)`, are `(P s1 + Q s2) / w` where `w` is a power of `2^30` and `(P, Q)` follows the recurrence
of the filter. A state that is reached by inputs of at most `hpM` has these outputs at most equal to what remains of the sum of the
magnitudes of the impulse response: these bounds, for the first 600 outputs, are an invariant. The rounding of the output is an
input of less than one unit, at the poles of the filter.
-/

set_option maxRecDepth 100000

namespace LC3

/-- The inputs: samples of at most 15600, through the resampler of the largest gain, 56941. -/
def hpM : Int := 15600 * 56941

/-- The outputs: at most 32660 once rounded on 16 bits. -/
def hpY : Int := 32660 * 65536

def hpK2 : Int := 1055267782 * hpM + 1037111617 * hpY

def hpB0 : Int := hpY - 1055267782 * hpM / 1073741824 - 2

/-- The part of the bound that an input takes, and the rounding. -/
def hpC (P Q w : Int) : Int :=
  (hpM * (P * (1073741824 * -2110535566 - -2110217691 * 1055267782) + Q * (1073741824 * 1055267782 - 1037111617 * 1055267782)).natAbs +
    1073741824 * (P * -2110217691 + Q * 1037111617).natAbs) / (w * 1073741824) + 1

/-- The bounds on the outputs, and the check of the last one. -/
def hpGo : Nat → Int → Int → Int → Int → Bool
  | 0, P, Q, b, w => decide ((P.natAbs : Int) * (hpB0 * 1073741824) + Q.natAbs * hpK2 ≤ b * w)
  | k + 1, P, Q, b, w =>
    if b < 0 then false
    else if w ≤ 0 then false
    else hpGo k (- -2110217691 * P - 1037111617 * Q) (1073741824 * P) (b - hpC P Q w) (w * 1073741824)

/-- The bounds on the outputs from the state `(s1, s2)`. -/
def HpOk (s1 s2 : Int) : Nat → Int → Int → Int → Int → Prop
  | 0, _, _, _, _ => True
  | k + 1, P, Q, b, w => |P * s1 + Q * s2| ≤ b * w ∧
    HpOk s1 s2 k (- -2110217691 * P - 1037111617 * Q) (1073741824 * P) (b - hpC P Q w) (w * 1073741824)

theorem hpGo_ok : hpGo 601 1 0 hpB0 1073741824 = true := by decide +kernel

theorem hp_closing (P Q b w s1 s2 : Int) (h : (P.natAbs : Int) * (hpB0 * 1073741824) + Q.natAbs * hpK2 ≤ b * w)
    (h1 : |s1| ≤ hpB0 * 1073741824) (h2 : |s2| ≤ hpK2) : |P * s1 + Q * s2| ≤ b * w := by
  have e1 : |P * s1| ≤ |P| * (hpB0 * 1073741824) := by
    rw [abs_mul]; exact mul_le_mul_of_nonneg_left h1 (abs_nonneg _)
  have e2 : |Q * s2| ≤ |Q| * hpK2 := by
    rw [abs_mul]; exact mul_le_mul_of_nonneg_left h2 (abs_nonneg _)
  rw [Int.natCast_natAbs, Int.natCast_natAbs] at h
  exact (abs_add_le _ _).trans (by linarith)

/-- The first bound of `HpOk`, or the last check. -/
theorem hp_head (k : Nat) (P Q b w s1 s2 : Int) (hg : hpGo k P Q b w = true) (h : HpOk s1 s2 k P Q b w)
    (h1 : |s1| ≤ hpB0 * 1073741824) (h2 : |s2| ≤ hpK2) : |P * s1 + Q * s2| ≤ b * w := by
  cases k with
  | zero =>
    unfold hpGo at hg
    exact hp_closing P Q b w s1 s2 (of_decide_eq_true hg) h1 h2
  | succ k => exact h.1

/-- A step of the filter keeps the bounds. -/
theorem hp_step (s1 s2 u y : Int) (hu : |u| ≤ hpM) (hy : y = (s1 + u * 1055267782) / 1073741824) (h1 : |s1| ≤ hpB0 * 1073741824)
    (h2 : |s2| ≤ hpK2) : ∀ (k : Nat) (P Q b w : Int), hpGo k P Q b w = true → HpOk s1 s2 k P Q b w →
      HpOk (s2 + u * -2110535566 - y * -2110217691) (u * 1055267782 - y * 1037111617) k P Q b w
  | 0, _, _, _, _, _, _ => trivial
  | k + 1, P, Q, b, w, hg, h => by
    unfold hpGo at hg
    split at hg
    · cases hg
    split at hg
    · cases hg
    rename_i hb hw
    obtain ⟨-, ht⟩ := h
    have head := hp_head k _ _ _ _ s1 s2 hg ht h1 h2
    refine ⟨?_, hp_step s1 s2 u y hu hy h1 h2 k _ _ _ _ hg ht⟩
    have hc : hpM * |P * (1073741824 * -2110535566 - -2110217691 * 1055267782) +
        Q * (1073741824 * 1055267782 - 1037111617 * 1055267782)| + 1073741824 * |P * -2110217691 + Q * 1037111617| ≤
        hpC P Q w * (w * 1073741824) := by
      unfold hpC
      rw [Int.natCast_natAbs, Int.natCast_natAbs]
      generalize hpM * _ + _ = t
      have hw' : 0 < w * 1073741824 := by omega
      have := Int.lt_ediv_add_one_mul_self t hw'
      linarith
    generalize hpC P Q w = c at *
    obtain ⟨e, he⟩ : ∃ e, s1 + u * 1055267782 = 1073741824 * y + e := ⟨s1 + u * 1055267782 - 1073741824 * y, by omega⟩
    have he0 : |e| ≤ 1073741824 := by rw [abs_le]; omega
    have key : 1073741824 * (P * (s2 + u * -2110535566 - y * -2110217691) + Q * (u * 1055267782 - y * 1037111617)) =
        ((- -2110217691 * P - 1037111617 * Q) * s1 + 1073741824 * P * s2) +
        u * (P * (1073741824 * -2110535566 - -2110217691 * 1055267782) +
          Q * (1073741824 * 1055267782 - 1037111617 * 1055267782)) + e * (P * -2110217691 + Q * 1037111617) := by
      have : e = s1 + u * 1055267782 - 1073741824 * y := by omega
      rw [this]; ring
    generalize P * (1073741824 * -2110535566 - -2110217691 * 1055267782) +
        Q * (1073741824 * 1055267782 - 1037111617 * 1055267782) = D at *
    generalize P * -2110217691 + Q * 1037111617 = F at *
    have eD : |u * D| ≤ hpM * |D| := by rw [abs_mul]; exact mul_le_mul_of_nonneg_right hu (abs_nonneg _)
    have eF : |e * F| ≤ 1073741824 * |F| := by rw [abs_mul]; exact mul_le_mul_of_nonneg_right he0 (abs_nonneg _)
    have : 1073741824 * |P * (s2 + u * -2110535566 - y * -2110217691) + Q * (u * 1055267782 - y * 1037111617)| ≤
        1073741824 * (b * w) := by
      have e0 : (1073741824 : Int) = |1073741824| := rfl
      calc 1073741824 * |P * (s2 + u * -2110535566 - y * -2110217691) + Q * (u * 1055267782 - y * 1037111617)|
          = |1073741824 * (P * (s2 + u * -2110535566 - y * -2110217691) + Q * (u * 1055267782 - y * 1037111617))| := by
            rw [abs_mul]; rfl
        _ ≤ _ := by
            rw [key]
            refine (abs_add_le _ _).trans ?_
            have := abs_add_le ((- -2110217691 * P - 1037111617 * Q) * s1 + 1073741824 * P * s2) (u * D)
            linarith
    linarith

/-- The state of the filter, fed with inputs of at most `hpM`. -/
structure Hp50.Bounded (h : Hp50) : Prop where
  s1 : |h.s1| ≤ hpB0 * 1073741824
  s2 : |h.s2| ≤ hpK2
  ok : HpOk h.s1 h.s2 601 1 0 hpB0 1073741824

theorem HpOk_zero : ∀ (k : Nat) (P Q b w : Int), hpGo k P Q b w = true → HpOk 0 0 k P Q b w
  | 0, _, _, _, _, _ => trivial
  | k + 1, P, Q, b, w, hg => by
    unfold hpGo at hg
    split at hg
    · cases hg
    split at hg
    · cases hg
    rename_i hb hw
    refine ⟨?_, HpOk_zero k _ _ _ _ hg⟩
    rw [mul_zero, mul_zero, add_zero, abs_zero]
    exact mul_nonneg (by omega) (by omega)

theorem Hp50.bounded_zero : Hp50.Bounded ⟨0, 0⟩ := ⟨by decide, by decide, HpOk_zero _ _ _ _ _ hpGo_ok⟩

theorem filterHp50_bounded (h : Hp50) (u : Int) (hb : h.Bounded) (hu : |u| ≤ hpM) :
    ∃ y h', filterHp50 h u = some (y, h') ∧ h'.Bounded ∧ |y| ≤ hpY := by
  obtain ⟨b1, b2, b3⟩ := hb
  have hmM : hpM = 888279600 := by decide
  have hmY : hpY = 2140405760 := by decide
  have hmB : hpB0 = 1267409269 := by decide
  have hmK : hpK2 = 3157212522077561120 := by decide
  have hy : |(h.s1 + u * 1055267782) / 1073741824| ≤ hpY := by
    rw [abs_le] at *; omega
  have hst := hp_step h.s1 h.s2 u _ hu rfl b1 b2 601 1 0 hpB0 1073741824 hpGo_ok b3
  have h0 := hst.1
  generalize hyy : (h.s1 + u * 1055267782) / 1073741824 = y at *
  have h0' : |h.s2 + u * -2110535566 - y * -2110217691| ≤ hpB0 * 1073741824 := by
    rw [one_mul, zero_mul, add_zero] at h0; exact h0
  have h2' : |u * 1055267782 - y * 1037111617| ≤ hpK2 := by
    rw [abs_le] at *; omega
  refine ⟨y, ⟨h.s2 + u * -2110535566 - y * -2110217691, u * 1055267782 - y * 1037111617⟩, ?_, ⟨h0', h2', hst⟩, hy⟩
  have i64v : ∀ v : Int, -9223372036854775808 ≤ v → v ≤ 9223372036854775807 → i64 v = some v := by
    intro v c1 c2; unfold i64; rw [if_pos]; omega
  rw [abs_le] at *
  unfold filterHp50
  simp only [Option.bind_eq_bind]
  rw [i64v _ (by omega) (by omega), Option.bind_some, i64v _ (by omega) (by omega), Option.bind_some, hyy, toI32_id y (by omega) (by omega),
    i64v _ (by omega) (by omega), Option.bind_some, i64v _ (by omega) (by omega), Option.bind_some]
  rfl

theorem hpRun_bounded : ∀ (us : List Int) (hp : Hp50), hp.Bounded → (∀ u ∈ us, |u| ≤ hpM) →
    ∃ y hp', hpRun us hp = some (y, hp') ∧ hp'.Bounded ∧ ∀ x ∈ y, -32660 ≤ x ∧ x ≤ 32660
  | [], hp, hb, _ => ⟨[], hp, rfl, hb, fun x hx => by cases hx⟩
  | u :: us, hp, hb, hu => by
    obtain ⟨y, hp1, e1, b1, l1⟩ := filterHp50_bounded hp u hb (hu u (by simp))
    obtain ⟨ys, hp2, e2, b2, l2⟩ := hpRun_bounded us hp1 b1 (fun v hv => hu v (by simp [hv]))
    have hmY : hpY = 2140405760 := by decide
    rw [abs_le, hmY] at l1
    refine ⟨toI16 ((y + 32768) / 65536) :: ys, hp2, ?_, b2, ?_⟩
    · unfold hpRun
      rw [e1, Option.bind_some]
      have : i32 (y + 32768) = some (y + 32768) := by unfold i32; rw [if_pos]; omega
      dsimp only
      rw [this, Option.bind_some, e2, Option.bind_some]
    · intro x hx
      rcases List.mem_cons.mp hx with rfl | hx
      · unfold toI16; omega
      · exact l2 x hx

/-! ### The level of the resampler -/

theorem dotSum_level (m : Int) (hm : 0 ≤ m) : ∀ xs hs : List Int, (∀ x ∈ xs, |x| ≤ m) → |dotSum xs hs| ≤ m * absSum hs
  | [], hs, _ => by
    have := absSum_nonneg hs
    show |(0 : Int)| ≤ _
    rw [abs_zero]; exact mul_nonneg hm this
  | x :: xs, [], _ => by show |(0 : Int)| ≤ m * 0; simp
  | x :: xs, h :: hs, hx => by
    have ih := dotSum_level m hm xs hs (fun v hv => hx v (by simp [hv]))
    have e : dotSum (x :: xs) (h :: hs) = x * h + dotSum xs hs := by simp [dotSum]
    have h1 : |x * h| ≤ m * |h| := by rw [abs_mul]; exact mul_le_mul_of_nonneg_right (hx x (by simp)) (abs_nonneg _)
    rw [e]
    simp only [absSum, Int.natCast_natAbs]
    have := abs_add_le (x * h) (dotSum xs hs)
    linarith

/-- The largest sum of the magnitudes of the coefficients. -/
theorem resampler_gain (sr : Srate) (k : Nat) (hk : k < (resampler sr).p) :
    absSum (((resampler sr).h.drop (k * (resampler sr).w)).take (resampler sr).w) ≤ 56941 := by
  have : ((List.range (resampler sr).p).all fun k =>
      decide (absSum (((resampler sr).h.drop (k * (resampler sr).w)).take (resampler sr).w) ≤ 56941)) = true := by
    cases sr <;> decide +kernel
  exact of_decide_eq_true (List.all_eq_true.mp this k (List.mem_range.mpr hk))

end LC3
