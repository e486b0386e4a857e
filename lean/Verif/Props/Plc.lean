import Mathlib.Algebra.Order.Field.Rat
import Mathlib.Tactic.Linarith
import Mathlib.Tactic.NormNum
import Mathlib.Tactic.Ring
import Mathlib.Tactic.Positivity
import Mathlib.Data.Nat.Bitwise
import Verif.Lemmas.Lcg

/-!
Properties of the packet loss concealment: C31 (attenuation) and C45 (length of the bursts).
-/

namespace LC3

/-! ### Histories -/

/-- What happens to the concealment: a good frame, or a lost one with the last good spectrum `x`. -/
inductive PlcEvent (R : Type) where
  | good
  | lost (x : List R)

/-- The state after a sequence of events, `none` when something is undefined. -/
def plcRun {R : Type} (A : Arith R) (ne : Nat) : List (PlcEvent R) → Plc R → Option (Plc R)
  | [], p => some p
  | .good :: l, p => plcRun A ne l (plcSuspend A p)
  | .lost x :: l, p => (plcSynthesize A ne p x).bind fun w => plcRun A ne l w.1

theorem plcRun_append {R : Type} (A : Arith R) (ne : Nat) (l m : List (PlcEvent R)) (p : Plc R) :
    plcRun A ne (l ++ m) p = (plcRun A ne l p).bind (plcRun A ne m) := by
  induction l generalizing p with
  | nil => rfl
  | cons e l ih =>
    cases e with
    | good => exact ih _
    | lost x =>
      change (plcSynthesize A ne p x).bind _ = ((plcSynthesize A ne p x).bind _).bind _
      cases plcSynthesize A ne p x with
      | none => rfl
      | some w => exact ih _

/-- The attenuation of the `n`-th frame of a burst of losses, as a product in the given arithmetic. -/
def burstAlpha {R : Type} (A : Arith R) : Nat → R
  | 0 => A.ofRat 1
  | n + 1 => A.mul (burstAlpha A n) (A.ofRat (if n + 1 < 4 then 1 else if n + 1 < 8 then 9/10 else 85/100))

theorem plcLoop_eq {R : Type} (A : Arith R) (alpha : R) (seed : Nat) (x : List R) :
    (plcLoop A alpha seed x).1 = plcLcg^[x.length] seed ∧ (plcLoop A alpha seed x).2.length = x.length ∧
    ∀ i v, x[i]? = some v → (plcLoop A alpha seed x).2[i]? =
      some (A.mul alpha (if (plcLcg^[i + 1] seed) &&& 0x8000 ≠ 0 then A.sub (A.ofRat 0) v else v)) := by
  induction x generalizing seed with
  | nil => exact ⟨rfl, rfl, fun i v h => by cases h⟩
  | cons x l ih =>
    obtain ⟨h1, h2, h3⟩ := ih (plcLcg seed)
    refine ⟨?_, ?_, ?_⟩
    · rw [List.length_cons, Function.iterate_succ_apply, ← h1]; rfl
    · rw [List.length_cons, ← h2]; rfl
    · intro i v h
      cases i with
      | zero =>
        obtain rfl := Option.some.inj h
        rfl
      | succ i => exact h3 i v h

theorem i32_ok (x : Int) (h1 : -2147483648 ≤ x) (h2 : x ≤ 2147483647) : i32 x = some x := by
  unfold i32; rw [if_pos ⟨h1, h2⟩]

theorem i32_none (x : Int) (h : 2147483647 < x) : i32 x = none := by
  unfold i32; rw [if_neg (by omega)]

/-- State in a burst: `n` frames lost since the last good one. -/
structure InBurst {R : Type} (A : Arith R) (n : Nat) (p : Plc R) : Prop where
  count : p.count = n + 1
  alpha : p.alpha = burstAlpha A n

theorem suspend_burst {R : Type} (A : Arith R) (p : Plc R) : InBurst A 0 (plcSuspend A p) := ⟨rfl, rfl⟩

theorem burst_step {R : Type} (A : Arith R) (ne n : Nat) (p : Plc R) (h : InBurst A n p) (x : List R)
    (hx : ne ≤ x.length) (hn : n + 2 < 2 ^ 31) :
    ∃ q y, plcSynthesize A ne p x = some (q, y) ∧ InBurst A (n + 1) q ∧ q.seed = plcLcg^[ne] p.seed ∧
      y = (plcLoop A (burstAlpha A (n + 1)) p.seed (x.take ne)).2 := by
  have ha : A.mul p.alpha (A.ofRat (plcFactor p.count)) = burstAlpha A (n + 1) := by
    rw [h.alpha, h.count, burstAlpha]
    congr 2
    unfold plcFactor
    by_cases h1 : n + 1 < 4
    · rw [if_pos (by omega), if_pos h1]
    · rw [if_neg (by omega), if_neg h1]
      by_cases h2 : n + 1 < 8
      · rw [if_pos (by omega), if_pos h2]
      · rw [if_neg (by omega), if_neg h2]
  have hl := (plcLoop_eq A (burstAlpha A (n + 1)) p.seed (x.take ne)).1
  rw [List.length_take, Nat.min_eq_left hx] at hl
  unfold plcSynthesize
  rw [if_neg (by omega), ha, h.count, i32_ok _ (by omega) (by omega)]
  exact ⟨_, _, rfl, ⟨by dsimp only; push_cast; ring, rfl⟩, hl, rfl⟩

/-- A burst of losses, from any state after a good frame. -/
theorem burst_run {R : Type} (A : Arith R) (ne : Nat) (xs : List (List R)) (hx : ∀ x ∈ xs, ne ≤ x.length) (n : Nat)
    (p : Plc R) (h : InBurst A n p) (hn : n + xs.length + 1 < 2 ^ 31) :
    ∃ q, plcRun A ne (xs.map .lost) p = some q ∧ InBurst A (n + xs.length) q ∧
      q.seed = plcLcg^[ne * xs.length] p.seed := by
  induction xs generalizing n p with
  | nil => exact ⟨p, rfl, h, rfl⟩
  | cons x xs ih =>
    rw [List.length_cons] at hn
    obtain ⟨q, y, h1, h2, h3, -⟩ := burst_step A ne n p h x (hx x (List.mem_cons_self)) (by omega)
    obtain ⟨q', i1, i2, i3⟩ := ih (fun z hz => hx z (List.mem_cons_of_mem _ hz)) (n + 1) q h2 (by omega)
    refine ⟨q', ?_, ?_, ?_⟩
    · rw [List.map_cons, plcRun, h1]; exact i1
    · rw [List.length_cons, show n + (xs.length + 1) = n + 1 + xs.length by omega]; exact i2
    · rw [i3, h3, List.length_cons, Nat.mul_succ, Function.iterate_add_apply]

/-! ### C31: attenuation -/

/-- **C31.** Whatever the arithmetic and the sequence of frames before: in a burst of losses after a good frame, the `n`-th
lost frame is the spectrum given with random signs, times the product of the factors: 1 for the three first losses, `0.9` for the
four following ones, then `0.85`. The signs are the bits 15 of the successive states of the generator,
which goes on from frame to frame; there are no other effects of the frames before. -/
theorem C31_burst {R : Type} (A : Arith R) (ne : Nat) (before : List (PlcEvent R)) (p0 p : Plc R)
    (hp : plcRun A ne before p0 = some p) (lost : List (List R)) (hl : ∀ x ∈ lost, ne ≤ x.length)
    (x : List R) (hx : ne ≤ x.length) (hn : lost.length + 2 < 2 ^ 31) :
    ∃ q r y, plcRun A ne (before ++ .good :: lost.map .lost) p0 = some q ∧
      plcSynthesize A ne q x = some (r, y) ∧ y.length = ne ∧
      r.alpha = burstAlpha A (lost.length + 1) ∧
      q.seed = plcLcg^[ne * lost.length] p.seed ∧ r.seed = plcLcg^[ne * (lost.length + 1)] p.seed ∧
      ∀ i v, i < ne → x[i]? = some v → y[i]? = some (A.mul (burstAlpha A (lost.length + 1))
        (if (plcLcg^[ne * lost.length + i + 1] p.seed).testBit 15 then A.sub (A.ofRat 0) v else v)) := by
  obtain ⟨q, h1, h2, h3⟩ := burst_run A ne lost hl 0 _ (suspend_burst A p) (by omega)
  rw [Nat.zero_add] at h2
  obtain ⟨r, y, g1, g2, g3, rfl⟩ := burst_step A ne _ q h2 x hx (by omega)
  obtain ⟨l1, l2, l3⟩ := plcLoop_eq A (burstAlpha A (lost.length + 1)) q.seed (x.take ne)
  refine ⟨q, r, _, ?_, g1, ?_, g2.alpha, h3, ?_, ?_⟩
  · rw [plcRun_append, hp]; exact h1
  · rw [l2, List.length_take, Nat.min_eq_left hx]
  · rw [g3, h3, ← Function.iterate_add_apply]
    congr 1
    ring
  · intro i v hi hv
    rw [l3 i v (by rw [List.getElem?_take, if_pos hi]; exact hv), h3]
    change some (A.mul _ (if (plcLcg^[i + 1] (plcLcg^[ne * lost.length] p.seed)) &&& 0x8000 ≠ 0 then _ else _)) = _
    rw [← Function.iterate_add_apply, show i + 1 + ne * lost.length = ne * lost.length + i + 1 by ring]
    generalize plcLcg^[ne * lost.length + i + 1] p.seed = t
    have : (t &&& 0x8000 ≠ 0) ↔ t.testBit 15 = true := by
      rw [show 0x8000 = 2 ^ 15 from rfl, Nat.and_two_pow]
      cases t.testBit 15 <;> decide
    by_cases h : t.testBit 15 = true
    · rw [if_pos (this.mpr h), if_pos h]
    · rw [if_neg (fun hh => h (this.mp hh)), if_neg h]

/-- **C31**, in exact arithmetic: the attenuation is 1 for the three first losses, and then strictly decreasing: `0.9^k` for
the loss `3 + k` up to the seventh, and then `0.9^4 0.85^k`. -/
theorem C31_schedule (n : Nat) :
    burstAlpha Arith.exact n = (9/10) ^ (min n 7 - 3) * (85/100) ^ (n - 7) := by
  induction n with
  | zero =>
    change (1:Rat) = _
    norm_num
  | succ n ih =>
    have hm : ∀ a b : Rat, Arith.exact.mul a (Arith.exact.ofRat b) = a * b := fun _ _ => rfl
    rw [burstAlpha, ih, hm]
    by_cases h1 : n + 1 < 4
    · rw [if_pos h1, show min n 7 - 3 = 0 by omega, show n - 7 = 0 by omega, show min (n + 1) 7 - 3 = 0 by omega,
        show n + 1 - 7 = 0 by omega, mul_one]
    · rw [if_neg h1]
      by_cases h2 : n + 1 < 8
      · rw [if_pos h2, show min (n + 1) 7 - 3 = (min n 7 - 3) + 1 by omega, show n - 7 = 0 by omega,
          show n + 1 - 7 = 0 by omega, pow_succ]
        ring
      · rw [if_neg h2, show min (n + 1) 7 - 3 = min n 7 - 3 by omega, show n + 1 - 7 = n - 7 + 1 by omega, pow_succ]
        ring

/-- **C31**, in exact arithmetic: positive, never above 1, never increasing, strictly decreasing after the third loss. -/
theorem C31_decreasing (n : Nat) :
    0 < burstAlpha Arith.exact n ∧ burstAlpha Arith.exact n ≤ 1 ∧
    burstAlpha Arith.exact (n + 1) ≤ burstAlpha Arith.exact n ∧
    (3 ≤ n → burstAlpha Arith.exact (n + 1) < burstAlpha Arith.exact n) := by
  have hm : ∀ a b : Rat, Arith.exact.mul a (Arith.exact.ofRat b) = a * b := fun _ _ => rfl
  have hpos : ∀ n, 0 < burstAlpha Arith.exact n := by
    intro n
    rw [C31_schedule]; positivity
  have hle : ∀ n, burstAlpha Arith.exact (n + 1) ≤ burstAlpha Arith.exact n := by
    intro n
    rw [burstAlpha, hm]
    have := hpos n
    split
    · linarith
    · split <;> linarith
  refine ⟨hpos n, ?_, hle n, ?_⟩
  · induction n with
    | zero => exact le_refl _
    | succ n ih => exact le_trans (hle n) ih
  · intro h
    rw [burstAlpha, hm, if_neg (by omega)]
    have := hpos n
    split <;> linarith

/-- **C31**, with rounding: for any monotonic rounding, exact on 0, 1 and on its own results, the attenuation is between 0 and 1 and never
increases during a burst. -/
theorem C31_rounded (rnd : Rat → Rat) (hmono : ∀ a b, a ≤ b → rnd a ≤ rnd b) (hidem : ∀ a, rnd (rnd a) = rnd a)
    (h0 : rnd 0 = 0) (h1 : rnd 1 = 1) (n : Nat) :
    0 ≤ burstAlpha (Arith.rounded rnd) n ∧ burstAlpha (Arith.rounded rnd) n ≤ 1 ∧
    burstAlpha (Arith.rounded rnd) (n + 1) ≤ burstAlpha (Arith.rounded rnd) n := by
  have hm : ∀ a b : Rat, (Arith.rounded rnd).mul a ((Arith.rounded rnd).ofRat b) = rnd (a * rnd b) := fun _ _ => rfl
  have hfix : ∀ n, rnd (burstAlpha (Arith.rounded rnd) n) = burstAlpha (Arith.rounded rnd) n := by
    intro n
    cases n with
    | zero => exact hidem 1
    | succ n => rw [burstAlpha, hm]; exact hidem _
  have hfac : ∀ n : Nat, 0 ≤ rnd (if n + 1 < 4 then (1:Rat) else if n + 1 < 8 then 9/10 else 85/100) ∧
      rnd (if n + 1 < 4 then (1:Rat) else if n + 1 < 8 then 9/10 else 85/100) ≤ 1 := by
    intro n
    have hb : (0:Rat) ≤ (if n + 1 < 4 then (1:Rat) else if n + 1 < 8 then 9/10 else 85/100) ∧
        (if n + 1 < 4 then (1:Rat) else if n + 1 < 8 then 9/10 else 85/100) ≤ 1 := by
      split
      · norm_num
      · split <;> norm_num
    have a := hmono _ _ hb.1
    have b := hmono _ _ hb.2
    rw [h0] at a
    rw [h1] at b
    exact ⟨a, b⟩
  have hpos : ∀ n, 0 ≤ burstAlpha (Arith.rounded rnd) n := by
    intro n
    induction n with
    | zero => exact le_trans (by norm_num) (le_of_eq h1.symm)
    | succ n ih =>
      rw [burstAlpha, hm]
      have := hmono _ _ (mul_nonneg ih (hfac n).1)
      rw [h0] at this
      exact this
  have hle : ∀ n, burstAlpha (Arith.rounded rnd) (n + 1) ≤ burstAlpha (Arith.rounded rnd) n := by
    intro n
    rw [burstAlpha, hm]
    have := hmono _ _ (mul_le_of_le_one_right (hpos n) (hfac n).2)
    rw [hfix] at this
    exact this
  refine ⟨hpos n, ?_, hle n⟩
  induction n with
  | zero => exact le_of_eq h1
  | succ n ih => exact le_trans (hle n) ih

/-- Non-vacuity of C31: two losses, a good frame, then five losses. -/
example : (plcRun Arith.exact 2 ([.lost [1, 2], .lost [3, 4], .good] ++ List.replicate 5 (.lost [5, -6])) (plcReset Arith.exact)).map
    (fun p => (p.count, p.alpha)) = some (6, 81/100) := by decide +kernel

/-! ### C45: length of the bursts -/

/-- **C45** is false: after `2^31 - 1` consecutive losses, the counter `int` of the losses overflows.
It is only reset by a good frame; with frames of 2.5 ms, this is 62 days without a good frame. -/
theorem C45_counter_overflow {R : Type} (A : Arith R) (ne : Nat) (x : List R) (hx : ne ≤ x.length) (p : Plc R) :
    plcRun A ne (.good :: List.replicate (2 ^ 31 - 1) (.lost x)) p = none := by
  have e : List.replicate (2 ^ 31 - 1) (PlcEvent.lost x) =
      (List.replicate (2 ^ 31 - 2) x).map .lost ++ [.lost x] := by
    rw [List.map_replicate, show 2 ^ 31 - 1 = 2 ^ 31 - 2 + 1 from rfl, List.replicate_succ']
  obtain ⟨q, h1, h2, -⟩ := burst_run A ne (List.replicate (2 ^ 31 - 2) x)
    (fun z hz => (List.eq_of_mem_replicate hz).symm ▸ hx) 0 _ (suspend_burst A p) (by rw [List.length_replicate]; omega)
  rw [List.length_replicate, Nat.zero_add] at h2
  rw [plcRun, e, plcRun_append, h1]
  change (plcSynthesize A ne q x).bind _ = none
  have : plcSynthesize A ne q x = none := by
    unfold plcSynthesize
    rw [if_neg (by omega), h2.count, i32_none _ (by omega)]
    rfl
  rw [this]; rfl

/-- **C45**, partial: nothing is undefined as long as each burst has less than `2^31 - 1` losses. -/
theorem C45_defined_partial {R : Type} (A : Arith R) (ne : Nat) (bursts : List (List (List R)))
    (hl : ∀ b ∈ bursts, b.length + 1 < 2 ^ 31 ∧ ∀ x ∈ b, ne ≤ x.length) (p : Plc R) :
    ∃ q, plcRun A ne (bursts.flatMap fun b => .good :: b.map .lost) p = some q := by
  induction bursts generalizing p with
  | nil => exact ⟨p, rfl⟩
  | cons b bs ih =>
    obtain ⟨h1, h2⟩ := hl b List.mem_cons_self
    obtain ⟨q, g1, -⟩ := burst_run A ne b h2 0 _ (suspend_burst A p) (by omega)
    rw [List.flatMap_cons, List.cons_append, plcRun, plcRun_append, g1]
    exact ih (fun b hb => hl b (List.mem_cons_of_mem _ hb)) q

example : (plcRun Arith.exact 1 ([[[1], [2]], [], [[3]]].flatMap fun b => .good :: b.map .lost) (plcReset Arith.exact)).isSome =
    true := by decide +kernel

end LC3
