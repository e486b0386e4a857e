import Verif.Lemmas.Sns
import Mathlib.Algebra.Order.Field.Rat
import Mathlib.Data.Rat.Floor
import Mathlib.Algebra.Order.Floor.Ring
import Mathlib.Tactic.Linarith
import Mathlib.Tactic.NormNum
import Mathlib.Tactic.Ring
import Mathlib.Tactic.Positivity
import Mathlib.Tactic.GCongr

/-!
Search of the pulses: the number of pulses.
-/

namespace LC3

/-! ### Number of pulses of non-negative vectors -/

def Nonneg (y : List Int) : Prop := ∀ c ∈ y, 0 ≤ c

theorem psum_nonneg (y : List Int) (h : Nonneg y) : (psum y : Int) = y.sum := by
  induction y with
  | nil => rfl
  | cons c y ih =>
    have h1 := h c (by simp)
    have := ih (fun c' h' => h c' (by simp [h']))
    simp only [psum, List.sum_cons, Nat.cast_add]
    omega

theorem sum_set (y : List Int) (n : Nat) (hn : n < y.length) :
    (y.set n (y.getD n 0 + 1)).sum = y.sum + 1 := by
  induction y generalizing n with
  | nil => simp at hn
  | cons c y ih =>
    cases n with
    | zero => simp; omega
    | succ n =>
      simp only [List.set_cons_succ, List.sum_cons, List.getD_cons_succ]
      rw [ih n (by simpa using hn)]
      omega

theorem nonneg_set (y : List Int) (n : Nat) (h : Nonneg y) : Nonneg (y.set n (y.getD n 0 + 1)) := by
  intro c hc
  rcases List.mem_or_eq_of_mem_set hc with h1 | h1
  · exact h c h1
  · subst h1
    by_cases hn : n < y.length
    · have := h (y.getD n 0) (by rw [List.getD_eq_getElem?_getD, List.getElem?_eq_getElem hn]; exact List.getElem_mem hn)
      omega
    · rw [List.getD_eq_getElem?_getD, List.getElem?_eq_none (by omega)]; decide

section
variable {R : Type} [Inhabited R] (A : Arith R)

theorem bestPulse_lt (corr energy : R) (x : List R) (y : List Int) (k i : Nat) (c2 e : R) (nb n : Nat)
    (hnb : nb < n) (hk : i + k ≤ n) : bestPulse A corr energy x y k i c2 e nb < n := by
  induction k generalizing i c2 e nb with
  | zero => exact hnb
  | succ k ih =>
    simp only [bestPulse]
    split
    · exact ih _ _ _ _ (by omega) (by omega)
    · exact ih _ _ _ _ hnb (by omega)

theorem addPulse_spec (x : List R) (n k : Nat) (y : List Int) (corr energy : R) (hn : 1 ≤ n)
    (hl : n ≤ y.length) (hy : Nonneg y) :
    (addPulse A x n k y corr energy).1.length = y.length ∧
    Nonneg (addPulse A x n k y corr energy).1 ∧
    (addPulse A x n k y corr energy).1.sum = y.sum + k ∧
    (addPulse A x n k y corr energy).1.drop n = y.drop n := by
  induction k generalizing y corr energy with
  | zero => exact ⟨rfl, hy, by simp [addPulse], rfl⟩
  | succ k ih =>
    simp only [addPulse]
    have hb := bestPulse_lt A corr energy x y (n - 1) 1 (pulseC2 A corr x 0) (pulseE A energy y 0) 0 n
      (by omega) (by omega)
    generalize bestPulse A corr energy x y (n - 1) 1 (pulseC2 A corr x 0) (pulseE A energy y 0) 0 = nb at *
    obtain ⟨i1, i2, i3, i4⟩ := ih (y.set nb (y.getD nb 0 + 1)) (A.add corr (cell x nb))
      (A.add energy (A.ofInt (2 * y.getD nb 0 + 1))) (by rw [List.length_set]; exact hl) (nonneg_set y nb hy)
    refine ⟨by rw [i1, List.length_set], i2, ?_, ?_⟩
    · rw [i3, sum_set y nb (by omega)]; push_cast; omega
    · rw [i4, List.drop_set_of_lt hb]

/-- A pulse configuration of a shape: 16 values; 10 pulses in the first 10 values for the shapes 0 and
1, 8 or 6 pulses in 16 values for the shapes 2 and 3; one more pulse in the last 6 values for the shape
0, none for the shape 1. -/
def PulsesOk (shape : Nat) (c : List Int) : Prop :=
  c.length = 16 ∧
  match shape with
  | 0 => psum (c.take 10) = 10 ∧ psum (c.drop 10) = 1
  | 1 => psum (c.take 10) = 10 ∧ psum (c.drop 10) = 0
  | 2 => psum c = 8
  | _ => psum c = 6

theorem sum_take_drop (l : List Int) (n : Nat) : l.sum = (l.take n).sum + (l.drop n).sum := by
  conv_lhs => rw [← List.take_append_drop n l]
  rw [List.sum_append]

theorem Nonneg.take {l : List Int} (h : Nonneg l) (n : Nat) : Nonneg (l.take n) :=
  fun c hc => h c (List.mem_of_mem_take hc)

theorem Nonneg.drop {l : List Int} (h : Nonneg l) (n : Nat) : Nonneg (l.drop n) :=
  fun c hc => h c (List.mem_of_mem_drop hc)

theorem Nonneg.sum {l : List Int} (h : Nonneg l) : 0 ≤ l.sum := by
  rw [← psum_nonneg l h]; exact Int.natCast_nonneg _

theorem pulses_spec (xm : List R) (hx : xm.length = 16) (h0 : Nonneg (initPulses A xm))
    (h6 : (initPulses A xm).sum ≤ 6) :
    PulsesOk 0 (pulses A xm).1 ∧ PulsesOk 1 (pulses A xm).2.1 ∧ PulsesOk 2 (pulses A xm).2.2.1 ∧
    PulsesOk 3 (pulses A xm).2.2.2 ∧
    Nonneg (pulses A xm).1 ∧ Nonneg (pulses A xm).2.1 ∧ Nonneg (pulses A xm).2.2.1 ∧
    Nonneg (pulses A xm).2.2.2 := by
  unfold pulses
  have hlen : (initPulses A xm).length = 16 := by simp [initPulses, hx]
  generalize hc : initPulses A xm = c at *
  have hs0 := h0.sum
  dsimp only
  generalize initCorr A xm c = ce
  obtain ⟨a1, a2, a3, a4⟩ := addPulse_spec A xm 16 (6 - c.sum).toNat c ce.1 ce.2 (by omega) (by omega) h0
  generalize addPulse A xm 16 (6 - c.sum).toNat c ce.1 ce.2 = q3 at *
  obtain ⟨b1, b2, b3, b4⟩ := addPulse_spec A xm 16 (8 - 6) q3.1 q3.2.1 q3.2.2 (by omega) (by omega) a2
  generalize addPulse A xm 16 (8 - 6) q3.1 q3.2.1 q3.2.2 = q2 at *
  generalize dropCorr A xm q2.1 q2.2.1 q2.2.2 = ce1
  have e2 : q2.1.sum = 8 := by omega
  have e3 : q3.1.sum = 6 := by omega
  have d1 := (b2.drop 10).sum
  have d2 := (b2.take 10).sum
  have d3 := sum_take_drop q2.1 10
  have hn1 : Nonneg (q2.1.take 10 ++ List.replicate 6 0) := by
    intro v hv
    rw [List.mem_append] at hv
    rcases hv with hv | hv
    · exact b2.take 10 v hv
    · rw [List.eq_of_mem_replicate hv]
  have hl1 : (q2.1.take 10).length = 10 := by rw [List.length_take]; omega
  have hl1' : (q2.1.take 10 ++ List.replicate 6 (0 : Int)).length = 16 := by
    rw [List.length_append, hl1]; rfl
  obtain ⟨c1, c2, c3, c4⟩ := addPulse_spec A xm 10 (10 - (8 - (q2.1.drop 10).sum)).toNat
    (q2.1.take 10 ++ List.replicate 6 0) ce1.1 ce1.2 (by omega) (by omega) hn1
  generalize addPulse A xm 10 (10 - (8 - (q2.1.drop 10).sum)).toNat
    (q2.1.take 10 ++ List.replicate 6 0) ce1.1 ce1.2 = q1 at *
  have hs1 : (q2.1.take 10 ++ List.replicate 6 (0 : Int)).sum = (q2.1.take 10).sum := by
    rw [List.sum_append]
    simp
  have hd1 : (q2.1.take 10 ++ List.replicate 6 (0 : Int)).drop 10 = List.replicate 6 0 := by
    rw [List.drop_append_of_le_length (by omega), List.drop_eq_nil_of_le (by omega)]
    rfl
  rw [hd1] at c4
  have e1 : q1.1.sum = 10 := by omega
  have f1 := sum_take_drop q1.1 10
  have f2 : (q1.1.drop 10).sum = 0 := by rw [c4]; simp
  obtain ⟨g1, g2, g3, g4⟩ := addPulse_spec A (xm.drop 10) 6 (1 - 0) (q1.1.drop 10) q1.2.1 q1.2.2 (by omega)
    (by rw [List.length_drop]; omega) (c2.drop 10)
  generalize addPulse A (xm.drop 10) 6 (1 - 0) (q1.1.drop 10) q1.2.1 q1.2.2 = q0 at *
  have lt1 : (q1.1.take 10).length = 10 := by rw [List.length_take]; omega
  have p1 : psum (q1.1.take 10) = 10 := by
    have := psum_nonneg _ (c2.take 10); omega
  have p0 : psum q0.1 = 1 := by
    have := psum_nonneg _ g2; omega
  have t0 : (q1.1.take 10 ++ q0.1).take 10 = q1.1.take 10 := by
    rw [List.take_append_of_le_length (by omega), List.take_of_length_le (by omega)]
  have t1 : (q1.1.take 10 ++ q0.1).drop 10 = q0.1 := by
    rw [List.drop_append_of_le_length (by omega), List.drop_eq_nil_of_le (by omega)]
    rfl
  rw [List.length_drop] at g1
  refine ⟨⟨?_, ?_, ?_⟩, ⟨by omega, p1, ?_⟩, ⟨by omega, ?_⟩, ⟨by omega, ?_⟩, ?_, c2, b2, a2⟩
  · rw [List.length_append]; omega
  · rw [t0]; exact p1
  · rw [t1]; exact p0
  · rw [c4]; exact psum_replicate 6
  · have := psum_nonneg _ b2
    change psum q2.1 = 8
    omega
  · have := psum_nonneg _ a2
    change psum q3.1 = 6
    omega
  · intro v hv
    rw [List.mem_append] at hv
    rcases hv with hv | hv
    · exact c2.take 10 v hv
    · exact g2 v hv

omit [Inhabited R] in
theorem withSigns_psum (x : List R) (c : List Int) (h : c.length ≤ x.length) :
    psum (withSigns A x c) = psum c ∧ (withSigns A x c).length = c.length := by
  induction c generalizing x with
  | nil => simp [withSigns, psum]
  | cons v c ih =>
    cases x with
    | nil => simp at h
    | cons w x =>
      obtain ⟨i1, i2⟩ := ih x (by simpa using h)
      unfold withSigns at *
      simp only [List.zip_cons_cons, List.map_cons, psum, i1, List.length_cons, i2, and_true]
      split <;> omega

omit [Inhabited R] in
theorem withSigns_take (x : List R) (c : List Int) (n : Nat) :
    (withSigns A x c).take n = withSigns A (x.take n) (c.take n) := by
  unfold withSigns
  rw [← List.map_take]
  congr 1
  induction n generalizing x c with
  | zero => rfl
  | succ n ih =>
    cases x with
    | nil => rfl
    | cons a x => cases c with
      | nil => rfl
      | cons b c => simp only [List.zip_cons_cons, List.take_succ_cons, ih]

omit [Inhabited R] in
theorem withSigns_drop (x : List R) (c : List Int) (n : Nat) :
    (withSigns A x c).drop n = withSigns A (x.drop n) (c.drop n) := by
  unfold withSigns
  rw [← List.map_drop]
  congr 1
  induction n generalizing x c with
  | zero => rfl
  | succ n ih =>
    cases x with
    | nil => simp
    | cons a x => cases c with
      | nil => simp
      | cons b c => simp only [List.zip_cons_cons, List.drop_succ_cons, ih]

omit [Inhabited R] in
theorem withSigns_ok (x : List R) (c : List Int) (s : Nat) (hx : x.length = 16) (h : PulsesOk s c) :
    PulsesOk s (withSigns A x c) := by
  obtain ⟨h1, h2⟩ := h
  have hw := withSigns_psum A x c (by omega)
  have ht := withSigns_psum A (x.take 10) (c.take 10) (by simp only [List.length_take]; omega)
  have hd := withSigns_psum A (x.drop 10) (c.drop 10) (by simp only [List.length_drop]; omega)
  refine ⟨by omega, ?_⟩
  rw [withSigns_take, withSigns_drop, ht.1, hd.1, hw.1]
  exact h2

theorem candidates_ok (x : List R) (hx : x.length = 16) (h0 : Nonneg (initPulses A (x.map A.abs)))
    (h6 : (initPulses A (x.map A.abs)).sum ≤ 6) (s : Nat) (hs : s < 4) :
    PulsesOk s ((candidates A x).getD s []) := by
  obtain ⟨p0, p1, p2, p3, -⟩ := pulses_spec A (x.map A.abs) (by simp [hx]) h0 h6
  unfold candidates
  have : s = 0 ∨ s = 1 ∨ s = 2 ∨ s = 3 := by omega
  rcases this with rfl | rfl | rfl | rfl
  · exact withSigns_ok A x _ _ hx p0
  · exact withSigns_ok A x _ _ hx p1
  · exact withSigns_ok A x _ _ hx p2
  · exact withSigns_ok A x _ _ hx p3

end

/-! ### Selections -/

section
variable {R : Type} (A : Arith R)

theorem selectGain_lt (mse : Nat → R) (count : Nat) (m : R) (h : 0 < count) :
    (selectGain A mse count m).1 < count := by
  unfold selectGain
  have : ∀ (l : List Nat) (s : Nat × R), (∀ i ∈ l, i < count) → s.1 < count →
      (l.foldl (fun (s : Nat × R) ig => if A.lt (mse ig) s.2 then (ig, mse ig) else s) s).1 < count := by
    intro l
    induction l with
    | nil => intro s _ h; exact h
    | cons i l ih =>
      intro s h1 h2
      rw [List.foldl_cons]
      apply ih _ (fun j hj => h1 j (by simp [hj]))
      split
      · exact h1 i (by simp)
      · exact h2
  exact this _ _ (fun i hi => List.mem_range.mp hi) h

theorem selectCodebook_lt (d : Nat → R) : selectCodebook A d < 32 := by
  unfold selectCodebook
  have : ∀ (l : List Nat) (s : Nat × R), (∀ i ∈ l, i < 32) → s.1 < 32 →
      (l.foldl (fun (s : Nat × R) icb =>
        if icb = 0 || A.lt (d icb) s.2 then (icb, d icb) else s) s).1 < 32 := by
    intro l
    induction l with
    | nil => intro s _ h; exact h
    | cons i l ih =>
      intro s h1 h2
      rw [List.foldl_cons]
      apply ih _ (fun j hj => h1 j (by simp [hj]))
      split
      · exact h1 i (by simp)
      · exact h2
  exact this _ _ (fun i hi => List.mem_range.mp hi) (Nat.zero_lt_succ _)

theorem selectShape_lt (mse : Nat → Nat → R) (m : R) :
    let s := selectShape A mse [2, 4, 4, 8] m
    s.1 < 4 ∧ s.2 < snsGains s.1 := by
  unfold selectShape
  dsimp only
  have : ∀ (l : List Nat) (s : Nat × Nat × R), (∀ i ∈ l, i < 4) → s.1 < 4 ∧ s.2.1 < snsGains s.1 →
      let q := l.foldl (fun (s : Nat × Nat × R) ic =>
        let g := selectGain A (mse ic) ([2, 4, 4, 8].getD ic 0) m
        if A.lt g.2 s.2.2 then (ic, g.1, g.2) else s) s
      q.1 < 4 ∧ q.2.1 < snsGains q.1 := by
    intro l
    induction l with
    | nil => intro s _ h; exact h
    | cons i l ih =>
      intro s h1 h2
      rw [List.foldl_cons]
      apply ih _ (fun j hj => h1 j (by simp [hj]))
      dsimp only
      split
      · have hi := h1 i (by simp)
        refine ⟨hi, ?_⟩
        have hcnt : [2, 4, 4, 8].getD i 0 = snsGains i := by
          have : i = 0 ∨ i = 1 ∨ i = 2 ∨ i = 3 := by omega
          rcases this with rfl | rfl | rfl | rfl <;> rfl
        have hpos : 0 < snsGains i := by unfold snsGains; split <;> decide
        dsimp only
        rw [hcnt]
        exact selectGain_lt A (mse i) (snsGains i) m hpos
      · exact h2
  exact this _ _ (fun i hi => List.mem_range.mp hi) ⟨Nat.zero_lt_succ _, (by decide : 0 < snsGains 0)⟩

end

/-! ### The initial projection, with rounding -/

/-- Hypotheses on the arithmetic, for the projection: `val` gives the value of a float (finite). Each
operation on non-negative numbers has a relative error below `2^-20` in the direction that matters (single
precision guarantees `2^-24`); a product may be inaccurate below 1 (underflow). -/
structure Arith.Rounds {R : Type} (A : Arith R) (val : R → Rat) : Prop where
  zero : val (A.ofInt 0) = 0
  five : val (A.ofInt (6 - 1)) = 5
  tiny : 0 < val (A.ofRat (1 / 10 ^ 31))
  abs : ∀ a, 0 ≤ val (A.abs a)
  add : ∀ a b, 0 ≤ val a → 0 ≤ val b → (1 - 1 / 2 ^ 20) * (val a + val b) ≤ val (A.add a b)
  max : ∀ a b, val a ≤ val (A.max a b) ∧ val b ≤ val (A.max a b)
  div : ∀ a b, 0 ≤ val a → 0 < val b →
    0 ≤ val (A.div a b) ∧ val (A.div a b) ≤ (1 + 1 / 2 ^ 20) * (val a / val b)
  mul : ∀ a b, 0 ≤ val a → 0 ≤ val b →
    0 ≤ val (A.mul a b) ∧ (val (A.mul a b) < 1 ∨ val (A.mul a b) ≤ (1 + 1 / 2 ^ 20) * (val a * val b))
  floor : ∀ a, A.floor a = ⌊val a⌋

section
variable {R : Type} (A : Arith R) (val : R → Rat)

theorem sumAbs_ge (h : A.Rounds val) (xm : List R) (hx : ∀ v ∈ xm, 0 ≤ val v) (s : R) (hs : 0 ≤ val s) :
    0 ≤ val (xm.foldl A.add s) ∧
    (1 - 1 / 2 ^ 20) ^ xm.length * (val s + (xm.map val).sum) ≤ val (xm.foldl A.add s) := by
  induction xm generalizing s with
  | nil => simpa using hs
  | cons v xm ih =>
    have hv := hx v (by simp)
    have ha := h.add s v hs hv
    have hpos : (0 : Rat) ≤ val (A.add s v) := by
      refine le_trans ?_ ha
      apply mul_nonneg (by norm_num) (by linarith)
    obtain ⟨i1, i2⟩ := ih (fun w hw => hx w (by simp [hw])) (A.add s v) hpos
    refine ⟨i1, ?_⟩
    simp only [List.foldl_cons, List.length_cons, List.map_cons, List.sum_cons]
    refine le_trans ?_ i2
    have hsum : 0 ≤ (xm.map val).sum := by
      apply List.sum_nonneg
      intro w hw
      obtain ⟨u, hu, rfl⟩ := List.mem_map.mp hw
      exact hx u (by simp [hu])
    rw [pow_succ]
    have hp : (0 : Rat) ≤ (1 - 1 / 2 ^ 20) ^ xm.length := by
      apply pow_nonneg; norm_num
    have : (1 - 1 / 2 ^ 20) * (val s + (val v + (xm.map val).sum)) ≤ val (A.add s v) + (xm.map val).sum := by
      have e : (1 - 1 / 2 ^ 20 : Rat) * (val s + (val v + (xm.map val).sum)) =
        (1 - 1 / 2 ^ 20) * (val s + val v) + (1 - 1 / 2 ^ 20) * (xm.map val).sum := by ring
      rw [e]
      have : (1 - 1 / 2 ^ 20 : Rat) * (xm.map val).sum ≤ (xm.map val).sum := by
        have : (0 : Rat) ≤ 1 / 2 ^ 20 * (xm.map val).sum := mul_nonneg (by norm_num) hsum
        linarith
      linarith
    calc _ = (1 - 1 / 2 ^ 20 : Rat) ^ xm.length *
          ((1 - 1 / 2 ^ 20) * (val s + (val v + (xm.map val).sum))) := by ring
      _ ≤ _ := mul_le_mul_of_nonneg_left this hp

theorem initPulses_spec (h : A.Rounds val) (x : List R) (hx : x.length = 16) :
    Nonneg (initPulses A (x.map A.abs)) ∧ (initPulses A (x.map A.abs)).sum ≤ 5 := by
  have hxm : ∀ v ∈ x.map A.abs, 0 ≤ val v := by
    intro v hv
    obtain ⟨u, -, rfl⟩ := List.mem_map.mp hv
    exact h.abs u
  have hlen : (x.map A.abs).length = 16 := by simp [hx]
  generalize x.map A.abs = xm at *
  -- projection factor
  obtain ⟨s0, s1⟩ := sumAbs_ge A val h xm hxm (A.ofInt 0) (by rw [h.zero])
  rw [h.zero, zero_add, hlen] at s1
  have hsum : 0 ≤ (xm.map val).sum := by
    apply List.sum_nonneg
    intro w hw
    obtain ⟨u, hu, rfl⟩ := List.mem_map.mp hw
    exact hxm u hu
  have m := h.max (sumAbs A xm) (A.ofRat (1 / 10 ^ 31))
  have ht := h.tiny
  have hM : 0 < val (A.max (sumAbs A xm) (A.ofRat (1 / 10 ^ 31))) := lt_of_lt_of_le ht m.2
  have hMs : (1 - 1 / 2 ^ 20 : Rat) ^ 16 * (xm.map val).sum ≤
      val (A.max (sumAbs A xm) (A.ofRat (1 / 10 ^ 31))) := le_trans s1 m.1
  obtain ⟨d0, d1⟩ := h.div (A.ofInt (6 - 1)) _ (by rw [h.five]; norm_num) hM
  rw [h.five] at d1
  change 0 ≤ val (projFactor A xm) at d0
  change val (projFactor A xm) ≤ _ at d1
  generalize val (A.max (sumAbs A xm) (A.ofRat (1 / 10 ^ 31))) = M at *
  have hps : (1 + 1 / 2 ^ 20 : Rat) * (val (projFactor A xm) * (xm.map val).sum) < 6 := by
    have a1 : val (projFactor A xm) * (xm.map val).sum ≤
        (1 + 1 / 2 ^ 20) * (5 / M) * (xm.map val).sum := mul_le_mul_of_nonneg_right d1 hsum
    have a2 : (5 / M) * (xm.map val).sum ≤ 5 / (1 - 1 / 2 ^ 20 : Rat) ^ 16 := by
      rw [div_mul_eq_mul_div, div_le_div_iff₀ hM (by norm_num)]
      calc 5 * (xm.map val).sum * (1 - 1 / 2 ^ 20) ^ 16 =
          5 * ((1 - 1 / 2 ^ 20) ^ 16 * (xm.map val).sum) := by ring
        _ ≤ 5 * M := by linarith
    have a3 : (1 + 1 / 2 ^ 20 : Rat) * (5 / M) * (xm.map val).sum ≤
        (1 + 1 / 2 ^ 20) * (5 / (1 - 1 / 2 ^ 20 : Rat) ^ 16) := by
      rw [mul_assoc]
      exact mul_le_mul_of_nonneg_left a2 (by norm_num)
    have a4 : val (projFactor A xm) * (xm.map val).sum ≤
      (1 + 1 / 2 ^ 20) * (5 / (1 - 1 / 2 ^ 20 : Rat) ^ 16) := le_trans a1 a3
    have a5 : (1 + 1 / 2 ^ 20 : Rat) * ((1 + 1 / 2 ^ 20) * (5 / (1 - 1 / 2 ^ 20 : Rat) ^ 16)) < 6 := by
      norm_num
    exact lt_of_le_of_lt (mul_le_mul_of_nonneg_left a4 (by norm_num)) a5
  unfold initPulses
  generalize projFactor A xm = pf at *
  clear d1 hMs hM s1 s0 m hlen
  constructor
  · intro c hc
    obtain ⟨v, hv, rfl⟩ := List.mem_map.mp hc
    rw [h.floor]
    exact Int.floor_nonneg.mpr (h.mul v pf (hxm v hv) d0).1
  · have key : ∀ l : List R, (∀ v ∈ l, 0 ≤ val v) →
        (((l.map fun v => A.floor (A.mul v pf)).sum : Int) : Rat) ≤
          (1 + 1 / 2 ^ 20) * (val pf * (l.map val).sum) := by
      intro l
      induction l with
      | nil => intro _; simp
      | cons v l ih =>
        intro hl
        have hv := hl v (by simp)
        have i1 := ih (fun w hw => hl w (by simp [hw]))
        simp only [List.map_cons, List.sum_cons, Int.cast_add]
        obtain ⟨m1, m2⟩ := h.mul v pf hv d0
        have hfl : ((A.floor (A.mul v pf) : Int) : Rat) ≤ (1 + 1 / 2 ^ 20) * (val v * val pf) := by
          rw [h.floor]
          rcases m2 with m2 | m2
          · have : ⌊val (A.mul v pf)⌋ = 0 := Int.floor_eq_zero_iff.mpr ⟨m1, m2⟩
            rw [this]
            have : (0 : Rat) ≤ (1 + 1 / 2 ^ 20) * (val v * val pf) :=
              mul_nonneg (by norm_num) (mul_nonneg hv d0)
            simpa using this
          · exact le_trans (Int.floor_le _) m2
        calc _ ≤ (1 + 1 / 2 ^ 20 : Rat) * (val v * val pf) +
              (1 + 1 / 2 ^ 20) * (val pf * (l.map val).sum) := add_le_add hfl i1
          _ = _ := by ring
    have := lt_of_le_of_lt (key xm hxm) hps
    have h6 : ((xm.map fun v => A.floor (A.mul v pf)).sum : Int) < 6 := by exact_mod_cast this
    omega

end

end LC3
