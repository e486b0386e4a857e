import Mathlib.Algebra.Order.Field.Rat
import Mathlib.Data.Rat.Floor
import Mathlib.Tactic.Linarith
import Mathlib.Tactic.NormNum
import Mathlib.Tactic.Ring
import Mathlib.Tactic.Positivity
import Mathlib.Tactic.LinearCombination
import Verif.Lemmas.SpecResidual

/-!
The residual stage in exact arithmetic: agreement of both sides and error of the result.
-/

namespace LC3

/-- The rounding threshold. -/
def xqLim (hr : Bool) : Rat := if hr then 1/2 else 10/16

theorem exact_abs (x : Rat) : Arith.exact.abs x = |x| := by
  change (if x < 0 then -x else x) = |x|
  split
  · rename_i h; rw [abs_of_neg h]
  · rename_i h; rw [abs_of_nonneg (not_lt.mp h)]

theorem exact_lt (x y : Rat) : Arith.exact.lt x y = decide (x < y) := rfl

theorem exact_trunc (x : Rat) (h : 0 ≤ x) : Arith.exact.trunc x = ⌊x⌋ := by
  change (if x < 0 then -(Rat.floor (-x)) else Rat.floor x) = _
  rw [if_neg (not_lt.mpr h)]
  rfl

theorem exact_isZero (x : Rat) : Arith.exact.isZero x = decide (x = 0) := by
  change (decide (x ≤ 0) && decide (0 ≤ x)) = _
  rw [← Bool.decide_and]
  congr 1
  exact propext ⟨fun h => le_antisymm h.1 h.2, fun h => by subst h; exact ⟨le_refl _, le_refl _⟩⟩

/-- The sign of `x`, as a factor. -/
def SignOf (s x : Rat) : Prop := (s = 1 ∧ 0 ≤ x) ∨ (s = -1 ∧ x < 0)

theorem signOf_ex (x : Rat) : ∃ s, SignOf s x := by
  by_cases h : x < 0
  · exact ⟨-1, Or.inr ⟨rfl, h⟩⟩
  · exact ⟨1, Or.inl ⟨rfl, not_lt.mp h⟩⟩

theorem signOf_abs {s x : Rat} (h : SignOf s x) : |x| = s * x := by
  rcases h with ⟨rfl, h⟩ | ⟨rfl, h⟩
  · rw [abs_of_nonneg h]; ring
  · rw [abs_of_neg h]; ring

/-- The quantised magnitude of `x`. -/
theorem quantCoef_exact (hr : Bool) (x : Rat) : ((quantCoef Arith.exact hr x).1 : Int) =
    ⌊|x| + (1 - xqLim hr)⌋ ∧ (quantCoef Arith.exact hr x).2 = decide (x < 0) := by
  refine ⟨?_, rfl⟩
  unfold quantCoef xqLim
  dsimp only
  rw [exact_abs]
  have e : Arith.exact.add |x| (Arith.exact.ofRat (if hr then 1/2 else 6/16)) =
      |x| + (1 - if hr then 1/2 else 10/16) := by
    change |x| + (if hr then 1/2 else 6/16) = _
    cases hr <;> norm_num
  rw [e]
  have h0 : 0 ≤ |x| + (1 - if hr then 1/2 else 10/16 : Rat) := by
    have := abs_nonneg x
    cases hr <;> norm_num <;> linarith
  rw [exact_trunc _ h0]
  exact Int.toNat_of_nonneg (Int.floor_nonneg.mpr h0)

/-- The quantised magnitude is null below the threshold only. -/
theorem quant_cases (hr : Bool) (x : Rat) (q : Nat) (hq : (q : Int) = ⌊|x| + (1 - xqLim hr)⌋) :
    (q : Rat) - (1 - xqLim hr) ≤ |x| ∧ |x| < q + xqLim hr ∧ (|x| < xqLim hr ↔ q = 0) := by
  have h1 := Int.floor_le (|x| + (1 - xqLim hr))
  have h2 := Int.lt_floor_add_one (|x| + (1 - xqLim hr))
  rw [← hq] at h1 h2
  have h1 : (q : Rat) ≤ |x| + (1 - xqLim hr) := by exact_mod_cast h1
  have h2 : |x| + (1 - xqLim hr) < q + 1 := by exact_mod_cast h2
  refine ⟨by linarith, by linarith, ?_⟩
  constructor
  · intro h
    have : (q : Rat) < 1 := by linarith
    have : q < 1 := by exact_mod_cast this
    omega
  · intro h
    subst h
    norm_num at h2
    linarith

/-- The state of a coefficient of quantised magnitude `q`: the writer is at `q + e`, the
reader at `q + d` and the error is `e`. -/
structure RefState (t : Trip Rat) (s : Rat) (q : Nat) (e d : Rat) : Prop where
  sign : SignOf s t.1
  pos : 1 ≤ q
  wr : s * t.2.1 = q + e
  rd : s * t.2.2 = q + d
  err : s * t.1 = q + d + e

/-- A coefficient which is not refined. -/
def Zero (hr : Bool) (t : Trip Rat) : Prop := |t.1| < xqLim hr ∧ t.2.1 = t.1 ∧ t.2.2 = 0

theorem zero_step (hr : Bool) (off : Rat) (t : Trip Rat) (h : Zero hr t) :
    Arith.exact.lt (Arith.exact.abs t.1) (xqLim hr) = true ∧
    residualBit Arith.exact (xqLim hr) off t.2.1 = none ∧ Arith.exact.isZero t.2.2 = true := by
  obtain ⟨h1, h2, h3⟩ := h
  have e : Arith.exact.lt (Arith.exact.abs t.1) (xqLim hr) = true := by
    rw [exact_abs, exact_lt]; exact decide_eq_true h1
  refine ⟨e, ?_, ?_⟩
  · unfold residualBit
    dsimp only
    rw [h2, if_pos e]
  · rw [exact_isZero, h3]; rfl

theorem floor_add (q : Nat) (e : Rat) (h : 0 ≤ e) (h1 : e < 1) : ⌊(q : Rat) + e⌋ = q := by
  rw [Int.floor_eq_iff]
  constructor
  · push_cast; linarith
  · push_cast; linarith

theorem floor_sub (q : Nat) (e : Rat) (h : e < 0) (h1 : -1 ≤ e) : ⌊(q : Rat) + e⌋ = (q : Int) - 1 := by
  rw [Int.floor_eq_iff]
  constructor
  · push_cast; linarith
  · push_cast; linarith

theorem xqLim_range (hr : Bool) : 1/2 ≤ xqLim hr ∧ xqLim hr ≤ 10/16 := by
  unfold xqLim; cases hr <;> norm_num

/-- A step of refinement: the bit tells the sign of the error. -/
theorem ref_step (hr : Bool) (off off1 off2 : Rat) (t : Trip Rat) (s : Rat) (q : Nat) (e d : Rat)
    (h : RefState t s q e d) (he : -(1 - xqLim hr) ≤ e) (he2 : e < xqLim hr) (hd : -1 < d)
    (hx : xqLim hr ≤ |t.1|) :
    Arith.exact.lt (Arith.exact.abs t.1) (xqLim hr) = false ∧ Arith.exact.isZero t.2.2 = false ∧
    ∃ v, residualBit Arith.exact (xqLim hr) off t.2.1 =
        some (v, t.2.1 + s * (if 0 ≤ e then -off else off)) ∧
      residualMove Arith.exact off1 off2 t.2.2 v = t.2.2 + s * (if 0 ≤ e then off1 else -off2) := by
  obtain ⟨h1, h2, h3, h4, h5⟩ := h
  obtain ⟨l1, l2⟩ := xqLim_range hr
  have hq : (1 : Rat) ≤ q := by exact_mod_cast h2
  have hpos : 0 < s * t.2.1 := by rw [h3]; linarith
  have hposy : 0 < s * t.2.2 := by rw [h4]; linarith
  have hsx : SignOf s t.2.1 ∧ SignOf s t.2.2 ∧ t.2.2 ≠ 0 := by
    rcases h1 with ⟨rfl, h⟩ | ⟨rfl, h⟩
    · refine ⟨Or.inl ⟨rfl, ?_⟩, Or.inl ⟨rfl, ?_⟩, ?_⟩
      · linarith
      · linarith
      · intro h0; rw [h0] at hposy; linarith
    · refine ⟨Or.inr ⟨rfl, ?_⟩, Or.inr ⟨rfl, ?_⟩, ?_⟩
      · linarith
      · linarith
      · intro h0; rw [h0] at hposy; linarith
  obtain ⟨hs1, hs2, hy0⟩ := hsx
  have habs : |t.2.1| = q + e := by rw [signOf_abs hs1, h3]
  refine ⟨?_, ?_, ?_⟩
  · rw [exact_abs, exact_lt]; exact decide_eq_false (not_lt.mpr hx)
  · rw [exact_isZero]; exact decide_eq_false hy0
  have hfrac : Arith.exact.lt (Arith.exact.sub (Arith.exact.abs t.2.1)
      (Arith.exact.ofInt (Arith.exact.trunc (Arith.exact.abs t.2.1)))) (xqLim hr) = decide (0 ≤ e) := by
    rw [exact_abs, habs, exact_trunc _ (by linarith), exact_lt]
    change decide ((q : Rat) + e - ((⌊(q : Rat) + e⌋ : Int) : Rat) < xqLim hr) = _
    by_cases h0 : 0 ≤ e
    · rw [floor_add q e h0 (by linarith)]
      push_cast
      rw [decide_eq_true h0]
      exact decide_eq_true (by linarith)
    · rw [floor_sub q e (not_le.mp h0) (by linarith)]
      push_cast
      rw [decide_eq_false h0]
      exact decide_eq_false (by linarith)
  have hskip : Arith.exact.lt (Arith.exact.abs t.2.1) (xqLim hr) = false := by
    rw [exact_abs, exact_lt, habs]; exact decide_eq_false (by linarith)
  have hbit : residualBit Arith.exact (xqLim hr) off t.2.1 =
      some (b2n ((decide (0 ≤ e)).xor (decide (t.2.1 < 0))),
        t.2.1 + if (decide (0 ≤ e)).xor (decide (t.2.1 < 0)) then 0 - off else off) := by
    unfold residualBit
    dsimp only
    rw [hskip, if_neg (by simp), hfrac]
    rfl
  rw [hbit]
  have hmove : ∀ v : Nat, residualMove Arith.exact off1 off2 t.2.2 v =
      if v = 0 then t.2.2 - (if decide (t.2.2 < 0) = true then off1 else off2)
      else t.2.2 + (if decide (0 < t.2.2) = true then off1 else off2) := fun _ => rfl
  refine ⟨b2n ((decide (0 ≤ e)).xor (decide (t.2.1 < 0))), ?_, ?_⟩
  · congr 2
    rcases hs1 with ⟨rfl, hh⟩ | ⟨rfl, hh⟩
    · rw [decide_eq_false (not_lt.mpr hh)]
      by_cases h0 : 0 ≤ e
      · rw [decide_eq_true h0, if_pos h0, if_pos (by decide)]; ring
      · rw [decide_eq_false h0, if_neg h0, if_neg (by decide)]; ring
    · rw [decide_eq_true hh]
      by_cases h0 : 0 ≤ e
      · rw [decide_eq_true h0, if_pos h0, if_neg (by decide)]; ring
      · rw [decide_eq_false h0, if_neg h0, if_pos (by decide)]; ring
  · rw [hmove]
    rcases h1 with ⟨rfl, hh⟩ | ⟨rfl, hh⟩
    · have hy : 0 < t.2.2 := by linarith
      have hx0 : 0 < t.2.1 := by linarith
      rw [decide_eq_false (not_lt.mpr hx0.le), decide_eq_true hy, decide_eq_false (not_lt.mpr hy.le)]
      by_cases h0 : 0 ≤ e
      · rw [decide_eq_true h0, if_pos h0, if_neg (by decide), if_pos rfl]; ring
      · rw [decide_eq_false h0, if_neg h0, if_pos (by decide), if_neg (by decide)]; ring
    · have hy : t.2.2 < 0 := by linarith
      have hx0 : t.2.1 < 0 := by linarith
      rw [decide_eq_true hx0, decide_eq_true hy, decide_eq_false (not_lt.mpr hy.le)]
      by_cases h0 : 0 ≤ e
      · rw [decide_eq_true h0, if_pos h0, if_pos (by decide), if_pos rfl]; ring
      · rw [decide_eq_false h0, if_neg h0, if_neg (by decide), if_neg (by decide)]; ring

/-! ### Normal resolution -/

/-- Before (`k = 0`) and after (`k = 1`) the refinement, in normal resolution. -/
def RefN (k : Nat) (t : Trip Rat) : Prop :=
  Zero false t ∨ ∃ (s : Rat) (q : Nat), xqLim false ≤ |t.1| ∧ q = (quantCoef Arith.exact false t.1).1 ∧
    if k = 0 then ∃ e, RefState t s q e 0 ∧ -(6/16) ≤ e ∧ e < 10/16
    else SignOf s t.1 ∧ ∃ r : Rat, s * t.1 = q + r ∧ s * t.2.2 = q + (if 0 ≤ r then 5/16 else -(3/16)) ∧
      -(6/16) ≤ r ∧ r < 10/16

theorem refN_step : StepOk Arith.exact (xqLim false) (5/16) (5/16) (3/16) (RefN 0) (RefN 1) := by
  intro t ht
  rcases ht with h | ⟨s, q, hx, hqc, ht⟩
  · obtain ⟨h1, h2, h3⟩ := zero_step false (5/16) t h
    exact Or.inl ⟨h1, h2, h3, Or.inl h⟩
  · rw [if_pos rfl] at ht
    obtain ⟨e, h, he1, he2⟩ := ht
    have hl : xqLim false = 10/16 := rfl
    obtain ⟨g1, g2, v, g3, g4⟩ := ref_step false (5/16) (5/16) (3/16) t s q e 0 h
      (by rw [hl]; linarith) (by rw [hl]; linarith) (by norm_num) hx
    refine Or.inr ⟨g1, g2, v, _, g3, Or.inr ⟨s, q, hx, hqc, ?_⟩⟩
    rw [if_neg (by decide)]
    refine ⟨h.sign, e, by have := h.err; linarith, ?_, he1, he2⟩
    dsimp only
    rw [g4]
    have h4 := h.rd
    have hss : s * s = 1 := by
      rcases h.sign with ⟨rfl, _⟩ | ⟨rfl, _⟩ <;> norm_num
    by_cases h0 : 0 ≤ e
    · rw [if_pos h0]
      linear_combination h4 + (5/16 : Rat) * hss
    · rw [if_neg h0]
      linear_combination h4 - (3/16 : Rat) * hss

/-! ### High resolution -/

/-- After `k` refinements, in high resolution. -/
def RefH (k : Nat) (t : Trip Rat) : Prop :=
  Zero true t ∨ ∃ s q e d, xqLim true ≤ |t.1| ∧ q = (quantCoef Arith.exact true t.1).1 ∧ RefState t s q e d ∧
    |e| ≤ (1/2 : Rat) ^ (k + 1) ∧ e < 1/2 ∧ |d| ≤ 1/2 - (1/2 : Rat) ^ (k + 1)

theorem refH_step (k : Nat) : StepOk Arith.exact (xqLim true) (1/4 * (1/2) ^ k) (1/4 * (1/2) ^ k)
    (1/4 * (1/2) ^ k) (RefH k) (RefH (k + 1)) := by
  intro t ht
  rcases ht with h | ⟨s, q, e, d, hx, hqc, h, he1, he2, hd⟩
  · obtain ⟨h1, h2, h3⟩ := zero_step true (1/4 * (1/2) ^ k) t h
    exact Or.inl ⟨h1, h2, h3, Or.inl h⟩
  · have hl : xqLim true = 1/2 := rfl
    have hp : (0 : Rat) < (1/2 : Rat) ^ k := by positivity
    have hp1 : (1/2 : Rat) ^ k ≤ 1 := pow_le_one₀ (by norm_num) (by norm_num)
    have e1 : (1/2 : Rat) ^ (k + 1) = (1/2 : Rat) ^ k / 2 := by rw [pow_succ]; ring
    have e2 : (1/2 : Rat) ^ (k + 1 + 1) = (1/2 : Rat) ^ k / 4 := by rw [pow_succ, pow_succ]; ring
    rw [e1, abs_le] at he1
    rw [e1, abs_le] at hd
    generalize (1/2 : Rat) ^ k = w at *
    obtain ⟨g1, g2, v, g3, g4⟩ := ref_step true (1/4 * w) (1/4 * w) (1/4 * w) t s q e d h
      (by rw [hl]; linarith [he1.1]) (by rw [hl]; linarith) (by linarith [hd.1]) hx
    refine Or.inr ⟨g1, g2, v, _, g3, Or.inr ⟨s, q, (if 0 ≤ e then e - 1/4 * w else e + 1/4 * w),
      (if 0 ≤ e then d + 1/4 * w else d - 1/4 * w), hx, hqc, ?_, ?_, ?_, ?_⟩⟩
    · have hss : s * s = 1 := by
        rcases h.sign with ⟨rfl, _⟩ | ⟨rfl, _⟩ <;> norm_num
      obtain ⟨h1, h2, h3, h4, h5⟩ := h
      refine ⟨h1, h2, ?_, ?_, ?_⟩
      · dsimp only
        by_cases h0 : 0 ≤ e
        · simp only [if_pos h0]; linear_combination h3 - (1/4 * w) * hss
        · simp only [if_neg h0]; linear_combination h3 + (1/4 * w) * hss
      · dsimp only
        rw [g4]
        by_cases h0 : 0 ≤ e
        · simp only [if_pos h0]; linear_combination h4 + (1/4 * w) * hss
        · simp only [if_neg h0]; linear_combination h4 - (1/4 * w) * hss
      · dsimp only
        by_cases h0 : 0 ≤ e
        · simp only [if_pos h0]; linear_combination h5
        · simp only [if_neg h0]; linear_combination h5
    · rw [e2, abs_le]
      split
      · constructor <;> linarith [he1.2]
      · rename_i h0
        have := not_le.mp h0
        constructor <;> linarith [he1.1]
    · split
      · linarith
      · rename_i h0
        have := not_le.mp h0
        linarith [he1.1]
    · rw [e2, abs_le]
      split
      · constructor <;> linarith [hd.1, hd.2]
      · constructor <;> linarith [hd.1, hd.2]

/-- The initial state, for any coefficient. -/
theorem ref_init (hr : Bool) (x : Rat) :
    Zero hr (x, x, ((quantCoef Arith.exact hr x).val : Rat)) ∨
    ∃ s q e, xqLim hr ≤ |x| ∧ q = (quantCoef Arith.exact hr x).1 ∧ RefState (x, x, ((quantCoef Arith.exact hr x).val : Rat)) s q e 0 ∧
      -(1 - xqLim hr) ≤ e ∧ e < xqLim hr := by
  obtain ⟨q1, q2⟩ := quantCoef_exact hr x
  obtain ⟨c1, c2, c3⟩ := quant_cases hr x _ q1
  by_cases h0 : (quantCoef Arith.exact hr x).1 = 0
  · left
    refine ⟨c3.mpr h0, rfl, ?_⟩
    unfold Coef.val
    dsimp only
    rw [h0]; simp
  · right
    obtain ⟨s, hs⟩ := signOf_ex x
    refine ⟨s, (quantCoef Arith.exact hr x).1, |x| - (quantCoef Arith.exact hr x).1, ?_, rfl, ⟨hs, by omega, ?_, ?_, ?_⟩,
      by linarith, by linarith⟩
    · by_contra h
      exact h0 (c3.mp (not_le.mp h))
    · dsimp only; rw [← signOf_abs hs]; ring
    · dsimp only
      unfold Coef.val
      rw [q2]
      rcases hs with ⟨rfl, hx⟩ | ⟨rfl, hx⟩
      · rw [decide_eq_false (not_lt.mpr hx), if_neg (by decide)]; push_cast; ring
      · rw [decide_eq_true hx, if_pos rfl]; push_cast; ring
    · dsimp only; rw [← signOf_abs hs]; ring

/-- Number of coefficients which are not quantised to zero. -/
def nzCount (hr : Bool) (l : List Rat) : Nat := l.countP fun x => decide (xqLim hr ≤ |x|)

theorem refined_nz (hr : Bool) (T : List (Trip Rat)) (l : List Rat) (h : T.map (fun t => t.1) = l) :
    refined Arith.exact (xqLim hr) T = nzCount hr l := by
  subst h
  unfold refined nzCount
  rw [List.countP_map]
  congr 1
  funext t
  dsimp only [Function.comp]
  rw [exact_abs, exact_lt]
  by_cases h : |t.1| < xqLim hr
  · rw [decide_eq_true h, decide_eq_false (not_le.mpr h)]; rfl
  · rw [decide_eq_false h, decide_eq_true (not_lt.mp h)]; rfl

/-- The decoded value `z` of the coefficient `x` after `j` refinements: zero if it is quantised to zero,
else the quantised value at first, then a value whose error is bounded. -/
def Refined (hr : Bool) (j : Nat) (x z : Rat) : Prop :=
  (|x| < xqLim hr → z = 0) ∧
  (j = 0 → z = ((quantCoef Arith.exact hr x).val : Rat)) ∧
  (xqLim hr ≤ |x| →
    if hr then |x - z| ≤ (1/2) ^ (j + 1) ∧ |z - ((quantCoef Arith.exact hr x).val : Rat)| < 1/2
    else 0 < j → |x - z| ≤ 5/16 ∧ (|x| < (quantCoef Arith.exact hr x).1 → |x - z| ≤ 3/16))

theorem val_sign (hr : Bool) (s x : Rat) (h : SignOf s x) :
    s * ((quantCoef Arith.exact hr x).val : Rat) = (quantCoef Arith.exact hr x).1 := by
  unfold Coef.val
  rw [(quantCoef_exact hr x).2]
  rcases h with ⟨rfl, hx⟩ | ⟨rfl, hx⟩
  · rw [decide_eq_false (not_lt.mpr hx), if_neg (by decide)]; push_cast; ring
  · rw [decide_eq_true hx, if_pos rfl]; push_cast; ring

theorem abs_sign {s x y : Rat} (h : SignOf s x) : |y| = |s * y| := by
  rcases h with ⟨rfl, _⟩ | ⟨rfl, _⟩
  · rw [one_mul]
  · rw [neg_one_mul, abs_neg]

theorem sign_cancel {s x y z : Rat} (h : SignOf s x) (e : s * y = s * z) : y = z := by
  rcases h with ⟨rfl, _⟩ | ⟨rfl, _⟩ <;> linarith

theorem zero_refined (hr : Bool) (j : Nat) (t : Trip Rat) (h : Zero hr t) : Refined hr j t.1 t.2.2 := by
  obtain ⟨h1, h2, h3⟩ := h
  refine ⟨fun _ => h3, fun _ => ?_, fun hx => absurd h1 (not_lt.mpr hx)⟩
  rw [h3]
  have := ((quant_cases hr t.1 _ (quantCoef_exact hr t.1).1).2.2).mp h1
  unfold Coef.val
  rw [this]; simp

theorem refN_refined (j : Nat) (t : Trip Rat) (h : RefN j t) : Refined false j t.1 t.2.2 := by
  rcases h with h | ⟨s, q, hx, rfl, h⟩
  · exact zero_refined false j t h
  · refine ⟨fun h0 => absurd h0 (not_lt.mpr hx), ?_, ?_⟩
    · intro h0
      rw [if_pos h0] at h
      obtain ⟨e, h, -, -⟩ := h
      apply sign_cancel h.sign
      rw [h.rd, val_sign false s _ h.sign]; ring
    · intro _
      rw [if_neg (by decide)]
      intro hj
      rw [if_neg (by omega)] at h
      obtain ⟨hs, r, e1, e2, e3, e4⟩ := h
      have e5 : s * (t.1 - t.2.2) = r - if 0 ≤ r then 5/16 else -(3/16) := by
        rw [mul_sub, e1, e2]; ring
      rw [abs_sign (y := t.1 - t.2.2) hs, e5, signOf_abs hs, e1]
      constructor
      · split
        · rw [abs_le]; constructor <;> linarith
        · rename_i h0
          have := not_le.mp h0
          rw [abs_le]; constructor <;> linarith
      · intro h0
        have : r < 0 := by linarith
        rw [if_neg (not_le.mpr this), abs_le]
        constructor <;> linarith

theorem refH_refined (j : Nat) (t : Trip Rat) (h : RefH j t) : Refined true j t.1 t.2.2 := by
  rcases h with h | ⟨s, q, e, d, hx, rfl, h, he1, he2, hd⟩
  · exact zero_refined true j t h
  · refine ⟨fun h0 => absurd h0 (not_lt.mpr hx), ?_, ?_⟩
    · intro h0
      subst h0
      have : d = 0 := by
        have h1 : |d| ≤ 0 := by norm_num at hd; rw [hd]; norm_num
        exact abs_eq_zero.mp (le_antisymm h1 (abs_nonneg d))
      apply sign_cancel h.sign
      rw [h.rd, val_sign true s _ h.sign, this]; ring
    · intro _
      rw [if_pos rfl]
      constructor
      · rw [abs_sign (y := t.1 - t.2.2) h.sign, mul_sub, h.err, h.rd]
        rw [show ((quantCoef Arith.exact true t.1).1 : Rat) + d + e -
          ((quantCoef Arith.exact true t.1).1 + d) = e by ring]
        exact he1
      · rw [abs_sign (y := t.2.2 - _) h.sign, mul_sub, h.rd, val_sign true s _ h.sign]
        have hp : (0 : Rat) < (1/2) ^ (j + 1) := by positivity
        rw [show ((quantCoef Arith.exact true t.1).1 : Rat) + d - (quantCoef Arith.exact true t.1).1 = d by ring]
        linarith

/-- The residual bits are read as written, and the number of refinements of each coefficient. -/
theorem getResidual_ready {F : List Nat} {rest : List Op} (hr : Bool) (n : Nat) (l : List Rat) (b r : Bits)
    (h : Ready F b r (opsResidual Arith.exact hr n l ++ rest)) :
    ∃ (r' : Bits) (zs : List Rat),
      getResidual Arith.exact hr n (l.map fun x => ((quantCoef Arith.exact hr x).val : Rat)) r = (zs, r') ∧
      zs.length = l.length ∧
      Ready F (putOps b (opsResidual Arith.exact hr n l)) r' rest ∧
      ∀ i (h1 : i < l.length) (h2 : i < zs.length), ∃ j, Refined hr j l[i] zs[i] ∧
        j ≤ (if hr then 20 else 1) ∧
        (∀ m, 1 ≤ m → m ≤ (if hr then 20 else 1) →
          (m - 1) * nzCount hr l + nzCount hr (l.take i) < n → m ≤ j) ∧
        ∀ m, n ≤ m * nzCount hr l + nzCount hr (l.take i) → j ≤ m := by
  have hm1 : (l.map fun x => ((x, x, ((quantCoef Arith.exact hr x).val : Rat)) : Trip Rat)).map (fun t => t.1) = l := by
    rw [List.map_map]; exact List.map_id l
  have hm2 : (l.map fun x => ((x, x, ((quantCoef Arith.exact hr x).val : Rat)) : Trip Rat)).map (fun t => t.2.1) = l := by
    rw [List.map_map]; exact List.map_id l
  have hm3 : (l.map fun x => ((x, x, ((quantCoef Arith.exact hr x).val : Rat)) : Trip Rat)).map (fun t => t.2.2) =
      l.map fun x => ((quantCoef Arith.exact hr x).val : Rat) := by
    rw [List.map_map]; rfl
  generalize hT : (l.map fun x => ((x, x, ((quantCoef Arith.exact hr x).val : Rat)) : Trip Rat)) = T at *
  have fin : ∀ (P : Nat → Trip Rat → Prop) (f : Nat) (r' : Bits) (T' : List (Trip Rat)),
      (∀ j t, P j t → Refined hr j t.1 t.2.2) → T'.map (fun t => t.1) = T.map (fun t => t.1) →
      (∀ i (hi : i < T'.length), ∃ j, 0 ≤ j ∧ j ≤ 0 + f ∧ P j T'[i] ∧
        (∀ m, 1 ≤ m → m ≤ f → (m - 1) * refined Arith.exact (xqLim hr) T +
          refined Arith.exact (xqLim hr) (T.take i) < n → 0 + m ≤ j) ∧
        ∀ m, n ≤ m * refined Arith.exact (xqLim hr) T + refined Arith.exact (xqLim hr) (T.take i) →
          j ≤ 0 + m) →
      (T'.map fun t => t.2.2).length = l.length ∧
      ∀ i (h1 : i < l.length) (h2 : i < (T'.map fun t => t.2.2).length), ∃ j,
        Refined hr j l[i] (T'.map fun t => t.2.2)[i] ∧ j ≤ f ∧
        (∀ m, 1 ≤ m → m ≤ f → (m - 1) * nzCount hr l + nzCount hr (l.take i) < n → m ≤ j) ∧
        ∀ m, n ≤ m * nzCount hr l + nzCount hr (l.take i) → j ≤ m := by
    intro P f r' T' hP hmap hall
    have hlen : T'.length = l.length := by
      have := congrArg List.length hmap
      rw [hm1, List.length_map] at this
      exact this
    refine ⟨by rw [List.length_map]; exact hlen, ?_⟩
    intro i h1 h2
    rw [List.length_map] at h2
    obtain ⟨j, -, j2, j3, j4, j5⟩ := hall i h2
    rw [refined_nz hr T l hm1, refined_nz hr (T.take i) (l.take i) (by rw [List.map_take, hm1])] at j4 j5
    refine ⟨j, ?_, by omega, fun m m1 m2 m3 => by have := j4 m m1 m2 m3; omega,
      fun m m1 => by have := j5 m m1; omega⟩
    have e1 : l[i] = T'[i].1 := by
      have : (T'.map fun t => t.1)[i]'(by rw [List.length_map]; exact h2) = l[i] := by
        simp only [hmap, hm1]
      rw [← this, List.getElem_map]
    rw [e1, List.getElem_map]
    exact hP j _ j3
  unfold getResidual
  rw [← hm3]
  unfold opsResidual at h ⊢
  rw [← hm2] at h ⊢
  cases hr with
  | false =>
    have hst : ∀ j, 0 ≤ j → j < 0 + 1 → StepOk Arith.exact (xqLim false) (5/16 * (10/16) ^ j)
        (5/16 * (1/2) ^ j) (3/16 * (1/2) ^ j) (RefN j) (RefN (j + 1)) := by
      intro j _ hj
      obtain rfl : j = 0 := by omega
      have := refN_step
      simpa using this
    have hi : ∀ t ∈ T, RefN 0 t := by
      intro t ht
      rw [← hT] at ht
      obtain ⟨x, -, rfl⟩ := List.mem_map.mp ht
      rcases ref_init false x with h | ⟨s, q, e, h1, h2, h3, h4, h5⟩
      · exact Or.inl h
      · refine Or.inr ⟨s, q, h1, h2, ?_⟩
        rw [if_pos rfl]
        have hl : xqLim false = 10/16 := rfl
        rw [hl] at h4 h5
        exact ⟨e, h3, by linarith, h5⟩
    obtain ⟨r', T', g1, g2, g3, g4⟩ := getResidualIter_ready (F := F) (rest := rest) Arith.exact (xqLim false)
      (fun k => 5/16 * (10/16) ^ k) (fun k => 5/16 * (1/2) ^ k) (fun k => 3/16 * (1/2) ^ k) RefN
      (fun k => by change (5/16 : Rat) * (10/16) ^ (k + 1) = 5/16 * (10/16) ^ k * (10/16); rw [pow_succ]; ring)
      (fun k => by change (5/16 : Rat) * (1/2) ^ (k + 1) = 5/16 * (1/2) ^ k * (1/2); rw [pow_succ]; ring)
      (fun k => by change (3/16 : Rat) * (1/2) ^ (k + 1) = 3/16 * (1/2) ^ k * (1/2); rw [pow_succ]; ring)
      1 0 n hst T hi b r (by
        have e : (5/16 : Rat) * (10/16) ^ 0 = Arith.exact.div (Arith.exact.ofRat (10/16)) (Arith.exact.ofRat 2) := by
          change (5/16 : Rat) * (10/16) ^ 0 = 10/16 / 2; norm_num
        rw [e]; exact h)
    have e : (5/16 : Rat) * (10/16) ^ 0 = Arith.exact.div (Arith.exact.ofRat (10/16)) (Arith.exact.ofRat 2) := by
      change (5/16 : Rat) * (10/16) ^ 0 = 10/16 / 2; norm_num
    have e1 : (5/16 : Rat) * (1/2) ^ 0 = 5/16 := by norm_num
    have e2 : (3/16 : Rat) * (1/2) ^ 0 = 3/16 := by norm_num
    rw [e] at g3
    rw [e1, e2] at g1
    obtain ⟨f1, f2⟩ := fin RefN 1 r' T' (fun j t => refN_refined j t) g2 g4
    rw [hm2] at g3 ⊢
    exact ⟨r', _, g1, f1, g3, f2⟩
  | true =>
    have hi : ∀ t ∈ T, RefH 0 t := by
      intro t ht
      rw [← hT] at ht
      obtain ⟨x, -, rfl⟩ := List.mem_map.mp ht
      rcases ref_init true x with h | ⟨s, q, e, h1, h2, h3, h4, h5⟩
      · exact Or.inl h
      · have hl : xqLim true = 1/2 := rfl
        rw [hl] at h4 h5
        refine Or.inr ⟨s, q, e, 0, h1, h2, h3, ?_, h5, ?_⟩
        · rw [abs_le]; norm_num; constructor <;> linarith
        · norm_num
    obtain ⟨r', T', g1, g2, g3, g4⟩ := getResidualIter_ready (F := F) (rest := rest) Arith.exact (xqLim true)
      (fun k => 1/4 * (1/2) ^ k) (fun k => 1/4 * (1/2) ^ k) (fun k => 1/4 * (1/2) ^ k) RefH
      (fun k => by change (1/4 : Rat) * (1/2) ^ (k + 1) = 1/4 * (1/2) ^ k * (1/2); rw [pow_succ]; ring)
      (fun k => by change (1/4 : Rat) * (1/2) ^ (k + 1) = 1/4 * (1/2) ^ k * (1/2); rw [pow_succ]; ring)
      (fun k => by change (1/4 : Rat) * (1/2) ^ (k + 1) = 1/4 * (1/2) ^ k * (1/2); rw [pow_succ]; ring)
      20 0 n (fun j _ _ => refH_step j) T hi b r (by
        have e : (1/4 : Rat) * (1/2) ^ 0 = Arith.exact.div (Arith.exact.ofRat (1/2)) (Arith.exact.ofRat 2) := by
          change (1/4 : Rat) * (1/2) ^ 0 = 1/2 / 2; norm_num
        rw [e]; exact h)
    have e : (1/4 : Rat) * (1/2) ^ 0 = Arith.exact.div (Arith.exact.ofRat (1/2)) (Arith.exact.ofRat 2) := by
      change (1/4 : Rat) * (1/2) ^ 0 = 1/2 / 2; norm_num
    have e1 : (1/4 : Rat) * (1/2) ^ 0 = 1/4 := by norm_num
    rw [e] at g3
    rw [e1] at g1
    obtain ⟨f1, f2⟩ := fin RefH 20 r' T' (fun j t => refH_refined j t) g2 g4
    rw [hm2] at g3 ⊢
    exact ⟨r', _, g1, f1, g3, f2⟩

end LC3
