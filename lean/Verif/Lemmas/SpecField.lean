import Verif.Lemmas.SpecResidual
import Verif.Lemmas.OrdField

/-!
The residual stage in exact arithmetic: agreement of both sides and error of the result.
-/

namespace LC3.Fld

variable {K : Type} [Field K] [LinearOrder K] [IsStrictOrderedRing K] [FloorRing K]

/-- The rounding threshold. -/
noncomputable def xqLim (K : Type) [Field K] (hr : Bool) : K := if hr then 1/2 else 10/16

theorem fld_abs (x : K) : (Arith.ofField K).abs x = |x| := rfl

theorem fld_zero : (Arith.ofField K).ofRat 0 = 0 := Rat.cast_zero

theorem fld_ofInt (n : Int) : (Arith.ofField K).ofInt n = (n : K) := Rat.cast_intCast n

theorem dec_eq (p : Prop) (a b : Decidable p) : @decide p a = @decide p b := by congr

theorem fld_lt (x y : K) : (Arith.ofField K).lt x y = decide (x < y) := dec_eq _ _ _

theorem fld_le (x y : K) : (Arith.ofField K).le x y = decide (x ≤ y) := dec_eq _ _ _

theorem fld_trunc (x : K) (h : 0 ≤ x) : (Arith.ofField K).trunc x = ⌊x⌋ := by
  change @ite _ (x < 0) (Classical.dec _) (-⌊-x⌋) ⌊x⌋ = _
  rw [if_neg (not_lt.mpr h)]

theorem fld_isZero (x : K) : (Arith.ofField K).isZero x = decide (x = 0) := by
  unfold Arith.isZero
  rw [fld_zero, fld_le, fld_le, ← Bool.decide_and]
  congr 1
  exact propext ⟨fun h => le_antisymm h.1 h.2, fun h => by subst h; exact ⟨le_refl _, le_refl _⟩⟩

/-- The sign of `x`, as a factor. -/
def SignOf (s x : K) : Prop := (s = 1 ∧ 0 ≤ x) ∨ (s = -1 ∧ x < 0)

theorem signOf_ex (x : K) : ∃ s, SignOf s x := by
  by_cases h : x < 0
  · exact ⟨-1, Or.inr ⟨rfl, h⟩⟩
  · exact ⟨1, Or.inl ⟨rfl, not_lt.mp h⟩⟩

theorem signOf_abs {s x : K} (h : SignOf s x) : |x| = s * x := by
  rcases h with ⟨rfl, h⟩ | ⟨rfl, h⟩
  · rw [abs_of_nonneg h]; ring
  · rw [abs_of_neg h]; ring

/-- The quantised magnitude of `x`. -/
theorem quantCoef_exact (hr : Bool) (x : K) : ((quantCoef (Arith.ofField K) hr x).1 : Int) =
    ⌊|x| + (1 - xqLim K hr)⌋ ∧ (quantCoef (Arith.ofField K) hr x).2 = decide (x < 0) := by
  refine ⟨?_, by unfold quantCoef; rw [fld_zero, fld_lt]⟩
  unfold quantCoef xqLim
  dsimp only
  rw [fld_abs]
  have e : (Arith.ofField K).add |x| ((Arith.ofField K).ofRat (if hr then 1/2 else 6/16)) =
      |x| + (1 - if hr then 1/2 else 10/16) := by
    unfold Arith.ofField
    cases hr <;> norm_num
  rw [e]
  have h0 : 0 ≤ |x| + (1 - if hr then 1/2 else 10/16 : K) := by
    have := abs_nonneg x
    cases hr <;> norm_num <;> linarith
  rw [fld_trunc _ h0]
  exact Int.toNat_of_nonneg (Int.floor_nonneg.mpr h0)

/-- The quantised magnitude is null below the threshold only. -/
theorem quant_cases (hr : Bool) (x : K) (q : Nat) (hq : (q : Int) = ⌊|x| + (1 - xqLim K hr)⌋) :
    (q : K) - (1 - xqLim K hr) ≤ |x| ∧ |x| < q + xqLim K hr ∧ (|x| < xqLim K hr ↔ q = 0) := by
  have h1 := Int.floor_le (|x| + (1 - xqLim K hr))
  have h2 := Int.lt_floor_add_one (|x| + (1 - xqLim K hr))
  rw [← hq] at h1 h2
  have h1 : (q : K) ≤ |x| + (1 - xqLim K hr) := by exact_mod_cast h1
  have h2 : |x| + (1 - xqLim K hr) < q + 1 := by exact_mod_cast h2
  refine ⟨by linarith, by linarith, ?_⟩
  constructor
  · intro h
    have : (q : K) < 1 := by linarith
    have : q < 1 := by exact_mod_cast this
    omega
  · intro h
    subst h
    norm_num at h2
    linarith

/-- The state of a coefficient of quantised magnitude `q`: the writer is at `q + e`, the
reader at `q + d` and the error is `e`. -/
structure RefState (t : Trip K) (s : K) (q : Nat) (e d : K) : Prop where
  sign : SignOf s t.1
  pos : 1 ≤ q
  wr : s * t.2.1 = q + e
  rd : s * t.2.2 = q + d
  err : s * t.1 = q + d + e

/-- A coefficient which is not refined. -/
def Zero (hr : Bool) (t : Trip K) : Prop := |t.1| < xqLim K hr ∧ t.2.1 = t.1 ∧ t.2.2 = 0

theorem zero_step (hr : Bool) (off : K) (t : Trip K) (h : Zero hr t) :
    (Arith.ofField K).lt ((Arith.ofField K).abs t.1) (xqLim K hr) = true ∧
    residualBit (Arith.ofField K) (xqLim K hr) off t.2.1 = none ∧ (Arith.ofField K).isZero t.2.2 = true := by
  obtain ⟨h1, h2, h3⟩ := h
  have e : (Arith.ofField K).lt ((Arith.ofField K).abs t.1) (xqLim K hr) = true := by
    rw [fld_abs, fld_lt]; exact decide_eq_true h1
  refine ⟨e, ?_, ?_⟩
  · unfold residualBit
    dsimp only
    rw [h2, if_pos e]
  · rw [fld_isZero, h3]; exact decide_eq_true rfl

theorem floor_add (q : Nat) (e : K) (h : 0 ≤ e) (h1 : e < 1) : ⌊(q : K) + e⌋ = q := by
  rw [Int.floor_eq_iff]
  constructor
  · push_cast; linarith
  · push_cast; linarith

theorem floor_sub (q : Nat) (e : K) (h : e < 0) (h1 : -1 ≤ e) : ⌊(q : K) + e⌋ = (q : Int) - 1 := by
  rw [Int.floor_eq_iff]
  constructor
  · push_cast; linarith
  · push_cast; linarith

theorem xqLim_range (hr : Bool) : 1/2 ≤ xqLim K hr ∧ xqLim K hr ≤ 10/16 := by
  unfold xqLim; cases hr <;> norm_num

/-- A step of refinement: the bit tells the sign of the error. -/
theorem ref_step (hr : Bool) (off off1 off2 : K) (t : Trip K) (s : K) (q : Nat) (e d : K)
    (h : RefState t s q e d) (he : -(1 - xqLim K hr) ≤ e) (he2 : e < xqLim K hr) (hd : -1 < d)
    (hx : xqLim K hr ≤ |t.1|) :
    (Arith.ofField K).lt ((Arith.ofField K).abs t.1) (xqLim K hr) = false ∧ (Arith.ofField K).isZero t.2.2 = false ∧
    ∃ v, residualBit (Arith.ofField K) (xqLim K hr) off t.2.1 =
        some (v, t.2.1 + s * (if 0 ≤ e then -off else off)) ∧
      residualMove (Arith.ofField K) off1 off2 t.2.2 v = t.2.2 + s * (if 0 ≤ e then off1 else -off2) := by
  obtain ⟨h1, h2, h3, h4, h5⟩ := h
  obtain ⟨l1, l2⟩ := xqLim_range (K := K) hr
  have hq : (1 : K) ≤ q := by exact_mod_cast h2
  have hpos : 0 < s * t.2.1 := by rw [h3]; linarith
  have hposy : 0 < s * t.2.2 := by rw [h4]; linarith
  have hsx : SignOf s t.2.1 ∧ SignOf s t.2.2 ∧ t.2.2 ≠ 0 := by
    rcases h1 with ⟨rfl, h⟩ | ⟨rfl, h⟩
    · refine ⟨Or.inl ⟨rfl, ?_⟩, Or.inl ⟨rfl, ?_⟩, ?_⟩
      · linarith
      · linarith
      · intro h0; rw [h0] at hposy; linarith
    · refine ⟨Or.inr ⟨rfl, ?_⟩, Or.inr ⟨rfl, ?_⟩, ?_⟩
      · linarith
      · linarith
      · intro h0; rw [h0] at hposy; linarith
  obtain ⟨hs1, hs2, hy0⟩ := hsx
  have habs : |t.2.1| = q + e := by rw [signOf_abs hs1, h3]
  refine ⟨?_, ?_, ?_⟩
  · rw [fld_abs, fld_lt]; exact decide_eq_false (not_lt.mpr hx)
  · rw [fld_isZero]; exact decide_eq_false hy0
  have hfrac : (Arith.ofField K).lt ((Arith.ofField K).sub ((Arith.ofField K).abs t.2.1)
      ((Arith.ofField K).ofInt ((Arith.ofField K).trunc ((Arith.ofField K).abs t.2.1)))) (xqLim K hr) = decide (0 ≤ e) := by
    rw [fld_abs, habs, fld_trunc _ (by linarith), fld_lt, fld_ofInt]
    change decide ((q : K) + e - ((⌊(q : K) + e⌋ : Int) : K) < xqLim K hr) = _
    by_cases h0 : 0 ≤ e
    · rw [floor_add q e h0 (by linarith)]
      push_cast
      rw [decide_eq_true h0]
      exact decide_eq_true (by linarith)
    · rw [floor_sub q e (not_le.mp h0) (by linarith)]
      push_cast
      rw [decide_eq_false h0]
      exact decide_eq_false (by linarith)
  have hskip : (Arith.ofField K).lt ((Arith.ofField K).abs t.2.1) (xqLim K hr) = false := by
    rw [fld_abs, fld_lt, habs]; exact decide_eq_false (by linarith)
  have hbit : residualBit (Arith.ofField K) (xqLim K hr) off t.2.1 =
      some (b2n ((decide (0 ≤ e)).xor (decide (t.2.1 < 0))),
        t.2.1 + if (decide (0 ≤ e)).xor (decide (t.2.1 < 0)) then 0 - off else off) := by
    unfold residualBit
    dsimp only
    rw [hskip, if_neg (by simp), hfrac, fld_zero, fld_lt]
    rfl
  rw [hbit]
  have hmove : ∀ v : Nat, residualMove (Arith.ofField K) off1 off2 t.2.2 v =
      if v = 0 then t.2.2 - (if decide (t.2.2 < 0) = true then off1 else off2)
      else t.2.2 + (if decide (0 < t.2.2) = true then off1 else off2) := by
    intro v
    unfold residualMove
    rw [fld_zero, fld_lt, fld_lt]
    rfl
  refine ⟨b2n ((decide (0 ≤ e)).xor (decide (t.2.1 < 0))), ?_, ?_⟩
  · congr 2
    rcases hs1 with ⟨rfl, hh⟩ | ⟨rfl, hh⟩
    · rw [decide_eq_false (not_lt.mpr hh)]
      by_cases h0 : 0 ≤ e
      · rw [decide_eq_true h0, if_pos h0, if_pos (by decide)]; ring
      · rw [decide_eq_false h0, if_neg h0, if_neg (by decide)]; ring
    · rw [decide_eq_true hh]
      by_cases h0 : 0 ≤ e
      · rw [decide_eq_true h0, if_pos h0, if_neg (by decide)]; ring
      · rw [decide_eq_false h0, if_neg h0, if_pos (by decide)]; ring
  · rw [hmove]
    rcases h1 with ⟨rfl, hh⟩ | ⟨rfl, hh⟩
    · have hy : 0 < t.2.2 := by linarith
      have hx0 : 0 < t.2.1 := by linarith
      rw [decide_eq_false (not_lt.mpr hx0.le), decide_eq_true hy, decide_eq_false (not_lt.mpr hy.le)]
      by_cases h0 : 0 ≤ e
      · rw [decide_eq_true h0, if_pos h0, if_neg (by decide), if_pos rfl]; ring
      · rw [decide_eq_false h0, if_neg h0, if_pos (by decide), if_neg (by decide)]; ring
    · have hy : t.2.2 < 0 := by linarith
      have hx0 : t.2.1 < 0 := by linarith
      rw [decide_eq_true hx0, decide_eq_true hy, decide_eq_false (not_lt.mpr hy.le)]
      by_cases h0 : 0 ≤ e
      · rw [decide_eq_true h0, if_pos h0, if_pos (by decide), if_pos rfl]; ring
      · rw [decide_eq_false h0, if_neg h0, if_neg (by decide), if_neg (by decide)]; ring

/-! ### Normal resolution -/

/-- Before (`k = 0`) and after (`k = 1`) the refinement, in normal resolution. -/
def RefN (k : Nat) (t : Trip K) : Prop :=
  Zero false t ∨ ∃ (s : K) (q : Nat), xqLim K false ≤ |t.1| ∧ q = (quantCoef (Arith.ofField K) false t.1).1 ∧
    if k = 0 then ∃ e, RefState t s q e 0 ∧ -(6/16) ≤ e ∧ e < 10/16
    else SignOf s t.1 ∧ ∃ r : K, s * t.1 = q + r ∧ s * t.2.2 = q + (if 0 ≤ r then 5/16 else -(3/16)) ∧
      -(6/16) ≤ r ∧ r < 10/16

theorem refN_step : StepOk (Arith.ofField K) (xqLim K false) (5/16) (5/16) (3/16) (RefN 0) (RefN 1) := by
  intro t ht
  rcases ht with h | ⟨s, q, hx, hqc, ht⟩
  · obtain ⟨h1, h2, h3⟩ := zero_step false (5/16) t h
    exact Or.inl ⟨h1, h2, h3, Or.inl h⟩
  · rw [if_pos rfl] at ht
    obtain ⟨e, h, he1, he2⟩ := ht
    have hl : xqLim K false = 10/16 := rfl
    obtain ⟨g1, g2, v, g3, g4⟩ := ref_step false (5/16) (5/16) (3/16) t s q e 0 h
      (by rw [hl]; linarith) (by rw [hl]; linarith) (by norm_num) hx
    refine Or.inr ⟨g1, g2, v, _, g3, Or.inr ⟨s, q, hx, hqc, ?_⟩⟩
    rw [if_neg (by decide)]
    refine ⟨h.sign, e, by have := h.err; linarith, ?_, he1, he2⟩
    dsimp only
    rw [g4]
    have h4 := h.rd
    have hss : s * s = 1 := by
      rcases h.sign with ⟨rfl, _⟩ | ⟨rfl, _⟩ <;> norm_num
    by_cases h0 : 0 ≤ e
    · rw [if_pos h0]
      linear_combination h4 + (5/16 : K) * hss
    · rw [if_neg h0]
      linear_combination h4 - (3/16 : K) * hss

/-! ### High resolution -/

/-- After `k` refinements, in high resolution. -/
def RefH (k : Nat) (t : Trip K) : Prop :=
  Zero true t ∨ ∃ s q e d, xqLim K true ≤ |t.1| ∧ q = (quantCoef (Arith.ofField K) true t.1).1 ∧ RefState t s q e d ∧
    |e| ≤ (1/2 : K) ^ (k + 1) ∧ e < 1/2 ∧ |d| ≤ 1/2 - (1/2 : K) ^ (k + 1)

theorem refH_step (k : Nat) : StepOk (Arith.ofField K) (xqLim K true) (1/4 * (1/2) ^ k) (1/4 * (1/2) ^ k)
    (1/4 * (1/2) ^ k) (RefH k) (RefH (k + 1)) := by
  intro t ht
  rcases ht with h | ⟨s, q, e, d, hx, hqc, h, he1, he2, hd⟩
  · obtain ⟨h1, h2, h3⟩ := zero_step true (1/4 * (1/2) ^ k) t h
    exact Or.inl ⟨h1, h2, h3, Or.inl h⟩
  · have hl : xqLim K true = 1/2 := rfl
    have hp : (0 : K) < (1/2 : K) ^ k := by positivity
    have hp1 : (1/2 : K) ^ k ≤ 1 := pow_le_one₀ (by norm_num) (by norm_num)
    have e1 : (1/2 : K) ^ (k + 1) = (1/2 : K) ^ k / 2 := by rw [pow_succ]; ring
    have e2 : (1/2 : K) ^ (k + 1 + 1) = (1/2 : K) ^ k / 4 := by rw [pow_succ, pow_succ]; ring
    rw [e1, abs_le] at he1
    rw [e1, abs_le] at hd
    generalize (1/2 : K) ^ k = w at *
    obtain ⟨g1, g2, v, g3, g4⟩ := ref_step true (1/4 * w) (1/4 * w) (1/4 * w) t s q e d h
      (by rw [hl]; linarith [he1.1]) (by rw [hl]; linarith) (by linarith [hd.1]) hx
    refine Or.inr ⟨g1, g2, v, _, g3, Or.inr ⟨s, q, (if 0 ≤ e then e - 1/4 * w else e + 1/4 * w),
      (if 0 ≤ e then d + 1/4 * w else d - 1/4 * w), hx, hqc, ?_, ?_, ?_, ?_⟩⟩
    · have hss : s * s = 1 := by
        rcases h.sign with ⟨rfl, _⟩ | ⟨rfl, _⟩ <;> norm_num
      obtain ⟨h1, h2, h3, h4, h5⟩ := h
      refine ⟨h1, h2, ?_, ?_, ?_⟩
      · dsimp only
        by_cases h0 : 0 ≤ e
        · simp only [if_pos h0]; linear_combination h3 - (1/4 * w) * hss
        · simp only [if_neg h0]; linear_combination h3 + (1/4 * w) * hss
      · dsimp only
        rw [g4]
        by_cases h0 : 0 ≤ e
        · simp only [if_pos h0]; linear_combination h4 + (1/4 * w) * hss
        · simp only [if_neg h0]; linear_combination h4 - (1/4 * w) * hss
      · dsimp only
        by_cases h0 : 0 ≤ e
        · simp only [if_pos h0]; linear_combination h5
        · simp only [if_neg h0]; linear_combination h5
    · rw [e2, abs_le]
      split
      · constructor <;> linarith [he1.2]
      · rename_i h0
        have := not_le.mp h0
        constructor <;> linarith [he1.1]
    · split
      · linarith
      · rename_i h0
        have := not_le.mp h0
        linarith [he1.1]
    · rw [e2, abs_le]
      split
      · constructor <;> linarith [hd.1, hd.2]
      · constructor <;> linarith [hd.1, hd.2]

/-- The initial state, for any coefficient. -/
theorem ref_init (hr : Bool) (x : K) :
    Zero hr (x, x, ((quantCoef (Arith.ofField K) hr x).val : K)) ∨
    ∃ s q e, xqLim K hr ≤ |x| ∧ q = (quantCoef (Arith.ofField K) hr x).1 ∧ RefState (x, x, ((quantCoef (Arith.ofField K) hr x).val : K)) s q e 0 ∧
      -(1 - xqLim K hr) ≤ e ∧ e < xqLim K hr := by
  obtain ⟨q1, q2⟩ := quantCoef_exact hr x
  obtain ⟨c1, c2, c3⟩ := quant_cases hr x _ q1
  by_cases h0 : (quantCoef (Arith.ofField K) hr x).1 = 0
  · left
    refine ⟨c3.mpr h0, rfl, ?_⟩
    unfold Coef.val
    dsimp only
    rw [h0]; simp
  · right
    obtain ⟨s, hs⟩ := signOf_ex x
    refine ⟨s, (quantCoef (Arith.ofField K) hr x).1, |x| - (quantCoef (Arith.ofField K) hr x).1, ?_, rfl, ⟨hs, by omega, ?_, ?_, ?_⟩,
      by linarith, by linarith⟩
    · by_contra h
      exact h0 (c3.mp (not_le.mp h))
    · dsimp only; rw [← signOf_abs hs]; ring
    · dsimp only
      unfold Coef.val
      rw [q2]
      rcases hs with ⟨rfl, hx⟩ | ⟨rfl, hx⟩
      · rw [decide_eq_false (not_lt.mpr hx), if_neg (by decide)]; push_cast; ring
      · rw [decide_eq_true hx, if_pos rfl]; push_cast; ring
    · dsimp only; rw [← signOf_abs hs]; ring

/-- Number of coefficients which are not quantised to zero. -/
noncomputable def nzCount (hr : Bool) (l : List K) : Nat := l.countP fun x => decide (xqLim K hr ≤ |x|)

theorem refined_nz (hr : Bool) (T : List (Trip K)) (l : List K) (h : T.map (fun t => t.1) = l) :
    refined (Arith.ofField K) (xqLim K hr) T = nzCount hr l := by
  subst h
  unfold refined nzCount
  rw [List.countP_map]
  congr 1
  funext t
  dsimp only [Function.comp]
  rw [fld_abs, fld_lt]
  by_cases h : |t.1| < xqLim K hr
  · rw [decide_eq_true h, decide_eq_false (not_le.mpr h)]; rfl
  · rw [decide_eq_false h, decide_eq_true (not_lt.mp h)]; rfl

/-- The decoded value `z` of the coefficient `x` after `j` refinements: zero if it is quantised to zero,
else the quantised value at first, then a value whose error is bounded. -/
def Refined (hr : Bool) (j : Nat) (x z : K) : Prop :=
  (|x| < xqLim K hr → z = 0) ∧
  (j = 0 → z = ((quantCoef (Arith.ofField K) hr x).val : K)) ∧
  (xqLim K hr ≤ |x| →
    if hr then |x - z| ≤ (1/2) ^ (j + 1) ∧ |z - ((quantCoef (Arith.ofField K) hr x).val : K)| < 1/2
    else 0 < j → |x - z| ≤ 5/16 ∧ (|x| < (quantCoef (Arith.ofField K) hr x).1 → |x - z| ≤ 3/16))

theorem val_sign (hr : Bool) (s x : K) (h : SignOf s x) :
    s * ((quantCoef (Arith.ofField K) hr x).val : K) = (quantCoef (Arith.ofField K) hr x).1 := by
  unfold Coef.val
  rw [(quantCoef_exact hr x).2]
  rcases h with ⟨rfl, hx⟩ | ⟨rfl, hx⟩
  · rw [decide_eq_false (not_lt.mpr hx), if_neg (by decide)]; push_cast; ring
  · rw [decide_eq_true hx, if_pos rfl]; push_cast; ring

theorem abs_sign {s x y : K} (h : SignOf s x) : |y| = |s * y| := by
  rcases h with ⟨rfl, _⟩ | ⟨rfl, _⟩
  · rw [one_mul]
  · rw [neg_one_mul, abs_neg]

theorem sign_cancel {s x y z : K} (h : SignOf s x) (e : s * y = s * z) : y = z := by
  rcases h with ⟨rfl, _⟩ | ⟨rfl, _⟩ <;> linarith

theorem zero_refined (hr : Bool) (j : Nat) (t : Trip K) (h : Zero hr t) : Refined hr j t.1 t.2.2 := by
  obtain ⟨h1, h2, h3⟩ := h
  refine ⟨fun _ => h3, fun _ => ?_, fun hx => absurd h1 (not_lt.mpr hx)⟩
  rw [h3]
  have := ((quant_cases hr t.1 _ (quantCoef_exact hr t.1).1).2.2).mp h1
  unfold Coef.val
  rw [this]; simp

theorem refN_refined (j : Nat) (t : Trip K) (h : RefN j t) : Refined false j t.1 t.2.2 := by
  rcases h with h | ⟨s, q, hx, rfl, h⟩
  · exact zero_refined false j t h
  · refine ⟨fun h0 => absurd h0 (not_lt.mpr hx), ?_, ?_⟩
    · intro h0
      rw [if_pos h0] at h
      obtain ⟨e, h, -, -⟩ := h
      apply sign_cancel h.sign
      rw [h.rd, val_sign false s _ h.sign]; ring
    · intro _
      rw [if_neg (by decide)]
      intro hj
      rw [if_neg (by omega)] at h
      obtain ⟨hs, r, e1, e2, e3, e4⟩ := h
      have e5 : s * (t.1 - t.2.2) = r - if 0 ≤ r then 5/16 else -(3/16) := by
        rw [mul_sub, e1, e2]; ring
      rw [abs_sign (y := t.1 - t.2.2) hs, e5, signOf_abs hs, e1]
      constructor
      · split
        · rw [abs_le]; constructor <;> linarith
        · rename_i h0
          have := not_le.mp h0
          rw [abs_le]; constructor <;> linarith
      · intro h0
        have : r < 0 := by linarith
        rw [if_neg (not_le.mpr this), abs_le]
        constructor <;> linarith

theorem refH_refined (j : Nat) (t : Trip K) (h : RefH j t) : Refined true j t.1 t.2.2 := by
  rcases h with h | ⟨s, q, e, d, hx, rfl, h, he1, he2, hd⟩
  · exact zero_refined true j t h
  · refine ⟨fun h0 => absurd h0 (not_lt.mpr hx), ?_, ?_⟩
    · intro h0
      subst h0
      have : d = 0 := by
        have h1 : |d| ≤ 0 := by norm_num at hd; rw [hd]; norm_num
        exact abs_eq_zero.mp (le_antisymm h1 (abs_nonneg d))
      apply sign_cancel h.sign
      rw [h.rd, val_sign true s _ h.sign, this]; ring
    · intro _
      rw [if_pos rfl]
      constructor
      · rw [abs_sign (y := t.1 - t.2.2) h.sign, mul_sub, h.err, h.rd]
        rw [show ((quantCoef (Arith.ofField K) true t.1).1 : K) + d + e -
          ((quantCoef (Arith.ofField K) true t.1).1 + d) = e by ring]
        exact he1
      · rw [abs_sign (y := t.2.2 - _) h.sign, mul_sub, h.rd, val_sign true s _ h.sign]
        have hp : (0 : K) < (1/2) ^ (j + 1) := by positivity
        rw [show ((quantCoef (Arith.ofField K) true t.1).1 : K) + d - (quantCoef (Arith.ofField K) true t.1).1 = d by ring]
        linarith

/-- The residual bits are read as written, and the number of refinements of each coefficient. -/
theorem getResidual_ready {F : List Nat} {rest : List Op} (hr : Bool) (n : Nat) (l : List K) (b r : Bits)
    (h : Ready F b r (opsResidual (Arith.ofField K) hr n l ++ rest)) :
    ∃ (r' : Bits) (zs : List K),
      getResidual (Arith.ofField K) hr n (l.map fun x => ((quantCoef (Arith.ofField K) hr x).val : K)) r = (zs, r') ∧
      zs.length = l.length ∧
      Ready F (putOps b (opsResidual (Arith.ofField K) hr n l)) r' rest ∧
      ∀ i (h1 : i < l.length) (h2 : i < zs.length), ∃ j, Refined hr j l[i] zs[i] ∧
        j ≤ (if hr then 20 else 1) ∧
        (∀ m, 1 ≤ m → m ≤ (if hr then 20 else 1) →
          (m - 1) * nzCount hr l + nzCount hr (l.take i) < n → m ≤ j) ∧
        ∀ m, n ≤ m * nzCount hr l + nzCount hr (l.take i) → j ≤ m := by
  have hm1 : (l.map fun x => ((x, x, ((quantCoef (Arith.ofField K) hr x).val : K)) : Trip K)).map (fun t => t.1) = l := by
    rw [List.map_map]; exact List.map_id l
  have hm2 : (l.map fun x => ((x, x, ((quantCoef (Arith.ofField K) hr x).val : K)) : Trip K)).map (fun t => t.2.1) = l := by
    rw [List.map_map]; exact List.map_id l
  have hm3 : (l.map fun x => ((x, x, ((quantCoef (Arith.ofField K) hr x).val : K)) : Trip K)).map (fun t => t.2.2) =
      l.map fun x => ((quantCoef (Arith.ofField K) hr x).val : K) := by
    rw [List.map_map]; rfl
  generalize hT : (l.map fun x => ((x, x, ((quantCoef (Arith.ofField K) hr x).val : K)) : Trip K)) = T at *
  have fin : ∀ (P : Nat → Trip K → Prop) (f : Nat) (r' : Bits) (T' : List (Trip K)),
      (∀ j t, P j t → Refined hr j t.1 t.2.2) → T'.map (fun t => t.1) = T.map (fun t => t.1) →
      (∀ i (hi : i < T'.length), ∃ j, 0 ≤ j ∧ j ≤ 0 + f ∧ P j T'[i] ∧
        (∀ m, 1 ≤ m → m ≤ f → (m - 1) * refined (Arith.ofField K) (xqLim K hr) T +
          refined (Arith.ofField K) (xqLim K hr) (T.take i) < n → 0 + m ≤ j) ∧
        ∀ m, n ≤ m * refined (Arith.ofField K) (xqLim K hr) T + refined (Arith.ofField K) (xqLim K hr) (T.take i) →
          j ≤ 0 + m) →
      (T'.map fun t => t.2.2).length = l.length ∧
      ∀ i (h1 : i < l.length) (h2 : i < (T'.map fun t => t.2.2).length), ∃ j,
        Refined hr j l[i] (T'.map fun t => t.2.2)[i] ∧ j ≤ f ∧
        (∀ m, 1 ≤ m → m ≤ f → (m - 1) * nzCount hr l + nzCount hr (l.take i) < n → m ≤ j) ∧
        ∀ m, n ≤ m * nzCount hr l + nzCount hr (l.take i) → j ≤ m := by
    intro P f r' T' hP hmap hall
    have hlen : T'.length = l.length := by
      have := congrArg List.length hmap
      rw [hm1, List.length_map] at this
      exact this
    refine ⟨by rw [List.length_map]; exact hlen, ?_⟩
    intro i h1 h2
    rw [List.length_map] at h2
    obtain ⟨j, -, j2, j3, j4, j5⟩ := hall i h2
    rw [refined_nz hr T l hm1, refined_nz hr (T.take i) (l.take i) (by rw [List.map_take, hm1])] at j4 j5
    refine ⟨j, ?_, by omega, fun m m1 m2 m3 => by have := j4 m m1 m2 m3; omega,
      fun m m1 => by have := j5 m m1; omega⟩
    have e1 : l[i] = T'[i].1 := by
      have : (T'.map fun t => t.1)[i]'(by rw [List.length_map]; exact h2) = l[i] := by
        simp only [hmap, hm1]
      rw [← this, List.getElem_map]
    rw [e1, List.getElem_map]
    exact hP j _ j3
  unfold getResidual
  rw [← hm3]
  unfold opsResidual at h ⊢
  rw [← hm2] at h ⊢
  cases hr with
  | false =>
    have hst : ∀ j, 0 ≤ j → j < 0 + 1 → StepOk (Arith.ofField K) (xqLim K false) (5/16 * (10/16) ^ j)
        (5/16 * (1/2) ^ j) (3/16 * (1/2) ^ j) (RefN j) (RefN (j + 1)) := by
      intro j _ hj
      obtain rfl : j = 0 := by omega
      have := refN_step (K := K)
      simpa using this
    have hi : ∀ t ∈ T, RefN 0 t := by
      intro t ht
      rw [← hT] at ht
      obtain ⟨x, -, rfl⟩ := List.mem_map.mp ht
      rcases ref_init false x with h | ⟨s, q, e, h1, h2, h3, h4, h5⟩
      · exact Or.inl h
      · refine Or.inr ⟨s, q, h1, h2, ?_⟩
        rw [if_pos rfl]
        have hl : xqLim K false = 10/16 := rfl
        rw [hl] at h4 h5
        exact ⟨e, h3, by linarith, h5⟩
    have o1 : (Arith.ofField K).ofRat (1/2) = 1/2 := by unfold Arith.ofField; norm_num
    have o3 : (Arith.ofField K).ofRat 2 = 2 := by unfold Arith.ofField; norm_num
    have o2 : (Arith.ofField K).ofRat (if false = true then 1/2 else 10/16) = xqLim K false := by unfold Arith.ofField xqLim; norm_num
    have o4 : (Arith.ofField K).ofRat (if false = true then 1/4 else 5/16) = 5/16 := by unfold Arith.ofField; norm_num
    have o5 : (Arith.ofField K).ofRat (if false = true then 1/4 else 3/16) = 3/16 := by unfold Arith.ofField; norm_num
    have e : (5/16 : K) * (10/16) ^ 0 = (Arith.ofField K).div (xqLim K false) 2 := by
      change (5/16 : K) * (10/16) ^ 0 = 10/16 / 2; norm_num
    rw [o2, o3] at h ⊢
    rw [o4, o5]
    obtain ⟨r', T', g1, g2, g3, g4⟩ := getResidualIter_ready (F := F) (rest := rest) (Arith.ofField K) (xqLim K false)
      (fun k => 5/16 * (10/16) ^ k) (fun k => 5/16 * (1/2) ^ k) (fun k => 3/16 * (1/2) ^ k) RefN
      (by intro k; change (5/16 : K) * (10/16) ^ (k + 1) = 5/16 * (10/16) ^ k * (10/16); rw [pow_succ]; ring)
      (by intro k; rw [o1]; change (5/16 : K) * (1/2) ^ (k + 1) = 5/16 * (1/2) ^ k * (1/2); rw [pow_succ]; ring)
      (by intro k; rw [o1]; change (3/16 : K) * (1/2) ^ (k + 1) = 3/16 * (1/2) ^ k * (1/2); rw [pow_succ]; ring)
      1 0 n hst T hi b r (by rw [e]; exact h)
    have e1 : (5/16 : K) * (1/2) ^ 0 = 5/16 := by norm_num
    have e2 : (3/16 : K) * (1/2) ^ 0 = 3/16 := by norm_num
    rw [e] at g3
    rw [e1, e2] at g1
    obtain ⟨f1, f2⟩ := fin RefN 1 r' T' (fun j t => refN_refined j t) g2 g4
    rw [hm2] at g3 ⊢
    exact ⟨r', _, g1, f1, g3, f2⟩
  | true =>
    have hi : ∀ t ∈ T, RefH 0 t := by
      intro t ht
      rw [← hT] at ht
      obtain ⟨x, -, rfl⟩ := List.mem_map.mp ht
      rcases ref_init true x with h | ⟨s, q, e, h1, h2, h3, h4, h5⟩
      · exact Or.inl h
      · have hl : xqLim K true = 1/2 := rfl
        rw [hl] at h4 h5
        refine Or.inr ⟨s, q, e, 0, h1, h2, h3, ?_, h5, ?_⟩
        · rw [abs_le]; norm_num; constructor <;> linarith
        · norm_num
    have o1 : (Arith.ofField K).ofRat (1/2) = 1/2 := by unfold Arith.ofField; norm_num
    have o3 : (Arith.ofField K).ofRat 2 = 2 := by unfold Arith.ofField; norm_num
    have o2 : (Arith.ofField K).ofRat (if true = true then 1/2 else 10/16) = xqLim K true := by unfold Arith.ofField xqLim; norm_num
    have o4 : (Arith.ofField K).ofRat (if true = true then 1/4 else 5/16) = 1/4 := by unfold Arith.ofField; norm_num
    have o5 : (Arith.ofField K).ofRat (if true = true then 1/4 else 3/16) = 1/4 := by unfold Arith.ofField; norm_num
    have e : (1/4 : K) * (1/2) ^ 0 = (Arith.ofField K).div (xqLim K true) 2 := by
      change (1/4 : K) * (1/2) ^ 0 = 1/2 / 2; norm_num
    rw [o2, o3] at h ⊢
    rw [o4, o5]
    obtain ⟨r', T', g1, g2, g3, g4⟩ := getResidualIter_ready (F := F) (rest := rest) (Arith.ofField K) (xqLim K true)
      (fun k => 1/4 * (1/2) ^ k) (fun k => 1/4 * (1/2) ^ k) (fun k => 1/4 * (1/2) ^ k) RefH
      (by intro k; change (1/4 : K) * (1/2) ^ (k + 1) = 1/4 * (1/2) ^ k * (1/2); rw [pow_succ]; ring)
      (by intro k; rw [o1]; change (1/4 : K) * (1/2) ^ (k + 1) = 1/4 * (1/2) ^ k * (1/2); rw [pow_succ]; ring)
      (by intro k; rw [o1]; change (1/4 : K) * (1/2) ^ (k + 1) = 1/4 * (1/2) ^ k * (1/2); rw [pow_succ]; ring)
      20 0 n (fun j _ _ => refH_step j) T hi b r (by rw [e]; exact h)
    have e1 : (1/4 : K) * (1/2) ^ 0 = 1/4 := by norm_num
    rw [e] at g3
    rw [e1] at g1
    obtain ⟨f1, f2⟩ := fin RefH 20 r' T' (fun j t => refH_refined j t) g2 g4
    rw [hm2] at g3 ⊢
    exact ⟨r', _, g1, f1, g3, f2⟩

end LC3.Fld
