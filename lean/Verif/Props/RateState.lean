import Verif.Lemmas.Float
import Verif.Model.Gain

/-!
# C69: the memory of the rate control

The state carried by the encoder from a frame to the next one is the smoothed offset of the budget and the bits spared. It is
bounded in single precision, without any margin for the rounding, and forgotten at the first silent frame.
-/

namespace LC3

/-- Single precision: the smoothed offset never leaves the range [-40 ; 40]. The constants 0.8f and 0.2f are greater than the decimal
ones, the result relies on the rounding of the products. -/
theorem nbitsOffset_f32 (st : SpecSt Rat) (h : |st.off| ≤ 40) :
    |nbitsOffset (Arith.rounded rne24) floatMath st| ≤ 40 := by
  have sym : ∀ x c : Rat, rne24 c ≤ c → |x| ≤ c → |rne24 x| ≤ c := by
    intro x c hc hx
    rw [abs_le] at hx ⊢
    have h1 := rne24_mono _ _ hx.1
    have h2 := rne24_mono _ _ hx.2
    rw [rne24_neg] at h1
    constructor <;> linarith
  have k8 : rne24 (8/10) = 13421773 / 16777216 := by decide +kernel
  have k2 : rne24 (2/10) = 13421773 / 67108864 := by decide +kernel
  have k40 : rne24 40 = 40 := by decide +kernel
  have km40 : rne24 (-40) = -40 := by decide +kernel
  have m8 : ∀ v : Rat, |v| ≤ 40 → |rne24 (13421773 / 16777216 * v)| ≤ 32 := by
    intro v hv
    have h1 : |13421773 / 16777216 * v| ≤ 13421773 / 16777216 * 40 := by
      rw [abs_mul, abs_of_pos (by norm_num : (0 : Rat) < 13421773 / 16777216)]
      linarith
    rw [abs_le] at h1 ⊢
    have h2 := rne24_mono _ _ h1.1
    have h3 := rne24_mono _ _ h1.2
    rw [rne24_neg] at h2
    have h4 : rne24 (13421773 / 16777216 * 40) = 32 := by decide +kernel
    rw [h4] at h2 h3
    exact ⟨h2, h3⟩
  have m2 : ∀ v : Rat, |v| ≤ 40 → |rne24 (13421773 / 67108864 * v)| ≤ 8 := by
    intro v hv
    have h1 : |13421773 / 67108864 * v| ≤ 13421773 / 67108864 * 40 := by
      rw [abs_mul, abs_of_pos (by norm_num : (0 : Rat) < 13421773 / 67108864)]
      linarith
    rw [abs_le] at h1 ⊢
    have h2 := rne24_mono _ _ h1.1
    have h3 := rne24_mono _ _ h1.2
    rw [rne24_neg] at h2
    have h4 : rne24 (13421773 / 67108864 * 40) = 8 := by decide +kernel
    rw [h4] at h2 h3
    exact ⟨h2, h3⟩
  unfold nbitsOffset
  dsimp only [Arith.rounded, Arith.ofInt, floatMath]
  rw [show ((-40 : Int) : Rat) = -40 from by norm_num, show ((40 : Int) : Rat) = 40 from by norm_num, k8, k2, k40, km40]
  apply sym _ _ (by rw [k40])
  refine (abs_add_le _ _).trans ?_
  have h8 := m8 _ h
  generalize rne24 (st.off + rne24 (st.spare : Rat)) = o
  have h2 := m2 (if (if o ≤ -40 then -40 else o) ≤ 40 then (if o ≤ -40 then -40 else o) else 40) (by
    rw [abs_le]
    split_ifs <;> constructor <;> linarith)
  linarith

/-- A frame analysed: the configuration and the spectrum. -/
structure SpecFrame (R : Type) where
  dt : Dt
  sr : Srate
  nbytes : Nat
  pitch : Bool
  tns : TnsData
  x : List R

/-- The state after a sequence of frames, `none` when an analysis is undefined. -/
def specRun {R : Type} (A : Arith R) (G : GainMath R) (st : SpecSt R) (l : List (SpecFrame R)) : Option (SpecSt R) :=
  l.foldlM (fun st f => (specAnalyze A G f.dt f.sr f.nbytes f.pitch f.tns st f.x).map (·.1)) st

/-- The state after an analysis is the initial one or the smoothed offset with the bits spared. -/
theorem specAnalyze_state {R : Type} (A : Arith R) (G : GainMath R) (dt : Dt) (sr : Srate) (nbytes : Nat) (pitch : Bool) (tns : TnsData)
    (st : SpecSt R) (x : List R) (r : SpecSt R × List R × SpecSide) (h : specAnalyze A G dt sr nbytes pitch tns st x = some r) :
    ∃ est, estimateGain A G dt sr x nbytes (specBudget dt sr nbytes pitch tns) (nbitsOffset A G st) (gainOffset sr nbytes) = some est ∧
      (est.reset = true → r.1.off = A.ofRat 0 ∧ r.1.spare = 0) ∧
      (est.reset = false → r.1.off = nbitsOffset A G st) := by
  unfold specAnalyze at h
  dsimp only at h
  simp only [Option.bind_eq_some_iff] at h
  obtain ⟨est, he, q, hq, h⟩ := h
  split at h
  · cases h
  simp only [Option.bind_eq_some_iff] at h
  obtain ⟨m, hm, q2, hq2, h⟩ := h
  split at h
  · cases h
  simp only [Option.bind_eq_some_iff] at h
  obtain ⟨m2, hm2, h⟩ := h
  split at h
  · cases h
  rw [Option.some.injEq] at h
  refine ⟨est, he, fun hr => ?_, fun hr => ?_⟩
  · rw [← h]
    simp only [hr, if_true, and_self]
  · rw [← h]
    simp only [hr, Bool.false_eq_true, if_false]

/-- C69: in single precision, whatever the frames analysed from the initial state, with any sequence of configurations, the offset of
the budget remains in the range [-40 ; 40]: the conversion to `int` of the budget is in range. -/
theorem C69_bounded (l : List (SpecFrame Rat)) (st : SpecSt Rat) (h : specRun (Arith.rounded rne24) floatMath ⟨0, 0⟩ l = some st) :
    |st.off| ≤ 40 := by
  have gen : ∀ (l : List (SpecFrame Rat)) (s : SpecSt Rat), |s.off| ≤ 40 →
      specRun (Arith.rounded rne24) floatMath s l = some st → |st.off| ≤ 40 := by
    intro l
    induction l with
    | nil => intro s hs h; cases h; exact hs
    | cons f l ih =>
      intro s hs h
      unfold specRun at h ih
      rw [List.foldlM_cons] at h
      obtain ⟨s1, h1, h2⟩ := Option.bind_eq_some_iff.mp h
      rw [Option.map_eq_some_iff] at h1
      obtain ⟨r, hr, hr1⟩ := h1
      apply ih s1 _ h2
      obtain ⟨est, -, e1, e2⟩ := specAnalyze_state _ _ _ _ _ _ _ _ _ _ hr
      rw [← hr1]
      cases hb : est.reset with
      | true =>
        rw [(e1 hb).1]
        change |rne24 0| ≤ 40
        rw [rne24_zero]
        norm_num
      | false =>
        rw [e2 hb]
        exact nbitsOffset_f32 s hs
  exact gen l _ (by norm_num) h

theorem gainBlocks_zero {R : Type} (A : Arith R) (h1 : A.mul (A.ofRat 0) (A.ofRat 0) = A.ofRat 0)
    (h2 : A.max (A.ofRat 0) (A.ofRat 0) = A.ofRat 0) (n : Nat) :
    (gainBlocks A (List.replicate n (A.ofRat 0)) (A.ofRat 0)).1 = A.ofRat 0 := by
  induction n using Nat.strong_induction_on with
  | _ n ih =>
    match n with
    | 0 => rfl
    | 1 => rfl
    | 2 => rfl
    | 3 => rfl
    | n + 4 =>
      simp only [List.replicate_succ, gainBlocks, h1, h2]
      exact ih n (by omega)

/-- C69: a silent frame resets the rate control, in any arithmetic where the operations on zeros give zero: the state is the initial
one, whatever the past frames were. -/
theorem C69_silence {R : Type} (A : Arith R) (G : GainMath R) (h1 : A.mul (A.ofRat 0) (A.ofRat 0) = A.ofRat 0)
    (h2 : A.max (A.ofRat 0) (A.ofRat 0) = A.ofRat 0) (h3 : G.sqrt (A.ofRat 0) = A.ofRat 0)
    (h4 : A.le (A.ofRat 0) (A.ofRat 0) = true) (dt : Dt) (sr : Srate) (nbytes : Nat) (pitch : Bool) (tns : TnsData)
    (st : SpecSt R) (n : Nat) (r : SpecSt R × List R × SpecSide)
    (h : specAnalyze A G dt sr nbytes pitch tns st (List.replicate n (A.ofRat 0)) = some r) :
    r.1 = ⟨A.ofRat 0, 0⟩ := by
  obtain ⟨est, he, e1, -⟩ := specAnalyze_state A G dt sr nbytes pitch tns st _ r h
  have hr : est.reset = true := by
    unfold estimateGain at he
    dsimp only at he
    rw [gainBlocks_zero A h1 h2 n, h3] at he
    simp only [Option.bind_eq_some_iff, Option.map_eq_some_iff] at he
    obtain ⟨nf, -, nb, -, g, -, gm, -, he⟩ := he
    rw [← he]
    unfold Arith.isZero
    simp only [h4, Bool.and_self, Bool.or_true]
  obtain ⟨a, b⟩ := e1 hr
  cases hs : r.1 with
  | mk o s =>
    rw [hs] at a b
    dsimp only at a b
    rw [a, b]

/-- C69: two encoders with any past, that analyse a silent frame then the same frames, have the same state: the rate control
forgets all that precedes a silent frame. -/
theorem C69_forget {R : Type} (A : Arith R) (G : GainMath R) (h1 : A.mul (A.ofRat 0) (A.ofRat 0) = A.ofRat 0)
    (h2 : A.max (A.ofRat 0) (A.ofRat 0) = A.ofRat 0) (h3 : G.sqrt (A.ofRat 0) = A.ofRat 0)
    (h4 : A.le (A.ofRat 0) (A.ofRat 0) = true) (s1 s2 r1 r2 : SpecSt R) (l1 l2 l : List (SpecFrame R)) (f : SpecFrame R) (n : Nat)
    (hf : f.x = List.replicate n (A.ofRat 0))
    (e1 : specRun A G s1 (l1 ++ f :: l) = some r1) (e2 : specRun A G s2 (l2 ++ f :: l) = some r2) : r1 = r2 := by
  have key : ∀ (s r : SpecSt R) (l1 : List (SpecFrame R)), specRun A G s (l1 ++ f :: l) = some r →
      specRun A G ⟨A.ofRat 0, 0⟩ l = some r := by
    intro s r l1 h
    unfold specRun at h ⊢
    rw [List.foldlM_append] at h
    obtain ⟨s1, -, h⟩ := Option.bind_eq_some_iff.mp h
    rw [List.foldlM_cons] at h
    obtain ⟨s2, hs2, h⟩ := Option.bind_eq_some_iff.mp h
    rw [Option.map_eq_some_iff] at hs2
    obtain ⟨q, hq, hq2⟩ := hs2
    rw [hf] at hq
    rw [C69_silence A G h1 h2 h3 h4 _ _ _ _ _ _ _ _ hq] at hq2
    rw [hq2]
    exact h
  have a := key _ _ _ e1
  have b := key _ _ _ e2
  rw [a] at b
  exact Option.some.inj b

/-- C69: in high-resolution mode the noise floor of the gain estimation lies between `2^-31` and `2^-6` of the greatest coefficient, when
its computation is defined. -/
theorem C69_floor (dt : Dt) (sr : Srate) (hr : sr.hr = true) (nbytes : Nat) (x : List Rat) (xMax nf : Rat) (h0 : 0 ≤ xMax)
    (h : noiseFloor Arith.exact floatMath dt sr nbytes x xMax = some nf) :
    xMax * pow2 (-31) ≤ nf ∧ nf ≤ xMax * pow2 (-6) := by
  unfold noiseFloor at h
  rw [if_pos hr, Option.map_eq_some_iff] at h
  obtain ⟨low, hl, h⟩ := h
  have hs : ∀ (l : List Rat) (s : Rat × Rat × Rat), 0 ≤ s.1 → 0 ≤ s.2.1 → 0 ≤ s.2.2 →
      0 ≤ (slopeSums Arith.exact l s).1 ∧ 0 ≤ (slopeSums Arith.exact l s).2.1 := by
    intro l
    induction l with
    | nil => intro s a b _; exact ⟨a, b⟩
    | cons v l ih =>
      intro s a b c
      have hv : (0 : Rat) ≤ Arith.exact.abs v := by
        dsimp only [Arith.exact]
        split <;> linarith
      apply ih
      · exact add_nonneg a hv
      · exact add_nonneg b (mul_nonneg hv c)
      · exact add_nonneg c (by norm_num [Arith.exact])
  have hlow : 0 ≤ low ∧ low ≤ 8 := by
    unfold lowBits at hl
    dsimp only at hl
    rw [Option.bind_eq_some_iff] at hl
    obtain ⟨m, hm, hl⟩ := hl
    obtain ⟨a, b⟩ := hs x (Arith.exact.ofRat (1/100000), Arith.exact.ofRat (1/100000), Arith.exact.ofRat 0)
      (by norm_num [Arith.exact]) (by norm_num [Arith.exact]) (by norm_num [Arith.exact])
    generalize slopeSums Arith.exact x _ = s at hm a b
    have hq : (0 : Rat) ≤ Arith.exact.div (Arith.exact.mul (Arith.exact.ofRat (16/10)) s.1)
        (Arith.exact.mul (Arith.exact.ofInt (1 + dt.idx)) s.2.1) := by
      apply div_nonneg
      · exact mul_nonneg (by norm_num [Arith.exact]) a
      · refine mul_nonneg ?_ b
        change (0 : Rat) ≤ ((1 + (dt.idx : Int) : Int) : Rat)
        exact_mod_cast (by omega : (0 : Int) ≤ 1 + (dt.idx : Int))
    have hm0 : 0 ≤ m := by
      unfold i32 at hm
      split at hm
      · cases hm
        dsimp only [floatMath]
        rw [if_neg (not_lt.mpr hq)]
        exact Rat.le_floor_iff.mpr (by push_cast; linarith)
      · cases hm
    unfold i32 at hl
    split at hl
    · cases hl; omega
    · cases hl
  have hreg : 6 ≤ regBits dt sr nbytes ∧ regBits dt sr nbytes ≤ 23 := by
    unfold regBits
    dsimp only
    omega
  have he : nf = xMax * (pow2 (-(regBits dt sr nbytes)) * pow2 (-low)) := by
    rw [← h]
    dsimp only [Arith.exact, Arith.ofInt, floatMath, id]
    rw [show Rat.floor ((-low : Int) : Rat) = -low from Rat.floor_intCast _, mul_assoc]
  rw [he, ← pow2_add]
  exact ⟨mul_le_mul_of_nonneg_left (pow2_le (by omega)) h0, mul_le_mul_of_nonneg_left (pow2_le (by omega)) h0⟩

/-- Non-vacuity: an offset at the limit, with bits spared, remains at the limit; the floor of a spectrum. -/
example : nbitsOffset (Arith.rounded rne24) floatMath ⟨40, 100⟩ = 40 ∧
    noiseFloor Arith.exact floatMath .m10 .k96hr 200 (List.replicate 960 3) 3 = some (3 * pow2 (-25)) := by decide +kernel

/-- Non-vacuity: the analysis of a silent frame after a loud one. -/
example : (specAnalyze (Arith.rounded rne24) floatMath .m10 .k16 40 false ⟨false, [[]]⟩ ⟨17, -60⟩ (List.replicate 160 0)).isSome = true := by
  decide +kernel

example : (Arith.rounded rne24).mul 0 0 = 0 ∧ floatMath.sqrt 0 = 0 ∧ (Arith.rounded rne24).ofRat 0 = 0 := by decide +kernel

end LC3
