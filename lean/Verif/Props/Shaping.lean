import Verif.Lemmas.Shaping
import Verif.Lemmas.Dft
import Mathlib.Analysis.SpecialFunctions.Pow.Real
import Mathlib.Analysis.SpecialFunctions.Log.Base

/-! Properties of the spectral noise shaping. -/

namespace LC3

open Finset

variable {R : Type}

/-! ### C53: shaping of the spectrum -/

theorem zip_take_length {α β : Type} : ∀ (l : List β) (f : List α), f.zip l = (f.take l.length).zip l
  | [], f => by simp
  | b :: l, [] => by simp
  | b :: l, a :: f => by simp [← zip_take_length l f]

/-- Every coefficient is in a band. -/
theorem band_exists : ∀ (lim : List Nat) (i last k : Nat), (i :: lim).getLast? = some last → i ≤ k → k < last →
    ∃ b, b < lim.length ∧ (i :: lim).getD b 0 ≤ k ∧ k < (i :: lim).getD (b + 1) 0
  | [], i, last, k, h, h1, h2 => by simp at h; omega
  | ie :: lim, i, last, k, h, h1, h2 => by
    by_cases c : k < ie
    · exact ⟨0, by simp, by simpa using h1, by simpa using c⟩
    · rw [List.getLast?_cons_cons] at h
      obtain ⟨b, b1, b2, b3⟩ := band_exists lim ie last k h (by omega) h2
      exact ⟨b + 1, by simpa using b1, by simpa using b2, by simpa using b3⟩

theorem bandLim_exists (dt : Dt) (sr : Srate) (hc : Config dt sr) (k : Nat) (hk : k < ne dt sr) :
    ∃ b, b < numBands dt sr ∧ (bandLim dt sr).getD b 0 ≤ k ∧ k < (bandLim dt sr).getD (b + 1) 0 := by
  obtain ⟨h1, -, h3, h4, -⟩ := bandLim_cases dt sr hc
  unfold numBands
  cases hb : bandLim dt sr with
  | nil => rw [hb] at h4; simp at h4
  | cons l0 lim =>
    rw [hb] at h1 h3
    simp only [List.head?_cons, Option.some.injEq] at h1
    subst h1
    simpa using band_exists lim 0 (ne dt sr) k h3 (Nat.zero_le _) hk

/-- The gains applied to the bands. -/
def bandGains (A : Arith R) (M : SnsMath R) (dt : Dt) (sr : Srate) (scf : List R) (inv : Bool) : List R :=
  match interpScf A scf inv with
  | none => []
  | some s =>
    match foldScf A (numBands dt sr) s with
    | none => []
    | some f => f.map fun v => M.exp2 (A.neg v)

/-- The shaping, for any arithmetic: all the accesses are in the buffers; the coefficients of a band are multiplied by one same gain, given by the
scale factors only; the coefficients that are not encoded are left unchanged. -/
theorem shaping_spec (A : Arith R) (M : SnsMath R) (z : R) (dt : Dt) (sr : Srate) (hc : Config dt sr) (scf : List R) (hs : scf.length = 16)
    (inv : Bool) (x : Option (List R)) (y : List R) (hx : ∀ x', x = some x' → ne dt sr ≤ x'.length) (hy : ne dt sr ≤ y.length) :
    ∃ (y' : List R), spectralShaping A M dt sr scf inv x y = some y' ∧ y'.length = y.length ∧
      (∀ k, ne dt sr ≤ k → y'[k]? = y[k]?) ∧
      ∀ b, b < numBands dt sr → ∀ k, (bandLim dt sr).getD b 0 ≤ k → k < (bandLim dt sr).getD (b + 1) 0 →
        y'.getD k z = A.mul ((x.getD y).getD k z) ((bandGains A M dt sr scf inv).getD b z) := by
  obtain ⟨h1, h2, h3, h4, h5⟩ := bandLim_cases dt sr hc
  obtain ⟨n1, n2⟩ := numBands_range dt sr hc
  obtain ⟨n4, m2, p1, p2, p3⟩ := padCounts_some _ n1 n2
  obtain ⟨s, a1, a2⟩ := interpScf_some A scf inv hs
  obtain ⟨f, b1, b2, b3⟩ := foldScf_spec A z (numBands dt sr) n4 m2 p1 p2 p3 s a2
  obtain ⟨lim, hb⟩ : ∃ lim, bandLim dt sr = 0 :: lim := by
    cases hb : bandLim dt sr with
    | nil => rw [hb] at h4; simp at h4
    | cons l0 lim =>
      rw [hb] at h1
      simp only [List.head?_cons, Option.some.injEq] at h1
      exact ⟨lim, by rw [h1]⟩
  have hlen : lim.length = numBands dt sr := by simp [numBands, hb]
  rw [hb] at h2 h3
  have hzip : f.zip lim = (f.take (numBands dt sr)).zip lim := by
    rw [← hlen]
    exact zip_take_length lim f
  obtain ⟨y', c1, c2, c3, c4⟩ := shapeLoop_spec A M z x (f.take (numBands dt sr)) lim 0 (ne dt sr) y
    (by rw [List.length_take]; omega) h2 h3 hy hx
  refine ⟨y', ?_, c2, ?_, ?_⟩
  · unfold spectralShaping
    rw [a1, Option.bind_some, b1, Option.bind_some, hb, List.tail_cons, hzip, c1]
  · intro k hk
    by_cases hk2 : k < y.length
    · have := c3 k (Or.inr hk)
      rw [List.getElem?_eq_getElem (by omega), List.getElem?_eq_getElem hk2]
      rw [List.getD_eq_getElem _ _ (by omega), List.getD_eq_getElem _ _ hk2] at this
      rw [this]
    · rw [List.getElem?_eq_none (by omega), List.getElem?_eq_none (by omega)]
  · intro b hbn k hk1 hk2
    rw [hb] at hk1 hk2
    rw [c4 b (by omega) k hk1 hk2]
    unfold bandGains
    rw [a1]
    dsimp only
    rw [b1]
    dsimp only
    rw [List.getD_eq_getElem _ z (show b < (f.take (numBands dt sr)).length by rw [List.length_take]; omega),
      List.getD_eq_getElem _ z (show b < (f.map fun v => M.exp2 (A.neg v)).length by rw [List.length_map]; omega), List.getElem_take, List.getElem_map]

/-- Data of a frame accepted by the decoder (see `C27_any_frame`). -/
def SnsValid (d : SnsData) : Prop :=
  d.lfcb < 32 ∧ d.hfcb < 32 ∧ d.shape < 4 ∧ d.gain < snsGains d.shape ∧ d.idxA < snsSizeA d.shape ∧ d.idxB < 6

theorem deenumerate_some (d : SnsData) (hd : SnsValid d) :
    ∃ c, deenumerate d.shape d.idxA d.lsA d.idxB d.lsB = some c ∧ ShapeVec d.shape c := by
  obtain ⟨-, -, h3, -, h5, h6⟩ := hd
  by_cases c : d.shape = 0
  · obtain ⟨v, a1, a2, -⟩ := C19_shape_every_index d h3 h5 (by rw [if_pos c]; exact h6)
    exact ⟨v, a1, a2⟩
  · obtain ⟨v, a1, a2, -⟩ := C19_shape_every_index { d with idxB := 0, lsB := false } h3 h5 (by
      dsimp only; rw [if_neg c]; exact ⟨rfl, rfl⟩)
    refine ⟨v, ?_, a2⟩
    rw [← a1]
    dsimp only
    unfold deenumerate
    simp only [if_neg c]

/-- The scale factors of the decoder exist for any accepted frame. -/
theorem snsDecodeScf_some (A : Arith R) (M : SnsMath R) (d : SnsData) (hd : SnsValid d) :
    ∃ scf, snsDecodeScf A M d = some scf ∧ scf.length = 16 := by
  obtain ⟨c, a1, a2⟩ := deenumerate_some d hd
  obtain ⟨scf, b1, b2⟩ := unquantizeScf_some A d.lfcb d.hfcb (normalizePulses A M c) d.shape d.gain hd.1 hd.2.1
    (by simp [normalizePulses, a2.1]) hd.2.2.1 hd.2.2.2.1
  refine ⟨scf, ?_, b2⟩
  unfold snsDecodeScf
  simp only [Option.bind_eq_bind]
  rw [a1, Option.bind_some, b1]

/-- **C53.** For all the configurations, any arithmetic, any accepted data and any spectrum: the synthesis accesses its buffers only, sets
each of the encoded coefficients to the product of the decoded coefficient by the gain of its band, which depends on the data only,
and leaves the others unchanged. -/
theorem C53_synthesis (A : Arith R) (M : SnsMath R) (z : R) (dt : Dt) (sr : Srate) (hc : Config dt sr) (d : SnsData) (hd : SnsValid d) :
    ∃ gain : Nat → R, ∀ (x y : List R), ne dt sr ≤ x.length → ne dt sr ≤ y.length →
      ∃ y', snsSynthesize A M dt sr d (some x) y = some y' ∧ y'.length = y.length ∧
        (∀ k, ne dt sr ≤ k → y'[k]? = y[k]?) ∧
        ∀ k, k < ne dt sr → ∃ b, b < numBands dt sr ∧ (bandLim dt sr).getD b 0 ≤ k ∧ k < (bandLim dt sr).getD (b + 1) 0 ∧
          y'.getD k z = A.mul (x.getD k z) (gain b) := by
  obtain ⟨scf, a1, a2⟩ := snsDecodeScf_some A M d hd
  refine ⟨fun b => (bandGains A M dt sr scf true).getD b z, ?_⟩
  intro x y hx hy
  obtain ⟨y', b1, b2, b3, b4⟩ := shaping_spec A M z dt sr hc scf a2 true (some x) y (fun x' h => by cases h; exact hx) hy
  refine ⟨y', ?_, b2, b3, ?_⟩
  · unfold snsSynthesize; rw [a1, Option.bind_some, b1]
  · intro k hk
    obtain ⟨b, c1, c2, c3⟩ := bandLim_exists dt sr hc k hk
    exact ⟨b, c1, c2, c3, b4 b c1 k c2 c3⟩

/-! Inverse shaping, in exact arithmetic. -/

/-- The functions of the real numbers. -/
noncomputable def SnsMath.real : SnsMath ℝ where
  sqrt := Real.sqrt
  exp2 := fun x => 2 ^ x
  log2 := fun x => Real.logb 2 x
  fltMax := 3 * 10 ^ 38

theorem neg_real (a : ℝ) : Arith.real.neg a = -a := by simp [Arith.neg, Arith.real]

theorem interpLoop_neg : ∀ (l : List ℝ) (s : ℝ), interpLoop Arith.real (-s) (l.map fun v => -v) = (interpLoop Arith.real s l).map fun v => -v
  | [], _ => rfl
  | s1 :: l, s => by
    rw [List.map_cons, interpLoop, interpLoop, interpLoop_neg l s1]
    simp only [List.map_cons, Arith.real]
    congr 1
    · ring
    congr 1
    · ring
    congr 1
    · ring
    congr 1
    ring

theorem interpLast_neg : ∀ (l : List ℝ), interpLast Arith.real (l.map fun v => -v) = (interpLast Arith.real l).map fun v => -v
  | [] => rfl
  | [_] => rfl
  | [a, b] => by
    simp only [List.map_cons, List.map_nil, interpLast, Arith.real]
    congr 1
    · ring
    congr 1
    ring
  | a :: b :: c :: l => by
    have h := interpLast_neg (b :: c :: l)
    have e : ∀ (u v w : ℝ) (l : List ℝ), interpLast Arith.real (u :: v :: w :: l) = interpLast Arith.real (v :: w :: l) := fun _ _ _ _ => rfl
    simp only [List.map_cons] at h ⊢
    rw [e, e, h]

theorem interpScf_neg (scf : List ℝ) (s : List ℝ) (h : interpScf Arith.real scf false = some s) :
    interpScf Arith.real scf true = some (s.map fun v => -v) := by
  unfold interpScf at h ⊢
  have e1 : scf.map (fun v => if false = true then Arith.real.neg v else v) = scf := by simp
  have e2 : scf.map (fun v => if true = true then Arith.real.neg v else v) = scf.map fun v => -v := by
    simp only [if_true, neg_real]
  rw [e1] at h
  rw [e2]
  cases scf with
  | nil => cases h
  | cons s0 l =>
    rw [List.map_cons]
    dsimp only at h ⊢
    by_cases c : l.length ≠ 15
    · rw [if_pos c] at h; cases h
    · rw [if_neg c] at h
      rw [if_neg (by simpa using c)]
      have h := Option.some.inj h
      rw [← h, interpLoop_neg]
      have := interpLast_neg (s0 :: l)
      rw [List.map_cons] at this
      rw [this]
      simp

theorem foldAt_neg (nb n4 n2 : Nat) (s : List ℝ) (b : Nat) :
    foldAt Arith.real 0 nb n4 n2 (s.map fun v => -v) b = -foldAt Arith.real 0 nb n4 n2 s b := by
  have e : ∀ k, (s.map fun v => -v).getD k 0 = -s.getD k 0 := by
    intro k
    rw [List.getD_eq_getElem?_getD, List.getD_eq_getElem?_getD, List.getElem?_map]
    cases s[k]? <;> simp
  unfold foldAt
  simp only [e, Arith.real]
  split_ifs <;> ring

theorem bandGains_real (dt : Dt) (sr : Srate) (hc : Config dt sr) (scf : List ℝ) (hs : scf.length = 16) (b : Nat) (hb : b < numBands dt sr) :
    ∃ v : ℝ, (bandGains Arith.real SnsMath.real dt sr scf false).getD b 0 = (2 : ℝ) ^ (-v) ∧
      (bandGains Arith.real SnsMath.real dt sr scf true).getD b 0 = (2 : ℝ) ^ v := by
  obtain ⟨n1, n2⟩ := numBands_range dt sr hc
  obtain ⟨n4, m2, p1, p2, p3⟩ := padCounts_some _ n1 n2
  obtain ⟨s, a1, a2⟩ := interpScf_some Arith.real scf false hs
  obtain ⟨f, b1, b2, b3⟩ := foldScf_spec Arith.real 0 (numBands dt sr) n4 m2 p1 p2 p3 s a2
  obtain ⟨f', c1, c2, c3⟩ := foldScf_spec Arith.real 0 (numBands dt sr) n4 m2 p1 p2 p3 (s.map fun v => -v) (by simpa using a2)
  refine ⟨f.getD b 0, ?_, ?_⟩
  · unfold bandGains
    rw [a1]; dsimp only
    rw [b1]; dsimp only
    rw [List.getD_eq_getElem _ _ (by rw [List.length_map]; omega), List.getElem_map, neg_real, List.getD_eq_getElem _ _ (by omega)]
    rfl
  · unfold bandGains
    rw [interpScf_neg scf s a1]; dsimp only
    rw [c1]; dsimp only
    rw [List.getD_eq_getElem _ _ (by rw [List.length_map]; omega), List.getElem_map, neg_real]
    have : f'[b]'(by omega) = -f.getD b 0 := by
      rw [b3 b hb, ← foldAt_neg, ← c3 b hb, List.getD_eq_getElem _ _ (by omega)]
    rw [this, neg_neg]
    rfl

/-- **C53.** In exact arithmetic, the inverse shaping gives back the spectrum from the shaped one: with the same scale factors, what the
decoder multiplies is what the encoder divided. -/
theorem C53_inverse (dt : Dt) (sr : Srate) (hc : Config dt sr) (scf : List ℝ) (hs : scf.length = 16) (x w : List ℝ) (hx : ne dt sr ≤ x.length)
    (hw : ne dt sr ≤ w.length) :
    ∃ y x', spectralShaping Arith.real SnsMath.real dt sr scf false none x = some y ∧
      spectralShaping Arith.real SnsMath.real dt sr scf true (some y) w = some x' ∧ ∀ k, k < ne dt sr → x'.getD k 0 = x.getD k 0 := by
  obtain ⟨y, a1, a2, a3, a4⟩ := shaping_spec Arith.real SnsMath.real 0 dt sr hc scf hs false none x (by simp) hx
  obtain ⟨x', b1, b2, b3, b4⟩ := shaping_spec Arith.real SnsMath.real 0 dt sr hc scf hs true (some y) w (fun x' h => by cases h; omega) hw
  refine ⟨y, x', a1, b1, ?_⟩
  intro k hk
  obtain ⟨b, c1, c2, c3⟩ := bandLim_exists dt sr hc k hk
  obtain ⟨v, d1, d2⟩ := bandGains_real dt sr hc scf hs b c1
  rw [b4 b c1 k c2 c3, Option.getD_some, a4 b c1 k c2 c3, Option.getD_none, d1, d2]
  simp only [Arith.real]
  rw [mul_assoc, ← Real.rpow_add (by norm_num)]
  simp

/-- The interpolation of the scale factors: linear between the centers of groups of four bands, constant before the first one, extended
after the last one. -/
noncomputable def interpolated (scf : List ℝ) (k : Nat) : ℝ :=
  let s := fun i => scf.getD i 0
  if k < 2 then s 0
  else if k < 62 then s ((k - 2) / 4) + (2 * ((k - 2) % 4 : Nat) + 1) / 8 * (s ((k - 2) / 4 + 1) - s ((k - 2) / 4))
  else s 15 + (2 * (k - 62 : Nat) + 1) / 8 * (s 15 - s 14)

set_option maxHeartbeats 1000000 in
theorem interpScf_real (scf : List ℝ) (hs : scf.length = 16) : interpScf Arith.real scf false = some ((List.range 64).map (interpolated scf)) := by
  match scf, hs with
  | [s0, s1, s2, s3, s4, s5, s6, s7, s8, s9, s10, s11, s12, s13, s14, s15], _ =>
    have hr : List.range 64 = [0, 1, 2, 3, 4, 5, 6, 7, 8, 9, 10, 11, 12, 13, 14, 15, 16, 17, 18, 19, 20, 21, 22, 23, 24, 25, 26, 27, 28, 29, 30, 31,
      32, 33, 34, 35, 36, 37, 38, 39, 40, 41, 42, 43, 44, 45, 46, 47, 48, 49, 50, 51, 52, 53, 54, 55, 56, 57, 58, 59, 60, 61, 62, 63] := by decide
    rw [hr]
    simp only [interpScf, List.map_cons, List.map_nil, Bool.false_eq_true, if_false, List.length_cons, List.length_nil, ne_eq, not_true_eq_false, interpLoop, interpLast, Arith.real,
      List.cons_append, List.nil_append]
    norm_num [interpolated]

/-- **C53.** In exact arithmetic, the gain of the band `b` of the decoder is `2^v`, with `v` the mean of the interpolated scale factors
of the band: four, two or one of the 64 values. -/
theorem C53_gain (dt : Dt) (sr : Srate) (hc : Config dt sr) (scf : List ℝ) (hs : scf.length = 16) (x w : List ℝ) (hx : ne dt sr ≤ x.length)
    (hw : ne dt sr ≤ w.length) :
    ∃ n4 n2 y, 4 * n4 + 2 * n2 + (numBands dt sr - n4 - n2) = 64 ∧ n4 + n2 ≤ numBands dt sr ∧
      spectralShaping Arith.real SnsMath.real dt sr scf true (some x) w = some y ∧
      ∀ b, b < numBands dt sr → ∀ k, (bandLim dt sr).getD b 0 ≤ k → k < (bandLim dt sr).getD (b + 1) 0 →
        y.getD k 0 = x.getD k 0 * (2 : ℝ) ^ (let v := interpolated scf
          if b < n4 then (v (4 * b) + v (4 * b + 1) + v (4 * b + 2) + v (4 * b + 3)) / 4
          else if b < n4 + n2 then (v (2 * (n4 + b)) + v (2 * (n4 + b) + 1)) / 2
          else v (64 - numBands dt sr + b)) := by
  obtain ⟨n1, n2⟩ := numBands_range dt sr hc
  obtain ⟨n4, m2, p1, p2, p3⟩ := padCounts_some _ n1 n2
  obtain ⟨y, b1, b2, b3, b4⟩ := shaping_spec Arith.real SnsMath.real 0 dt sr hc scf hs true (some x) w (fun x' h => by cases h; omega) hw
  refine ⟨n4, m2, y, p3, p2, b1, ?_⟩
  intro b hb k hk1 hk2
  rw [b4 b hb k hk1 hk2, Option.getD_some]
  have a1 := interpScf_real scf hs
  obtain ⟨f', c1, c2, c3⟩ := foldScf_spec Arith.real 0 (numBands dt sr) n4 m2 p1 p2 p3 (((List.range 64).map (interpolated scf)).map fun v => -v) (by simp)
  have e : (bandGains Arith.real SnsMath.real dt sr scf true).getD b 0 =
      (2 : ℝ) ^ foldAt Arith.real 0 (numBands dt sr) n4 m2 ((List.range 64).map (interpolated scf)) b := by
    unfold bandGains
    rw [interpScf_neg scf _ a1]; dsimp only
    rw [c1]; dsimp only
    rw [List.getD_eq_getElem _ _ (by rw [List.length_map]; omega), List.getElem_map, neg_real]
    have : f'[b]'(by omega) = -foldAt Arith.real 0 (numBands dt sr) n4 m2 ((List.range 64).map (interpolated scf)) b := by
      rw [← foldAt_neg, ← c3 b hb, List.getD_eq_getElem _ _ (by omega)]
    rw [this, neg_neg]
    rfl
  rw [e]
  have q : ∀ j, j < 64 → ((List.range 64).map (interpolated scf)).getD j 0 = interpolated scf j := by
    intro j hj
    rw [List.getD_eq_getElem _ _ (by simpa using hj), List.getElem_map, List.getElem_range]
  change _ * _ = _
  congr 2
  dsimp only
  unfold foldAt
  by_cases c1 : b < n4
  · rw [if_pos c1, if_pos c1, q _ (by omega), q _ (by omega), q _ (by omega), q _ (by omega)]
    simp only [Arith.real]; push_cast; ring
  · rw [if_neg c1, if_neg c1]
    by_cases c2 : b < n4 + m2
    · rw [if_pos c2, if_pos c2, q _ (by omega), q _ (by omega)]
      simp only [Arith.real]; push_cast; ring
    · rw [if_neg c2, if_neg c2, q _ (by omega)]

/-! Non-vacuity: valid data, and the number of bands with and without folding. -/

example : SnsValid ⟨16, 3, 1, 1, 633567, true, 0, false⟩ ∧ Config .m2_5 .k8 ∧ numBands .m2_5 .k8 < 32 ∧ Config .m10 .k48 ∧ numBands .m10 .k48 = 64 := by
  unfold SnsValid
  decide

end LC3
