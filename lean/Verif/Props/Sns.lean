import Verif.Lemmas.SnsPulse
import Verif.Props.Syntax

/-!
Properties of the vector quantisation of SNS: C19, C40.
-/

namespace LC3

/-- Number of pulses of a vector: sum of the magnitudes. -/
def pulseCount (c : List Int) : Nat := (c.map Int.natAbs).sum

theorem psum_eq (c : List Int) : psum c = pulseCount c := by
  induction c with
  | nil => rfl
  | cons v c ih => simp only [psum, ih, pulseCount, List.map_cons, List.sum_cons]

/-! ### C19 -/

/-- **C19.** Any vector of at most 16 values with 1 to 10 pulses: the index exists (no access out of
the table), is below the number of indexes, and the vector is obtained back from it. -/
theorem C19_round_trip (c : List Int) (hl : c.length ≤ 16) (h1 : 1 ≤ pulseCount c)
    (h2 : pulseCount c ≤ 10) :
    ∃ idx ls, enumMvpq c = some (idx, ls) ∧ idx < mcount c.length (pulseCount c) ∧
      deenumMvpq c.length idx ls (pulseCount c) = some c := by
  rw [← psum_eq] at *
  exact ⟨(enumR c).1, (enumR c).2, enumMvpq_eq c hl h1 h2, enumR_lt c hl h1 h2, deenum_enumR c hl h1 h2⟩

/-- **C19.** Any index in range and any sign: a vector is obtained, without access out of the
table, of the expected length and number of pulses, and its index is the original one. -/
theorem C19_every_index (n k idx : Nat) (ls : Bool) (hn : n ≤ 16) (h1 : 1 ≤ k) (hk : k ≤ 10)
    (h : idx < mcount n k) :
    ∃ c, deenumMvpq n idx ls k = some c ∧ c.length = n ∧ pulseCount c = k ∧
      enumMvpq c = some (idx, ls) := by
  obtain ⟨c, e1, e2, e3, e4⟩ := deenum_spec n idx ls k hn h1 hk h
  refine ⟨c, e1, e2, by rw [← psum_eq]; exact e3, ?_⟩
  rw [enumMvpq_eq c (by omega) (by omega) (by omega), e4]

/-- **C19.** A vector of 16 values without any pulse is enumerated within the vector and the table. -/
theorem C19_no_pulse : enumMvpq (List.replicate 16 0) = some (0, false) := by decide

/-- **C19.** Distinct indexes (or signs) give distinct vectors. -/
theorem C19_distinct (n k idx idx' : Nat) (ls ls' : Bool) (hn : n ≤ 16) (h1 : 1 ≤ k) (hk : k ≤ 10)
    (h : idx < mcount n k) (h' : idx' < mcount n k)
    (he : deenumMvpq n idx ls k = deenumMvpq n idx' ls' k) : idx = idx' ∧ ls = ls' := by
  obtain ⟨c, e1, -, -, e4⟩ := C19_every_index n k idx ls hn h1 hk h
  obtain ⟨c', e1', -, -, e4'⟩ := C19_every_index n k idx' ls' hn h1 hk h'
  rw [e1, e1'] at he
  cases he
  rw [e4] at e4'
  cases e4'
  exact ⟨rfl, rfl⟩

/-- The number of indexes is the half of the number of vectors: `mcount` satisfies the recurrence of the
number of points of the pyramid, `N(n,k) = N(n-1,k) + N(n-1,k-1) + N(n,k-1)`. -/
theorem mcount_recurrence (n k : Nat) (hn : 1 ≤ n) (hn' : n ≤ 15) (hk : 1 ≤ k) (hk' : k ≤ 9) :
    mcount (n + 1) (k + 1) = mcount n (k + 1) + mcount n k + mcount (n + 1) k := by
  have : (List.range 16).all (fun n => n == 0 || (List.range 10).all fun k => k == 0 ||
      mcount (n + 1) (k + 1) == mcount n (k + 1) + mcount n k + mcount (n + 1) k) = true := by
    decide +kernel
  rw [List.all_eq_true] at this
  have h := this n (by simp; omega)
  simp only [Bool.or_eq_true, beq_iff_eq, List.all_eq_true, List.mem_range] at h
  rcases h with h | h
  · omega
  · rcases h k (by omega) with h | h
    · omega
    · exact h

theorem mcount_10_10 : mcount 10 10 = 2390004 := by decide +kernel
theorem mcount_6_1 : mcount 6 1 = 6 := by decide +kernel
theorem mcount_16_8 : mcount 16 8 = 15158272 := by decide +kernel
theorem mcount_16_6 : mcount 16 6 = 774912 := by decide +kernel

/-- A pulse configuration of each shape. -/
def ShapeVec (shape : Nat) (c : List Int) : Prop :=
  c.length = 16 ∧
  match shape with
  | 0 => pulseCount (c.take 10) = 10 ∧ pulseCount (c.drop 10) = 1
  | 1 => pulseCount (c.take 10) = 10 ∧ c.drop 10 = [0, 0, 0, 0, 0, 0]
  | 2 => pulseCount c = 8
  | _ => pulseCount c = 6

theorem pulsesOk_iff (s : Nat) (hs : s < 4) (c : List Int) : PulsesOk s c ↔ ShapeVec s c := by
  have : s = 0 ∨ s = 1 ∨ s = 2 ∨ s = 3 := by omega
  rcases this with rfl | rfl | rfl | rfl <;> simp only [PulsesOk, ShapeVec, psum_eq]
  refine and_congr_right fun hl => and_congr_right fun _ => ⟨fun h => ?_, fun h => ?_⟩
  · rw [← psum_eq] at h
    have := psum_zero h
    rw [this]
    rw [List.length_drop, hl]; rfl
  · rw [h]; rfl

/-- **C19.** For each shape: the indexes of any configuration of the shape exist, are below the sizes of the bitstream
fields (2390004, 15158272, 774912, and 6 for the second vector of the shape 0), and the configuration is obtained back. -/
theorem C19_shape_round_trip (shape : Nat) (hs : shape < 4) (c : List Int) (hc : ShapeVec shape c) :
    ∃ idxA lsA idxB lsB, enumerate shape c = some (idxA, lsA, idxB, lsB) ∧
      idxA < snsSizeA shape ∧ (if shape = 0 then idxB < 6 else idxB = 0 ∧ lsB = false) ∧
      deenumerate shape idxA lsA idxB lsB = some c := by
  obtain ⟨hl, hc⟩ := hc
  have hs' : shape = 0 ∨ shape = 1 ∨ shape = 2 ∨ shape = 3 := by omega
  have lt : (c.take 10).length = 10 := by rw [List.length_take]; omega
  have ld : (c.drop 10).length = 6 := by rw [List.length_drop]; omega
  rcases hs' with rfl | rfl | rfl | rfl
  · obtain ⟨hA, hB⟩ := hc
    obtain ⟨iA, lA, a1, a2, a3⟩ := C19_round_trip (c.take 10) (by omega) (by omega) (by omega)
    obtain ⟨iB, lB, b1, b2, b3⟩ := C19_round_trip (c.drop 10) (by omega) (by omega) (by omega)
    rw [lt, hA] at a2 a3
    rw [ld, hB] at b2 b3
    rw [mcount_10_10] at a2
    rw [mcount_6_1] at b2
    refine ⟨iA, lA, iB, lB, ?_, a2, b2, ?_⟩
    · simp [enumerate, a1, b1]
    · simp [deenumerate, npulsesA, a3, b3]
  · obtain ⟨hA, hB⟩ := hc
    obtain ⟨iA, lA, a1, a2, a3⟩ := C19_round_trip (c.take 10) (by omega) (by omega) (by omega)
    rw [lt, hA] at a2 a3
    rw [mcount_10_10] at a2
    refine ⟨iA, lA, 0, false, ?_, a2, ⟨rfl, rfl⟩, ?_⟩
    · simp [enumerate, a1]
    · simp only [deenumerate, npulsesA, List.getD_cons_succ, List.getD_cons_zero]
      rw [if_pos (by decide), a3]
      have : c.take 10 ++ List.replicate 6 0 = c := by
        conv_rhs => rw [← List.take_append_drop 10 c, hB]
        rfl
      simpa using this
  · have hc : pulseCount c = 8 := hc
    obtain ⟨iA, lA, a1, a2, a3⟩ := C19_round_trip c (by omega) (by omega) (by omega)
    rw [hl, hc] at a2 a3
    rw [mcount_16_8] at a2
    refine ⟨iA, lA, 0, false, ?_, a2, ⟨rfl, rfl⟩, ?_⟩
    · simp [enumerate, List.take_of_length_le (show c.length ≤ 16 by omega), a1]
    · simp [deenumerate, npulsesA, a3]
  · have hc : pulseCount c = 6 := hc
    obtain ⟨iA, lA, a1, a2, a3⟩ := C19_round_trip c (by omega) (by omega) (by omega)
    rw [hl, hc] at a2 a3
    rw [mcount_16_6] at a2
    refine ⟨iA, lA, 0, false, ?_, a2, ⟨rfl, rfl⟩, ?_⟩
    · simp [enumerate, List.take_of_length_le (show c.length ≤ 16 by omega), a1]
    · simp [deenumerate, npulsesA, a3]

/-- **C19.** All valid SNS data decodes to a configuration of the shape, whose indexes are the
decoded ones: besides with `C20_any_frame`, for any received frame the decoder never gets out of the table. -/
theorem C19_shape_every_index (d : SnsData) (h3 : d.shape < 4) (hA : d.idxA < snsSizeA d.shape)
    (hB : if d.shape = 0 then d.idxB < 6 else d.idxB = 0 ∧ d.lsB = false) :
    ∃ c, deenumerate d.shape d.idxA d.lsA d.idxB d.lsB = some c ∧ ShapeVec d.shape c ∧
      enumerate d.shape c = some (d.idxA, d.lsA, d.idxB, d.lsB) := by
  obtain ⟨lfcb, hfcb, shape, gain, idxA, lsA, idxB, lsB⟩ := d
  dsimp only at *
  have hs' : shape = 0 ∨ shape = 1 ∨ shape = 2 ∨ shape = 3 := by omega
  rcases hs' with rfl | rfl | rfl | rfl
  · have hB : idxB < 6 := hB
    obtain ⟨a, a1, a2, a3, a4⟩ := C19_every_index 10 10 idxA lsA (by omega) (by omega) (by omega)
      (by rw [mcount_10_10]; exact hA)
    obtain ⟨b, b1, b2, b3, b4⟩ := C19_every_index 6 1 idxB lsB (by omega) (by omega) (by omega)
      (by rw [mcount_6_1]; exact hB)
    have t1 : (a ++ b).take 10 = a := by
      rw [List.take_append_of_le_length (by omega), List.take_of_length_le (by omega)]
    have t2 : (a ++ b).drop 10 = b := by
      rw [List.drop_append_of_le_length (by omega), List.drop_eq_nil_of_le (by omega)]; rfl
    refine ⟨a ++ b, ?_, ⟨?_, ?_, ?_⟩, ?_⟩
    · simp [deenumerate, npulsesA, a1, b1]
    · rw [List.length_append]; omega
    · rw [t1]; exact a3
    · rw [t2]; exact b3
    · have e1 : (a ++ b).take 10 = a := t1
      simp only [enumerate, if_pos (show 0 < 2 by decide)]
      rw [t1, t2, a4, b4]
      simp
  · obtain ⟨hB, hB'⟩ : idxB = 0 ∧ lsB = false := hB
    subst hB hB'
    obtain ⟨a, a1, a2, a3, a4⟩ := C19_every_index 10 10 idxA lsA (by omega) (by omega) (by omega)
      (by rw [mcount_10_10]; exact hA)
    have t1 : (a ++ List.replicate 6 0).take 10 = a := by
      rw [List.take_append_of_le_length (by omega), List.take_of_length_le (by omega)]
    have t2 : (a ++ List.replicate 6 (0 : Int)).drop 10 = List.replicate 6 0 := by
      rw [List.drop_append_of_le_length (by omega), List.drop_eq_nil_of_le (by omega)]; rfl
    refine ⟨a ++ List.replicate 6 0, ?_, ⟨?_, ?_, ?_⟩, ?_⟩
    · simp [deenumerate, npulsesA, a1]
    · rw [List.length_append, List.length_replicate]; omega
    · rw [t1]; exact a3
    · rw [t2]; rfl
    · simp only [enumerate, if_pos (show 1 < 2 by decide)]
      rw [t1, a4]
      simp
  · obtain ⟨hB, hB'⟩ : idxB = 0 ∧ lsB = false := hB
    subst hB hB'
    obtain ⟨a, a1, a2, a3, a4⟩ := C19_every_index 16 8 idxA lsA (by omega) (by omega) (by omega)
      (by rw [mcount_16_8]; exact hA)
    refine ⟨a, ?_, ⟨a2, a3⟩, ?_⟩
    · simp [deenumerate, npulsesA, a1]
    · simp [enumerate, List.take_of_length_le (show a.length ≤ 16 by omega), a4]
  · obtain ⟨hB, hB'⟩ : idxB = 0 ∧ lsB = false := hB
    subst hB hB'
    obtain ⟨a, a1, a2, a3, a4⟩ := C19_every_index 16 6 idxA lsA (by omega) (by omega) (by omega)
      (by rw [mcount_16_6]; exact hA)
    refine ⟨a, ?_, ⟨a2, a3⟩, ?_⟩
    · simp [deenumerate, npulsesA, a1]
    · simp [enumerate, List.take_of_length_le (show a.length ≤ 16 by omega), a4]

def exVec : List Int := [1, 0, -2, 0, 0, 3, -1, 1, 0, 2, 0, 0, -1, 0, 0, 0]

/-- Non-vacuity, and the last index of the second shape with 16 values. -/
example : ShapeVec 0 exVec ∧ (enumerate 0 exVec).isSome = true ∧
    (deenumerate 2 15158271 true 0 false).isSome = true ∧
    (deenumerate 2 15158272 true 0 false) ≠ (deenumerate 2 15158271 true 0 false) := by
  refine ⟨⟨by decide, by decide, by decide⟩, by decide +kernel, by decide +kernel, by decide +kernel⟩

/-! ### C40 -/

/-- Exact arithmetic satisfies the hypotheses on the rounding. -/
theorem exact_rounds : Arith.exact.Rounds id where
  zero := by simp [Arith.exact, Arith.ofInt]
  five := by simp [Arith.exact, Arith.ofInt]
  tiny := by simp [Arith.exact]
  abs a := by
    simp only [Arith.exact, id]
    split <;> linarith
  add a b ha hb := by
    simp only [Arith.exact, id] at *
    linarith
  max a b := by
    simp only [Arith.exact, id]
    split <;> constructor <;> linarith
  div a b ha hb := by
    simp only [Arith.exact, id] at *
    have : 0 ≤ a / b := by positivity
    exact ⟨this, by linarith⟩
  mul a b ha hb := by
    simp only [Arith.exact, id] at *
    have : 0 ≤ a * b := by positivity
    exact ⟨this, Or.inr (by linarith)⟩
  floor a := rfl

/-- **C40.** Whatever the transformed residual is (16 values) and however the comparisons round,
each of the four candidates has exactly the pulses of its shape. The
arithmetic is arbitrary, except for the projection: operations on non-negative values have a relative error of at most
`2^-20`. -/
theorem C40_pulses {R : Type} [Inhabited R] (A : Arith R) (val : R → Rat) (hA : A.Rounds val)
    (x : List R) (hx : x.length = 16) (shape : Nat) (hs : shape < 4) :
    ShapeVec shape ((candidates A x).getD shape []) := by
  obtain ⟨h0, h5⟩ := initPulses_spec A val hA x hx
  rw [← pulsesOk_iff shape hs]
  exact candidates_ok A x hx h0 (by omega) shape hs

/-- **C40.** The same without any hypothesis on the arithmetic, but for the initial pulses: their values
are not negative and their sum is at most 6. -/
theorem C40_pulses_any {R : Type} [Inhabited R] (A : Arith R) (x : List R) (hx : x.length = 16)
    (h0 : ∀ v ∈ initPulses A (x.map A.abs), 0 ≤ v) (h6 : (initPulses A (x.map A.abs)).sum ≤ 6)
    (shape : Nat) (hs : shape < 4) : ShapeVec shape ((candidates A x).getD shape []) := by
  rw [← pulsesOk_iff shape hs]
  exact candidates_ok A x hx h0 h6 shape hs

/-- **C40.** The pulses of each candidate have the signs of the residual. -/
theorem C40_signs {R : Type} [Inhabited R] (A : Arith R) (val : R → Rat) (hA : A.Rounds val)
    (x : List R) (hx : x.length = 16) (shape : Nat) (hs : shape < 4) (i : Nat) (hi : i < 16) :
    let c := ((candidates A x).getD shape []).getD i 0
    (A.lt x[i] (A.ofInt 0) = true → c ≤ 0) ∧ (A.lt x[i] (A.ofInt 0) = false → 0 ≤ c) := by
  obtain ⟨h0, h5⟩ := initPulses_spec A val hA x hx
  obtain ⟨p0, p1, p2, p3, n0, n1, n2, n3⟩ := pulses_spec A (x.map A.abs) (by simp [hx]) h0 (by omega)
  have key : ∀ c : List Int, Nonneg c →
      (A.lt x[i] (A.ofInt 0) = true → (withSigns A x c).getD i 0 ≤ 0) ∧
      (A.lt x[i] (A.ofInt 0) = false → 0 ≤ (withSigns A x c).getD i 0) := by
    intro c hc
    unfold withSigns
    rw [List.getD_eq_getElem?_getD, List.getElem?_map]
    by_cases hl : i < c.length
    · have hz : i < (x.zip c).length := by simp [hl, hx, hi]
      have := hc c[i] (List.getElem_mem hl)
      rw [List.getElem?_eq_getElem hz, List.getElem_zip]
      simp only [Option.map_some, Option.getD_some]
      refine ⟨fun h => ?_, fun h => ?_⟩ <;> simp only [h, if_true, Bool.false_eq_true, if_false] <;> omega
    · have hz : (x.zip c)[i]? = none := List.getElem?_eq_none (by simp; omega)
      rw [hz]
      simp
  intro c
  have : shape = 0 ∨ shape = 1 ∨ shape = 2 ∨ shape = 3 := by omega
  rcases this with rfl | rfl | rfl | rfl
  · exact key _ n0
  · exact key _ n1
  · exact key _ n2
  · exact key _ n3

/-- **C40.** The result of the analysis exists (no access out of the table), is valid, hence
transmitted without loss (`C20_round_trip`), and the decoder gets back the selected candidate. Distances and
errors (`dl`, `dh`, `mse`) are arbitrary; the candidates have the pulses of their shapes (`C40_pulses`). -/
theorem C40_analyze_any {R : Type} [Inhabited R] (A : Arith R) (dl dh : Nat → R) (x : List R) (mse : Nat → Nat → R) (fltMax : R)
    (hp : ∀ shape, shape < 4 → ShapeVec shape ((candidates A x).getD shape [])) :
    ∃ d, snsAnalyze A dl dh x mse fltMax = some d ∧ d.lfcb < 32 ∧ d.hfcb < 32 ∧ d.shape < 4 ∧
      d.gain < snsGains d.shape ∧ d.idxA < snsSizeA d.shape ∧
      (if d.shape = 0 then d.idxB < 6 else d.idxB = 0 ∧ d.lsB = false) ∧
      deenumerate d.shape d.idxA d.lsA d.idxB d.lsB = (candidates A x)[d.shape]? := by
  obtain ⟨s1, s2⟩ := selectShape_lt A mse fltMax
  rcases e : selectShape A mse [2, 4, 4, 8] fltMax with ⟨shape, gain⟩
  rw [e] at s1 s2
  dsimp only at s1 s2
  obtain ⟨iA, lA, iB, lB, a1, a2, a3, a4⟩ := C19_shape_round_trip shape s1 _ (hp shape s1)
  refine ⟨⟨selectCodebook A dl, selectCodebook A dh, shape, gain, iA, lA, iB, lB⟩, ?_,
    selectCodebook_lt A dl, selectCodebook_lt A dh, s1, s2, a2, a3, ?_⟩
  · unfold snsAnalyze
    rw [e]
    dsimp only
    rw [a1]
    rfl
  · dsimp only
    rw [a4, List.getD_eq_getElem?_getD, List.getElem?_eq_getElem (by simpa [candidates] using s1)]
    rfl

/-- **C40.** The same in an arithmetic that rounds. -/
theorem C40_analyze {R : Type} [Inhabited R] (A : Arith R) (val : R → Rat) (hA : A.Rounds val)
    (dl dh : Nat → R) (x : List R) (hx : x.length = 16) (mse : Nat → Nat → R) (fltMax : R) :
    ∃ d, snsAnalyze A dl dh x mse fltMax = some d ∧ d.lfcb < 32 ∧ d.hfcb < 32 ∧ d.shape < 4 ∧
      d.gain < snsGains d.shape ∧ d.idxA < snsSizeA d.shape ∧
      (if d.shape = 0 then d.idxB < 6 else d.idxB = 0 ∧ d.lsB = false) ∧
      deenumerate d.shape d.idxA d.lsA d.idxB d.lsB = (candidates A x)[d.shape]? :=
  C40_analyze_any A dl dh x mse fltMax fun shape hs => C40_pulses A val hA x hx shape hs

def exRes : List Rat := [3, -1, 2, 0, 0, 1/2, -7, 0, 0, 1, 0, 0, -1/3, 0, 4, 0]

/-- Non-vacuity: a residual with the exact arithmetic; the null residual. -/
example : exRes.length = 16 ∧
    (candidates Arith.exact exRes).map pulseCount = [11, 10, 8, 6] ∧
    (((candidates Arith.exact exRes).getD 1 []).getD 0 0, ((candidates Arith.exact exRes).getD 1 []).getD 6 0) = (2, -5) ∧
    (candidates Arith.exact (List.replicate 16 0)).map pulseCount = [11, 10, 8, 6] := by
  refine ⟨by decide, by decide +kernel, by decide +kernel, by decide +kernel⟩

end LC3
