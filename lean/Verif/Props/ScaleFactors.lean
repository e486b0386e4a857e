import Verif.Props.ShapingScf

/-!
Properties of the scale factors: C82 (their formula, from the energy of the bands).
-/

namespace LC3

open Finset

/-- The band of the cell `j`, of 64: the first bands are counted 4 times or 2 times, such that there are 64 cells. -/
def cellBand (nb j : Nat) : Nat :=
  if nb < 32 then (if j < 4 * (32 - nb) then j / 4 else 32 - nb + (j - 4 * (32 - nb)) / 2)
  else (if j < 2 * (64 - nb) then j / 2 else j - (64 - nb))

/-- The smoothed and emphasised energy of the cell `j`; the cells before the first and after the last one are the same as these. -/
noncomputable def smoothed (sr : Srate) (E : Nat → ℝ) (j : Nat) : ℝ :=
  (E (j - 1) / 4 + E j / 2 + E (min (j + 1) 63) / 4) * ((geTable sr).getD j 0 : Rat)

/-- The noise floor: 40 dB under the mean energy, and at least 2⁻³². -/
noncomputable def energyFloor (sr : Srate) (E : Nat → ℝ) : ℝ := max ((∑ j ∈ range 64, smoothed sr E j) / 64 / 10 ^ 4) (1 / 2 ^ 32)

/-- The level of the cell `j`, half of the logarithm of its energy. -/
noncomputable def level (M : SnsMath ℝ) (sr : Srate) (E : Nat → ℝ) (j : Nat) : ℝ := M.log2 (max (smoothed sr E j) (energyFloor sr E)) / 2

/-- The weights of the 6 cells of a group. -/
def groupWeight (k : Nat) : ℝ := [1, 2, 3, 3, 2, 1].getD k 0

/-- The weighted mean of the levels of the cells of the group `i`, with the cells before and after it. -/
noncomputable def groupLevel (M : SnsMath ℝ) (sr : Srate) (E : Nat → ℝ) (i : Nat) : ℝ :=
  (∑ k ∈ range 6, groupWeight k * level M sr E (min (4 * i + k - 1) 63)) / 12

/-- The duration of a frame, in milliseconds. -/
noncomputable def durationMs : Dt → ℝ | .m2_5 => 5 / 2 | .m5 => 5 | .m7_5 => 15 / 2 | .m10 => 10

/-- The strength of the shaping. In high resolution, it is reduced above 460 kbps, or 440 kbps for the frames of 10 ms. -/
noncomputable def shapingStrength (dt : Dt) (sr : Srate) (nbytes : Nat) : ℝ :=
  if sr = .k48hr ∨ sr = .k96hr then
    0.6 * (if dt = .m10 then (if 440 < 8 * nbytes / durationMs dt then 0.35 else 1) else (if 460 < 8 * nbytes / durationMs dt then 0.25 else 1))
  else 0.85

theorem flatMap_replicate_getD (z : ℝ) (m : Nat) (hm : 0 < m) : ∀ (l : List ℝ) (j : Nat), j < l.length * m →
    (l.flatMap (List.replicate m)).getD j z = l.getD (j / m) z
  | [], j, h => by simp at h
  | a :: l, j, h => by
    rw [List.flatMap_cons]
    by_cases hj : j < m
    · rw [List.getD_append _ _ _ _ (by simpa using hj), Nat.div_eq_of_lt hj, List.getD_cons_zero,
        List.getD_eq_getElem _ _ (by simpa using hj), List.getElem_replicate]
    · rw [List.getD_append_right _ _ _ _ (by simpa using Nat.le_of_not_lt hj), List.length_replicate,
        flatMap_replicate_getD z m hm l (j - m) (by
          rw [List.length_cons, Nat.add_mul] at h; omega)]
      have e : j / m = (j - m) / m + 1 := by
        conv_lhs => rw [show j = j - m + m by omega]
        rw [Nat.add_div_right _ hm]
      rw [e, List.getD_cons_succ]

theorem padBands_cell (dt : Dt) (sr : Srate) (hc : Config dt sr) (eb e : List ℝ) (hb : numBands dt sr ≤ eb.length) (h : padBands dt sr eb = some e)
    (j : Nat) (hj : j < 64) : e.getD j 0 = eb.getD (cellBand (numBands dt sr) j) 0 := by
  obtain ⟨h1, h2⟩ := numBands_range dt sr hc
  unfold padBands at h
  dsimp only at h
  have hp : padCounts (numBands dt sr) = some (if numBands dt sr < 32 then (32 - numBands dt sr, 2 * numBands dt sr - 32) else (0, 64 - numBands dt sr)) := by
    unfold padCounts
    split_ifs with c1 c2
    · omega
    · have : 32 % numBands dt sr = 32 - numBands dt sr := by
        rw [Nat.mod_eq_sub_mod (by omega), Nat.mod_eq_of_lt (by omega)]
      rw [this]
      congr 2
      omega
    · rfl
  rw [hp, Option.bind_some] at h
  generalize numBands dt sr = nb at *
  have key : ∀ n4 n2 : Nat, n4 + n2 ≤ nb → (eb.take n4).flatMap (List.replicate 4) ++ ((eb.drop n4).take n2).flatMap (List.replicate 2) ++
      (eb.drop (n4 + n2)).take (nb - n4 - n2) = e → j < 4 * n4 + 2 * n2 + (nb - n4 - n2) →
      e.getD j 0 = eb.getD (if j < 4 * n4 then j / 4 else if j < 4 * n4 + 2 * n2 then n4 + (j - 4 * n4) / 2 else n4 + n2 + (j - 4 * n4 - 2 * n2)) 0 := by
    intro n4 n2 hn he hj
    subst he
    have l4 : ((eb.take n4).flatMap (List.replicate 4)).length = 4 * n4 := by rw [flatMap_replicate_length, List.length_take]; omega
    have l2 : (((eb.drop n4).take n2).flatMap (List.replicate 2)).length = 2 * n2 := by
      rw [flatMap_replicate_length, List.length_take, List.length_drop]; omega
    have ht : ∀ (l : List ℝ) (a i : Nat), i < a → (l.take a).getD i 0 = l.getD i 0 := by
      intro l a i hi
      rw [List.getD_eq_getElem?_getD, List.getD_eq_getElem?_getD, List.getElem?_take_of_lt hi]
    have hd : ∀ (l : List ℝ) (a i : Nat), (l.drop a).getD i 0 = l.getD (a + i) 0 := by
      intro l a i
      rw [List.getD_eq_getElem?_getD, List.getD_eq_getElem?_getD, List.getElem?_drop]
    rw [List.append_assoc]
    split_ifs with c1 c2
    · rw [List.getD_append _ _ _ _ (by omega), flatMap_replicate_getD 0 4 (by omega) _ _ (by rw [List.length_take]; omega), ht _ _ _ (by omega)]
    · rw [List.getD_append_right _ _ _ _ (by omega), l4, List.getD_append _ _ _ _ (by omega),
        flatMap_replicate_getD 0 2 (by omega) _ _ (by rw [List.length_take, List.length_drop]; omega), ht _ _ _ (by omega), hd]
    · rw [List.getD_append_right _ _ _ _ (by omega), l4, List.getD_append_right _ _ _ _ (by omega), l2, ht _ _ _ (by omega), hd]
  by_cases c : nb < 32
  · rw [if_pos c] at h
    split_ifs at h with c1
    rw [key _ _ (by dsimp only; omega) (Option.some.inj h) (by dsimp only; omega)]
    unfold cellBand
    rw [if_pos c]
    dsimp only
    congr 1
    split_ifs <;> omega
  · rw [if_neg c] at h
    split_ifs at h with c1
    rw [key _ _ (by dsimp only; omega) (Option.some.inj h) (by dsimp only; omega)]
    unfold cellBand
    rw [if_neg c]
    dsimp only
    congr 1
    split_ifs <;> omega

/-- A value of the smoothing, from the current one: `p` is the previous value. -/
theorem smoothLoop_real : ∀ (next ge : List ℝ) (p b s : ℝ) (r : List ℝ × ℝ), smoothLoop Arith.real p b next ge s = some r →
    (∀ j, j ≤ next.length → r.1.getD j 0 =
      ((p :: b :: next).getD j 0 / 4 + (b :: next).getD j 0 / 2 + (b :: next).getD (min (j + 1) next.length) 0 / 4) * ge.getD j 0) ∧
    r.2 = s + r.1.sum ∧ r.1.length = next.length + 1
  | [], [], p, b, s, r, h => by simp [smoothLoop] at h
  | [], [g], p, b, s, r, h => by
    rw [smoothLoop] at h
    obtain rfl := Option.some.inj h
    refine ⟨fun j hj => ?_, ?_, rfl⟩
    · obtain rfl : j = 0 := by simpa using hj
      simp only [Arith.real, List.getD_cons_zero, List.length_nil, Nat.zero_add, Nat.min_zero]
      push_cast
      ring
    · simp only [Arith.real, List.sum_cons, List.sum_nil]
      ring
  | [], g :: g' :: ge, p, b, s, r, h => by simp [smoothLoop] at h
  | c :: next, [], p, b, s, r, h => by simp [smoothLoop] at h
  | c :: next, g :: ge, p, b, s, r, h => by
    rw [smoothLoop] at h
    obtain ⟨r', h1, h⟩ := Option.bind_eq_some_iff.mp h
    obtain rfl := Option.some.inj h
    obtain ⟨a1, a2, a3⟩ := smoothLoop_real next ge b c _ r' h1
    refine ⟨fun j hj => ?_, ?_, by simp [a3]⟩
    · cases j with
      | zero =>
        have e : min (0 + 1) (c :: next).length = 0 + 1 := by simp
        rw [e, List.getD_cons_zero, List.getD_cons_zero, List.getD_cons_zero, List.getD_cons_succ, List.getD_cons_zero, List.getD_cons_zero]
        simp only [Arith.real]
        push_cast
        ring
      | succ j =>
        have hj' : j ≤ next.length := by simpa using hj
        have e : min (j + 1 + 1) (c :: next).length = min (j + 1) next.length + 1 := by rw [List.length_cons]; omega
        rw [e, List.getD_cons_succ, List.getD_cons_succ, List.getD_cons_succ, List.getD_cons_succ, List.getD_cons_succ, a1 j hj']
    · rw [a2, List.sum_cons]
      simp only [Arith.real]
      ring

theorem sum_getD (l : List ℝ) (n : Nat) (h : l.length = n) : l.sum = ∑ j ∈ range n, l.getD j 0 := by
  subst h
  induction l with
  | nil => rfl
  | cons a l ih =>
    rw [List.sum_cons, List.length_cons, Finset.sum_range_succ', ih]
    simp only [List.getD_cons_succ, List.getD_cons_zero]
    ring

theorem scfFactor_real (dt : Dt) (sr : Srate) (nbytes : Nat) : scfFactor Arith.real dt sr nbytes = shapingStrength dt sr nbytes := by
  have key : ∀ (t : Nat) (d q : ℝ), 0 < d → (t : ℝ) = q * d → (8 * nbytes > t ↔ q < 8 * nbytes / d) := by
    intro t d q hd ht
    rw [lt_div_iff₀ hd, ← ht]
    exact_mod_cast Iff.rfl
  have k1 := key 1150 (5 / 2) 460 (by norm_num) (by norm_num)
  have k2 := key 2300 5 460 (by norm_num) (by norm_num)
  have k3 := key 3450 (15 / 2) 460 (by norm_num) (by norm_num)
  have k4 := key 4400 10 440 (by norm_num) (by norm_num)
  unfold scfFactor shapingStrength
  have h6 : (Arith.real.ofRat (6 / 10) : ℝ) = 0.6 := by simp only [Arith.real]; norm_num
  have h8 : (Arith.real.ofRat (85 / 100) : ℝ) = 0.85 := by simp only [Arith.real]; norm_num
  have h2 : (Arith.real.ofRat (1 / 4) : ℝ) = 0.25 := by simp only [Arith.real]; norm_num
  have h3 : (Arith.real.ofRat (35 / 100) : ℝ) = 0.35 := by simp only [Arith.real]; norm_num
  rw [h6, h8, h2, h3]
  have hm : ∀ a b : ℝ, Arith.real.mul a b = a * b := fun _ _ => rfl
  cases sr <;> simp only [Srate.hr, Srate.idx, reduceCtorEq, false_or, or_false, or_self, if_false, if_true, hm, Nat.reduceLeDiff, decide_false, decide_true,
    Bool.false_eq_true, false_and, true_and] <;>
  cases dt <;> simp only [Dt.idx, durationMs, reduceCtorEq, if_false, if_true, ← k1, ← k2, ← k3, ← k4, Nat.reduceLT, Nat.reduceAdd, Nat.reduceMul,
    Nat.lt_irrefl] <;> split_ifs <;> norm_num

/-- **C82.** The scale factors of a frame without attack, in the real numbers, for any function `log2`: the levels of 16 groups of 4 cells, less their mean,
times the strength of the shaping. The levels are those of the energy of the bands, spread on 64 cells, smoothed, emphasised toward the high frequencies,
and limited 40 dB under their mean. -/
theorem C82_formula (M : SnsMath ℝ) (dt : Dt) (sr : Srate) (hc : Config dt sr) (nbytes : Nat) (eb : List ℝ) (hb : numBands dt sr ≤ eb.length) :
    let E := fun j => eb.getD (cellBand (numBands dt sr) j) 0
    ∃ scf, computeScf Arith.real M dt sr nbytes eb false = some scf ∧ scf.length = 16 ∧ ∀ i, i < 16 →
      scf.getD i 0 = shapingStrength dt sr nbytes * (groupLevel M sr E i - (∑ l ∈ range 16, groupLevel M sr E l) / 16) := by
  intro E
  obtain ⟨e, h1, h2⟩ := padBands_some dt sr hc eb hb
  have hE : ∀ j < 64, e.getD j 0 = E j := fun j hj => padBands_cell dt sr hc eb e hb h1 j hj
  unfold computeScf
  rw [h1, Option.bind_some]
  match e, h2, hE with
  | e0 :: next, h2, hE =>
    dsimp only
    have hn : next.length = 63 := by simpa using h2
    obtain ⟨s, a1, a2⟩ := smoothLoop_some Arith.real next ((geTable sr).map Arith.real.ofRat) e0 e0 (Arith.real.ofInt 0) (by simp [geTable_length, hn])
    obtain ⟨b1, b2, b3⟩ := smoothLoop_real _ _ _ _ _ _ a1
    rw [a1, Option.bind_some]
    have hS : ∀ j < 64, s.1.getD j 0 = smoothed sr E j := by
      intro j hj
      rw [b1 j (by omega), hn, hE j hj, hE _ (by omega)]
      have e1 : (e0 :: e0 :: next).getD j 0 = E (j - 1) := by
        cases j with
        | zero => rw [List.getD_cons_zero, ← hE 0 (by omega), List.getD_cons_zero]
        | succ j => rw [List.getD_cons_succ, hE j (by omega), Nat.add_sub_cancel]
      have e2 : ((geTable sr).map Arith.real.ofRat).getD j 0 = (((geTable sr).getD j 0 : Rat) : ℝ) := by
        rw [List.getD_eq_getElem _ _ (by simpa [geTable_length] using hj), List.getElem_map, List.getD_eq_getElem _ _ (by simpa [geTable_length] using hj)]
        rfl
      rw [e1, e2]
      rfl
    have hsum : s.2 = ∑ j ∈ range 64, smoothed sr E j := by
      rw [b2, sum_getD s.1 64 (by omega), Finset.sum_congr rfl fun j hj => hS j (Finset.mem_range.mp hj)]
      simp only [Arith.real, Arith.ofInt]
      push_cast
      ring
    have hl : (logBands Arith.real M s.1 s.2).length = 64 := by simp [logBands, a2, hn]
    have hL : ∀ j < 64, (logBands Arith.real M s.1 s.2).getD j 0 = level M sr E j := by
      intro j hj
      rw [List.getD_eq_getElem _ _ (by omega)]
      unfold logBands
      dsimp only
      rw [List.getElem_map]
      have e1 : s.1[j]'(by omega) = smoothed sr E j := by rw [← hS j hj, List.getD_eq_getElem _ _ (by omega)]
      have e2 : Arith.real.max (Arith.real.mul s.2 (Arith.real.div (Arith.real.ofRat (1 / 10000)) (Arith.real.ofInt 64))) (Arith.real.ofRat (1 / 2 ^ 32)) =
          energyFloor sr E := by
        unfold energyFloor
        rw [hsum]
        simp only [Arith.real, Arith.ofInt]
        congr 1
        · push_cast; ring
        · push_cast; ring
      rw [e1, e2]
      unfold level
      simp only [Arith.real]
      push_cast
      ring
    rw [mapM_range_some _ 16 _ fun i hi => groupAt_some Arith.real 0 _ i hl hi, Option.bind_some, if_neg (by simp)]
    refine ⟨_, rfl, by rw [scaleScf_length]; simp, ?_⟩
    have hG : ∀ i < 16, Arith.real.add (Arith.real.add
        (groupTerm Arith.real ((logBands Arith.real M s.1 s.2).getD (4 * i - 1) 0) ((logBands Arith.real M s.1 s.2).getD (min (4 * i + 4) 63) 0) 1)
        (groupTerm Arith.real ((logBands Arith.real M s.1 s.2).getD (4 * i) 0) ((logBands Arith.real M s.1 s.2).getD (4 * i + 3) 0) 2))
        (groupTerm Arith.real ((logBands Arith.real M s.1 s.2).getD (4 * i + 1) 0) ((logBands Arith.real M s.1 s.2).getD (4 * i + 2) 0) 3) =
        groupLevel M sr E i := by
      intro i hi
      rw [hL _ (by omega), hL _ (by omega), hL _ (by omega), hL _ (by omega), hL _ (by omega), hL _ (by omega)]
      unfold groupLevel
      simp only [Finset.sum_range_succ, Finset.sum_range_zero, groupWeight, List.getD_cons_succ, List.getD_cons_zero, groupTerm, Arith.real, Arith.ofInt]
      have m0 : min (4 * i + 0 - 1) 63 = 4 * i - 1 := by omega
      have m1 : min (4 * i + 1 - 1) 63 = 4 * i := by omega
      have m2 : min (4 * i + 2 - 1) 63 = 4 * i + 1 := by omega
      have m3 : min (4 * i + 3 - 1) 63 = 4 * i + 2 := by omega
      have m4 : min (4 * i + 4 - 1) 63 = 4 * i + 3 := by omega
      have m5 : min (4 * i + 5 - 1) 63 = min (4 * i + 4) 63 := by omega
      rw [m0, m1, m2, m3, m4, m5]
      push_cast
      ring
    rw [List.map_congr_left fun i hi => hG i (List.mem_range.mp hi)]
    intro i hi
    rw [scfFactor_real, sumScf_real]
    unfold scaleScf
    rw [List.getD_eq_getElem _ _ (by simpa using hi), List.getElem_map, List.getElem_map, List.getElem_range, sum_getD _ 16 (by simp)]
    have e3 : ∑ j ∈ range 16, ((List.range 16).map (groupLevel M sr E)).getD j 0 = ∑ l ∈ range 16, groupLevel M sr E l := by
      refine Finset.sum_congr rfl fun j hj => ?_
      have hj' := Finset.mem_range.mp hj
      rw [List.getD_eq_getElem _ _ (by simpa using hj'), List.getElem_map, List.getElem_range]
    rw [e3]
    simp only [Arith.real, Arith.ofInt]
    push_cast
    ring

/-- A case of `C82_formula`: the frames of 2.5 ms at 8 kHz have 20 bands, of which 12 are counted 4 times and 8 are counted 2 times; those of 10 ms at 48 kHz
have a band by cell. -/
example : Config .m2_5 .k8 ∧ numBands .m2_5 .k8 = 20 ∧ (List.range 64).map (cellBand 20) =
      (List.range 12).flatMap (List.replicate 4) ++ ((List.range 8).map (12 + ·)).flatMap (List.replicate 2) ∧
    numBands .m10 .k48 = 64 ∧ (List.range 64).map (cellBand 64) = List.range 64 := by decide

end LC3
