import Verif.Model.Bands
import Mathlib.Algebra.BigOperators.Group.Finset.Basic
import Mathlib.Algebra.BigOperators.Intervals
import Mathlib.Algebra.Order.Ring.Rat
import Mathlib.Tactic.Ring
import Mathlib.Data.List.GetD

/-! Energy of the bands and bandwidth detection: loops. -/

namespace LC3

open Finset

variable {R : Type}

/-! ### Limits of the bands -/

/-- Limits of bands: increasing from `i`. -/
def Limits : Nat → List Nat → Prop
  | _, [] => True
  | i, ie :: l => i < ie ∧ Limits ie l

instance limitsDec : ∀ (i : Nat) (l : List Nat), Decidable (Limits i l)
  | _, [] => isTrue trivial
  | i, ie :: l =>
    have := limitsDec ie l
    inferInstanceAs (Decidable (i < ie ∧ Limits ie l))

/-- The configurations of the codec: the high-resolution mode has no frame of 7.5 ms. -/
def Config (dt : Dt) (sr : Srate) : Prop := ¬ (dt = .m7_5 ∧ sr.hr = true)

instance (dt : Dt) (sr : Srate) : Decidable (Config dt sr) := inferInstanceAs (Decidable (¬ _))

theorem bandLim_cases (dt : Dt) (sr : Srate) (h : Config dt sr) :
    (bandLim dt sr).head? = some 0 ∧ Limits 0 (bandLim dt sr).tail ∧ (bandLim dt sr).getLast? = some (ne dt sr) ∧
    2 ≤ (bandLim dt sr).length ∧ (bandLim dt sr).length ≤ 65 := by
  revert h
  cases dt <;> cases sr <;> decide

theorem Limits.le : ∀ (lim : List Nat) (i last : Nat), Limits i lim → (i :: lim).getLast? = some last → i ≤ last
  | [], i, last, _, h => by simp at h; omega
  | ie :: l, i, last, hl, h => by
    have := Limits.le l ie last hl.2 (by rw [List.getLast?_cons_cons] at h; exact h)
    have := hl.1
    omega

/-! ### Energy -/

theorem sumSquares_some (A : Arith R) (x : List R) : ∀ (k i : Nat) (s : R), i + k ≤ x.length →
    ∃ r, sumSquares A x k i s = some r
  | 0, _, s, _ => ⟨s, rfl⟩
  | k + 1, i, s, h => by
    rw [sumSquares, List.getElem?_eq_getElem (show i < x.length by omega), Option.bind_some]
    exact sumSquares_some A x k (i + 1) _ (by omega)

theorem sumSquares_exact (x : List Rat) : ∀ (k i : Nat) (s : Rat), i + k ≤ x.length →
    sumSquares Arith.exact x k i s = some (s + ∑ j ∈ Ico i (i + k), x.getD j 0 ^ 2)
  | 0, i, s, _ => by simp [sumSquares]
  | k + 1, i, s, h => by
    rw [sumSquares, List.getElem?_eq_getElem (show i < x.length by omega), Option.bind_some,
      sumSquares_exact x k (i + 1) _ (by omega), sum_eq_sum_Ico_succ_bot (show i < i + (k + 1) by omega),
      List.getD_eq_getElem x 0 (show i < x.length by omega), show i + 1 + k = i + (k + 1) by omega]
    congr 1
    simp only [Arith.exact]
    ring

theorem energyLoop_some (A : Arith R) (x : List R) (h : Int) : ∀ (lim : List Nat) (iband i last : Nat) (s : R × R),
    Limits i lim → (i :: lim).getLast? = some last → last ≤ x.length →
    ∃ r, energyLoop A x h lim iband i s = some r ∧ r.1.length = lim.length
  | [], _, _, _, s, _, _, _ => ⟨([], s), rfl, rfl⟩
  | ie :: lim, iband, i, last, s, hl, hla, hx => by
    rw [List.getLast?_cons_cons] at hla
    have h1 := Limits.le lim ie last hl.2 hla
    have h2 := hl.1
    rw [energyLoop, List.getElem?_eq_getElem (show i < x.length by omega), Option.bind_some]
    obtain ⟨q, hq⟩ := sumSquares_some A x (ie - (i + 1)) (i + 1) (A.mul x[i] x[i]) (by omega)
    rw [hq, Option.bind_some, show max ie (i + 1) = ie by omega]
    dsimp only
    obtain ⟨r, hr, hr2⟩ := energyLoop_some A x h lim (iband + 1) ie last
      (if (iband : Int) ≥ h then (s.1, A.add s.2 (A.div q (A.ofInt ((ie : Int) - i)))) else (A.add s.1 (A.div q (A.ofInt ((ie : Int) - i))), s.2))
      hl.2 hla hx
    rw [hr, Option.bind_some]
    exact ⟨_, rfl, by simp [hr2]⟩

/-- Mean of the squares between two limits. -/
def bandMean (x : List Rat) (i ie : Nat) : Rat := (∑ j ∈ Ico i ie, x.getD j 0 ^ 2) / ((ie : Rat) - i)

/-- The energies of the bands. -/
def bandMeans (x : List Rat) : Nat → List Nat → List Rat
  | _, [] => []
  | i, ie :: l => bandMean x i ie :: bandMeans x ie l

theorem bandMeans_length (x : List Rat) : ∀ (l : List Nat) (i : Nat), (bandMeans x i l).length = l.length
  | [], _ => rfl
  | ie :: l, i => by simp [bandMeans, bandMeans_length x l ie]

theorem bandMeans_getD (x : List Rat) : ∀ (l : List Nat) (i k : Nat), k < l.length →
    (bandMeans x i l).getD k 0 = bandMean x ((i :: l).getD k 0) ((i :: l).getD (k + 1) 0)
  | [], _, _, h => by simp at h
  | ie :: l, i, 0, _ => by simp [bandMeans]
  | ie :: l, i, k + 1, h => by
    have := bandMeans_getD x l ie k (by simpa using h)
    simpa [bandMeans] using this

theorem energyLoop_exact (x : List Rat) (h : Int) : ∀ (lim : List Nat) (iband i last : Nat) (s : Rat × Rat),
    Limits i lim → (i :: lim).getLast? = some last → last ≤ x.length →
    energyLoop Arith.exact x h lim iband i s = some (bandMeans x i lim,
      (s.1 + ∑ k ∈ range lim.length, if ((iband + k : Nat) : Int) < h then (bandMeans x i lim).getD k 0 else 0,
       s.2 + ∑ k ∈ range lim.length, if h ≤ ((iband + k : Nat) : Int) then (bandMeans x i lim).getD k 0 else 0))
  | [], _, _, _, s, _, _, _ => by simp [energyLoop, bandMeans]
  | ie :: lim, iband, i, last, s, hl, hla, hx => by
    rw [List.getLast?_cons_cons] at hla
    have h1 := Limits.le lim ie last hl.2 hla
    have h2 := hl.1
    rw [energyLoop, List.getElem?_eq_getElem (show i < x.length by omega), Option.bind_some,
      sumSquares_exact x _ _ _ (by omega), Option.bind_some, show max ie (i + 1) = ie by omega]
    have he : Arith.exact.div (Arith.exact.mul x[i] x[i] + ∑ j ∈ Ico (i + 1) (i + 1 + (ie - (i + 1))), x.getD j 0 ^ 2)
        (Arith.exact.ofInt ((ie : Int) - i)) = bandMean x i ie := by
      unfold bandMean
      rw [sum_eq_sum_Ico_succ_bot h2, List.getD_eq_getElem x 0 (show i < x.length by omega), show i + 1 + (ie - (i + 1)) = ie by omega]
      simp only [Arith.exact, Arith.ofInt, id, pow_two]
      push_cast
      rfl
    dsimp only
    rw [he, energyLoop_exact x h lim (iband + 1) ie last _ hl.2 hla hx, Option.bind_some]
    congr 1
    rw [List.length_cons, sum_range_succ', sum_range_succ']
    simp only [bandMeans, List.getD_cons_zero, List.getD_cons_succ, Nat.add_zero]
    have e1 : ∀ k, iband + 1 + k = iband + (k + 1) := by intro k; omega
    simp only [e1]
    by_cases c : (iband : Int) ≥ h
    · rw [if_pos c, if_neg (by omega), if_pos (by omega)]
      simp only [Arith.exact, Prod.mk.injEq, true_and]
      constructor <;> ring
    · rw [if_neg c, if_pos (by omega), if_neg (by omega)]
      simp only [Arith.exact, Prod.mk.injEq, true_and]
      constructor <;> ring

/-! ### Bandwidth -/

theorem sumFrom_some (A : Arith R) (e : List R) : ∀ (k i : Nat) (s : R), i + k ≤ e.length → ∃ r, sumFrom A e k i s = some r
  | 0, _, s, _ => ⟨s, rfl⟩
  | k + 1, i, s, h => by
    rw [sumFrom, List.getElem?_eq_getElem (show i < e.length by omega), Option.bind_some]
    exact sumFrom_some A e k (i + 1) _ (by omega)

theorem sumFrom_exact (e : List Rat) : ∀ (k i : Nat) (s : Rat), i + k ≤ e.length →
    sumFrom Arith.exact e k i s = some (s + ∑ j ∈ Ico i (i + k), e.getD j 0)
  | 0, i, s, _ => by simp [sumFrom]
  | k + 1, i, s, h => by
    rw [sumFrom, List.getElem?_eq_getElem (show i < e.length by omega), Option.bind_some,
      sumFrom_exact e k (i + 1) _ (by omega), sum_eq_sum_Ico_succ_bot (show i < i + (k + 1) by omega),
      List.getD_eq_getElem e 0 (show i < e.length by omega), show i + 1 + k = i + (k + 1) by omega]
    congr 1
    simp only [Arith.exact]
    ring

/-- Regions of a list of `n` bands. -/
def RegionsIn (n : Nat) (l : List (Nat × Nat)) : Prop := ∀ r ∈ l, r.1 < r.2 ∧ r.2 ≤ n

instance (n : Nat) (l : List (Nat × Nat)) : Decidable (RegionsIn n l) := by unfold RegionsIn; infer_instance

theorem bwStage1_some (A : Arith R) (e : List R) : ∀ (l : List (Nat × Nat)) (bw bw0 : Nat), RegionsIn e.length l → bw0 ≤ bw →
    ∃ r, bwStage1 A e l bw bw0 = some r ∧ r ≤ bw + l.length
  | [], bw, bw0, _, h => ⟨bw0, rfl, by simpa using h⟩
  | (i, ie) :: l, bw, bw0, hr, h => by
    have h1 := hr (i, ie) (by simp)
    dsimp only at h1
    rw [bwStage1, List.getElem?_eq_getElem (show i < e.length by omega), Option.bind_some]
    obtain ⟨q, hq⟩ := sumFrom_some A e (ie - (i + 1)) (i + 1) e[i] (by omega)
    rw [hq, Option.bind_some]
    obtain ⟨r, h2, h3⟩ := bwStage1_some A e l (bw + 1)
      (if A.le (A.ofInt (((10 <<< (if bw = 0 then 1 else 0) : Nat) : Int) * ((ie : Int) - i))) q then bw + 1 else bw0)
      (fun r hm => hr r (by simp [hm])) (by split_ifs <;> omega)
    exact ⟨r, h2, by simp only [List.length_cons]; omega⟩

/-- A region with energy: the mean of its bands is at least 20 for the first one, 10 for the others. -/
def Loud (e : List Rat) (r : Nat × Nat) (bw : Nat) : Prop :=
  (if bw = 0 then 20 else 10 : Rat) * ((r.2 : Rat) - r.1) ≤ ∑ j ∈ Ico r.1 r.2, e.getD j 0

instance (e : List Rat) (r : Nat × Nat) (bw : Nat) : Decidable (Loud e r bw) := by unfold Loud; infer_instance

theorem bwStage1_exact (e : List Rat) : ∀ (l : List (Nat × Nat)) (bw bw0 : Nat), RegionsIn e.length l → bw0 ≤ bw →
    ∃ c, bwStage1 Arith.exact e l bw bw0 = some c ∧ c ≤ bw + l.length ∧
      (∀ k, k < l.length → c ≤ bw + k → ¬ Loud e (l.getD k (0, 0)) (bw + k)) ∧
      (c = bw0 ∨ ∃ k, k < l.length ∧ c = bw + k + 1 ∧ Loud e (l.getD k (0, 0)) (bw + k))
  | [], bw, bw0, _, h => ⟨bw0, rfl, by simpa using h, by simp, Or.inl rfl⟩
  | (i, ie) :: l, bw, bw0, hr, h => by
    have h1 := hr (i, ie) (by simp)
    dsimp only at h1
    rw [bwStage1, List.getElem?_eq_getElem (show i < e.length by omega), Option.bind_some,
      sumFrom_exact e _ _ _ (by omega), Option.bind_some]
    have hL : Arith.exact.le (Arith.exact.ofInt (((10 <<< (if bw = 0 then 1 else 0) : Nat) : Int) * ((ie : Int) - i)))
        (e[i] + ∑ j ∈ Ico (i + 1) (i + 1 + (ie - (i + 1))), e.getD j 0) = decide (Loud e (i, ie) bw) := by
      rw [Bool.eq_iff_iff, decide_eq_true_iff]
      unfold Loud
      dsimp only
      rw [sum_eq_sum_Ico_succ_bot (show i < ie by omega), List.getD_eq_getElem e 0 (show i < e.length by omega),
        show i + 1 + (ie - (i + 1)) = ie by omega]
      by_cases c : bw = 0
      · simp only [Arith.exact, Arith.ofInt, id, c, if_true, show (10 <<< 1 : Nat) = 20 from rfl]; norm_num
      · simp only [Arith.exact, Arith.ofInt, id, c, if_false]; norm_num
    rw [hL]
    obtain ⟨c, a1, a2, a3, a4⟩ := bwStage1_exact e l (bw + 1) (if decide (Loud e (i, ie) bw) = true then bw + 1 else bw0)
      (fun r hm => hr r (by simp [hm])) (by split <;> omega)
    refine ⟨c, a1, by simp only [List.length_cons]; omega, ?_, ?_⟩
    · intro k hk hc
      cases k with
      | zero =>
        rcases a4 with a4 | ⟨k', b1, b2, b3⟩
        · rw [List.getD_cons_zero]
          intro hl
          rw [Nat.add_zero] at hl hc
          rw [if_pos (by simpa using hl)] at a4
          omega
        · omega
      | succ k =>
        rw [List.getD_cons_succ, show bw + (k + 1) = bw + 1 + k by omega]
        exact a3 k (by simpa using hk) (by omega)
    · rcases a4 with a4 | ⟨k', b1, b2, b3⟩
      · by_cases hl : Loud e (i, ie) bw
        · rw [if_pos (by simpa using hl)] at a4
          exact Or.inr ⟨0, by simp, by omega, by simpa using hl⟩
        · rw [if_neg (by simpa using hl)] at a4
          exact Or.inl a4
      · refine Or.inr ⟨k' + 1, by simpa using b1, by omega, ?_⟩
        rw [List.getD_cons_succ, show bw + (k' + 1) = bw + 1 + k' by omega]
        exact b3

theorem bwStage2_some (A : Arith R) (e : List R) (tc : R) (l : Nat) : ∀ (k : Nat) (i : Int), l ≤ i → i + k ≤ e.length →
    ∃ r, bwStage2 A e tc l k i = some r
  | 0, _, _, _ => ⟨false, rfl⟩
  | k + 1, i, h0, h1 => by
    rw [bwStage2, if_neg (by omega), List.getElem?_eq_getElem (show (i - l).toNat < e.length by omega), Option.bind_some,
      List.getElem?_eq_getElem (show i.toNat < e.length by omega), Option.bind_some]
    split
    · exact ⟨true, rfl⟩
    · exact bwStage2_some A e tc l k (i + 1) (by omega) (by omega)

theorem bwStage2_exact (e : List Rat) (tc : Rat) (l : Nat) : ∀ (k i : Nat), l ≤ i → i + k ≤ e.length →
    ∃ r, bwStage2 Arith.exact e tc l k i = some r ∧ (r = true ↔ ∃ j, i ≤ j ∧ j < i + k ∧ tc * e.getD j 0 < e.getD (j - l) 0)
  | 0, i, _, _ => ⟨false, rfl, by simp; intro x h1 h2; omega⟩
  | k + 1, i, h0, h1 => by
    rw [bwStage2, if_neg (by omega), List.getElem?_eq_getElem (show ((i : Int) - l).toNat < e.length by omega), Option.bind_some,
      List.getElem?_eq_getElem (show (i : Int).toNat < e.length by omega), Option.bind_some]
    have e1 : e[((i : Int) - l).toNat]'(by omega) = e.getD (i - l) 0 := by
      rw [List.getD_eq_getElem e 0 (show i - l < e.length by omega)]; congr 1; omega
    have e2 : e[(i : Int).toNat]'(by omega) = e.getD i 0 := by
      rw [List.getD_eq_getElem e 0 (show i < e.length by omega)]; rfl
    rw [e1, e2]
    by_cases c : tc * e.getD i 0 < e.getD (i - l) 0
    · rw [if_pos (by simpa [Arith.exact] using c)]
      exact ⟨true, rfl, by simp only [true_iff]; exact ⟨i, by omega, by omega, c⟩⟩
    · rw [if_neg (by simpa [Arith.exact] using c)]
      obtain ⟨r, a1, a2⟩ := bwStage2_exact e tc l k (i + 1) (by omega) (by omega)
      refine ⟨r, by exact_mod_cast a1, a2.trans ⟨?_, ?_⟩⟩
      · rintro ⟨j, b1, b2, b3⟩; exact ⟨j, by omega, by omega, b3⟩
      · rintro ⟨j, b1, b2, b3⟩
        have : j ≠ i := by rintro rfl; exact c b3
        exact ⟨j, by omega, by omega, b3⟩

end LC3
