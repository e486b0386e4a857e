import Verif.Model.Gain
import Verif.Lemmas.FrameSpec
import Verif.Lemmas.RateList
import Verif.Props.Plc

/-!
Lemmas on the gain estimation, see `Model/Gain.lean`.
-/

namespace LC3

variable {R : Type}

theorem gainSearch_range (nbits : Int) (is : List Nat) (g : Int) (l : List Int) (r : Int)
    (h : gainSearch nbits is g l = some r) : g - (is.sum : Nat) ≤ r ∧ r ≤ g := by
  induction is generalizing g l with
  | nil =>
    unfold gainSearch at h
    injection h with h
    rw [List.sum_nil]
    omega
  | cons i is ih =>
    unfold gainSearch at h
    obtain ⟨gn, -, h⟩ := Option.bind_eq_some_iff.mp h
    obtain ⟨v, -, h⟩ := Option.bind_eq_some_iff.mp h
    obtain ⟨lim, -, h⟩ := Option.bind_eq_some_iff.mp h
    rw [List.sum_cons]
    split at h
    · have := ih _ _ h; omega
    · have := ih _ _ h; omega

theorem gainMin_range (A : Arith R) (lim xMax : R) (is : List Nat) (g : Int) (r : Int)
    (h : gainMin A lim xMax is g = some r) : g - (is.sum : Nat) ≤ r ∧ r ≤ g := by
  induction is generalizing g with
  | nil =>
    unfold gainMin at h
    injection h with h
    rw [List.sum_nil]
    omega
  | cons i is ih =>
    unfold gainMin at h
    obtain ⟨u, -, h⟩ := Option.bind_eq_some_iff.mp h
    rw [List.sum_cons]
    have := ih _ h
    split at this <;> omega

theorem gainMin_some (A : Arith R) (lim xMax : R) (is : List Nat) (g : Int) : ∃ r, gainMin A lim xMax is g = some r := by
  induction is generalizing g with
  | nil => exact ⟨g, rfl⟩
  | cons i is ih =>
    obtain ⟨u, hu⟩ := unquantizeGain_some A (g - i)
    obtain ⟨r, hr⟩ := ih (if A.lt xMax (A.mul lim u) then g - i else g)
    exact ⟨r, by unfold gainMin; rw [hu]; exact hr⟩

theorem gainSteps_sum : gainSteps.sum = 255 := rfl

theorem estimateGain_range (A : Arith R) (G : GainMath R) (dt : Dt) (sr : Srate) (x : List R) (nbytes : Nat) (budget : Int)
    (off : R) (gOff : Nat) (est : GainEst) (h : estimateGain A G dt sr x nbytes budget off gOff = some est) :
    -(gOff : Int) ≤ est.gMin ∧ est.gMin ≤ est.gInt ∧ est.gInt ≤ 255 - gOff := by
  unfold estimateGain at h
  dsimp only at h
  obtain ⟨nf, -, h⟩ := Option.bind_eq_some_iff.mp h
  obtain ⟨nb, -, h⟩ := Option.bind_eq_some_iff.mp h
  obtain ⟨g, hg, h⟩ := Option.bind_eq_some_iff.mp h
  obtain ⟨m, hm, h⟩ := Option.map_eq_some_iff.mp h
  have h1 := gainSearch_range _ _ _ _ _ hg
  have h2 := gainMin_range _ _ _ _ _ _ hm
  rw [gainSteps_sum] at h1 h2
  subst h
  dsimp only
  split
  · omega
  · rename_i hr
    rw [Bool.or_eq_true, decide_eq_true_eq] at hr
    omega

/-! ### Adjustment -/

theorem adjDelta_range (sr : Srate) (n : Int) (hn : 0 ≤ n) : 3 ≤ adjDelta sr n ∧ adjDelta sr n ≤ 107 := by
  unfold adjDelta
  cases sr <;> dsimp only [adjTable] <;>
    (split
     · rw [Int.tdiv_eq_ediv_of_nonneg (by omega)]; omega
     · split
       · rw [Int.tdiv_eq_ediv_of_nonneg (by omega)]; omega
       · rw [Int.tdiv_eq_ediv_of_nonneg (by omega)]; omega)

theorem adjustGain_range (dt : Dt) (sr : Srate) (gIdx nbits budget gMin : Int) (h0 : gMin ≤ gIdx) (h1 : gIdx ≤ 255)
    (hn : 0 ≤ nbits) :
    gMin ≤ gIdx + adjustGain dt sr gIdx nbits budget gMin ∧ gIdx + adjustGain dt sr gIdx nbits budget gMin ≤ 255 ∧
    -1 ≤ adjustGain dt sr gIdx nbits budget gMin ∧ (sr.hr = true → 0 ≤ adjustGain dt sr gIdx nbits budget gMin) ∧
    (sr.hr = false → adjustGain dt sr gIdx nbits budget gMin ≤ 2) ∧
    (nbits ≤ budget → adjustGain dt sr gIdx nbits budget gMin ≤ 0) ∧
    (budget < nbits → gIdx < 255 → 0 < adjustGain dt sr gIdx nbits budget gMin) := by
  have hd := adjDelta_range sr nbits hn
  unfold adjustGain
  generalize adjDelta sr nbits = delta at *
  dsimp only
  have hb : ∀ b : Bool, b2n b ≤ 1 := by decide
  have b1 : ((b2n true : Nat) : Int) = 1 := rfl
  have b0 : ((b2n false : Nat) : Int) = 0 := rfl
  by_cases c1 : sr.hr = true ∧ nbits > budget
  · rw [if_pos c1]
    have hf : 1 ≤ (1 + b2n (decide (dt.idx ≤ 1)) + b2n (decide (dt.idx ≤ 0)) * (1 + b2n (decide (nbits ≥ 520))) : Int) := by
      have := hb (decide (dt.idx ≤ 1))
      have h3 : (0 : Int) ≤ b2n (decide (dt.idx ≤ 0)) * (1 + b2n (decide (nbits ≥ 520))) := by positivity
      omega
    generalize (1 + b2n (decide (dt.idx ≤ 1)) + b2n (decide (dt.idx ≤ 0)) * (1 + b2n (decide (nbits ≥ 520))) : Int) = F at *
    have hq : 0 ≤ (F * (nbits - budget)).tdiv delta := by
      apply Int.tdiv_nonneg
      · apply mul_nonneg <;> omega
      · omega
    generalize (F * (nbits - budget)).tdiv delta = q at *
    have hs := c1.1
    refine ⟨by omega, by omega, by omega, fun _ => by omega, fun h => ?_, fun _ => by omega, fun _ _ => by omega⟩
    rw [h] at hs; cases hs
  · rw [if_neg c1]
    have cz : sr.hr = true → nbits ≤ budget := fun h => by
      by_contra hh
      exact c1 ⟨h, by omega⟩
    by_cases c2 : sr.hr = false ∧ nbits < budget - (delta + 2)
    · rw [if_pos c2]
      have hs := c2.1
      by_cases c : gIdx > gMin
      · rw [decide_eq_true c]
        refine ⟨?_, ?_, ?_, fun h => ?_, fun _ => ?_, fun _ => ?_, fun _ _ => ?_⟩ <;>
          first | (rw [h] at hs; cases hs) | (rw [b1]; done) | (rw [b1]; omega)
      · rw [decide_eq_false c]
        refine ⟨?_, ?_, ?_, fun h => ?_, fun _ => ?_, fun _ => ?_, fun _ _ => ?_⟩ <;>
          first | (rw [h] at hs; cases hs) | (simp only [b0, b1]; omega)
    · rw [if_neg c2]
      by_cases c3 : sr.hr = false ∧ nbits > budget
      · rw [if_pos c3]
        have hs := c3.1
        by_cases c4 : gIdx < 255
        · rw [decide_eq_true c4]
          by_cases c5 : gIdx < 254 ∧ nbits ≥ budget + delta
          · rw [decide_eq_true c5]
            refine ⟨?_, ?_, ?_, fun h => ?_, fun _ => ?_, fun _ => ?_, fun _ _ => ?_⟩ <;>
              first | (rw [h] at hs; cases hs) | (simp only [b0, b1]; omega)
          · rw [decide_eq_false c5]
            refine ⟨?_, ?_, ?_, fun h => ?_, fun _ => ?_, fun _ => ?_, fun _ _ => ?_⟩ <;>
              first | (rw [h] at hs; cases hs) | (simp only [b0, b1]; omega)
        · rw [decide_eq_false c4, decide_eq_false (fun h => c4 (by omega))]
          refine ⟨?_, ?_, ?_, fun h => ?_, fun _ => ?_, fun _ => ?_, fun _ _ => ?_⟩ <;>
            first | (rw [h] at hs; cases hs) | (rw [b0]; omega)
      · rw [if_neg c3]
        refine ⟨by omega, by omega, by omega, fun _ => by omega, fun _ => by omega, fun _ => by omega, fun hb _ => ?_⟩
        cases hh : sr.hr with
        | true => have := cz hh; omega
        | false => exact absurd ⟨hh, by omega⟩ c3

/-! ### Quantisation -/

/-- The coefficients beyond the count are not significant, and the last pair is. -/
theorem quantCount_spec (A : Arith R) (sr : Srate) (ne : Nat) (l : List R) (n : Int) :
    (quantCount A sr ne l n = n - 2 * (l.length / 2 : Nat) ∧
      ∀ v ∈ l, l.length % 2 = 0 → A.le (A.ofRat (xqMin sr)) (A.abs v) = false) ∨
    ∃ k : Nat, k % 2 = 0 ∧ 2 ≤ k ∧ k ≤ l.length ∧
      quantCount A sr ne l n = (ne : Int) - 2 * ((l.length - k) / 2 : Nat) ∧
      (∀ v ∈ l.drop k, l.length % 2 = 0 → A.le (A.ofRat (xqMin sr)) (A.abs v) = false) := by
  fun_induction quantCount A sr ne l n with
  | case1 a b l n ih =>
    rcases ih with ⟨h1, h2⟩ | ⟨k, k0, k1, k2, k3, k4⟩
    · by_cases c : (A.le (A.ofRat (xqMin sr)) (A.abs a) || A.le (A.ofRat (xqMin sr)) (A.abs b)) = true
      · rw [if_pos c] at h1 ⊢
        right
        refine ⟨2, by omega, by omega, by simp, ?_, ?_⟩
        · rw [h1]; simp
        · intro v hv hm
          exact h2 v hv (by simp only [List.length_cons] at hm; omega)
      · rw [if_neg c] at h1 ⊢
        left
        refine ⟨?_, ?_⟩
        · rw [h1]
          simp only [List.length_cons]
          omega
        · intro v hv hm
          rw [Bool.not_eq_true, Bool.or_eq_false_iff] at c
          simp only [List.mem_cons] at hv
          rcases hv with rfl | rfl | hv
          · exact c.1
          · exact c.2
          · exact h2 v hv (by simp only [List.length_cons] at hm; omega)
    · right
      refine ⟨k + 2, by omega, by omega, by simp; omega, ?_, ?_⟩
      · rw [k3]
        simp only [List.length_cons]
        congr 2
        omega
      · intro v hv hm
        exact k4 v (by simpa using hv) (by simp only [List.length_cons] at hm; omega)
  | case2 l n h =>
    left
    have : l.length ≤ 1 := by
      match l, h with
      | [], _ => simp
      | [_], _ => simp
      | a :: b :: l, h => exact absurd rfl (h a b l)
    refine ⟨by omega, ?_⟩
    intro v hv hm
    have : l.length = 0 := by omega
    rw [List.length_eq_zero_iff] at this
    subst this
    cases hv

/-- The count is even, within the spectrum. -/
theorem quantCount_range (A : Arith R) (sr : Srate) (ne : Nat) (he : ne % 2 = 0) (l : List R) (hl : l.length = ne) :
    ∃ k : Nat, quantCount A sr ne l ne = (k : Int) ∧ k % 2 = 0 ∧ k ≤ ne ∧
      ∀ v ∈ l.drop k, A.le (A.ofRat (xqMin sr)) (A.abs v) = false := by
  rcases quantCount_spec A sr ne l ne with ⟨h1, h2⟩ | ⟨k, k0, k1, k2, k3, k4⟩
  · refine ⟨0, by rw [h1]; omega, rfl, by omega, ?_⟩
    intro v hv
    exact h2 v (by simpa using hv) (by omega)
  · refine ⟨k, by rw [k3]; omega, k0, by omega, fun v hv => k4 v hv (by omega)⟩

theorem quantize_some (A : Arith R) (dt : Dt) (sr : Srate) (g : Int) (x : List R) (hx : x.length = ne dt sr) :
    ∃ (u : R) (k : Nat), unquantizeGain A (-g) = some u ∧
      quantize A dt sr g x = some (x.map fun v => A.mul v u, (k : Int)) ∧ k % 2 = 0 ∧ k ≤ ne dt sr ∧
      ∀ v ∈ (x.map fun v => A.mul v u).drop k, A.le (A.ofRat (xqMin sr)) (A.abs v) = false := by
  obtain ⟨u, hu⟩ := unquantizeGain_some A (-g)
  obtain ⟨k, h1, h2, h3, h4⟩ := quantCount_range A sr (ne dt sr) (nbitsNq_spec dt sr).2.2.2.1 (x.map fun v => A.mul v u)
    (by rw [List.length_map]; exact hx)
  refine ⟨u, k, hu, ?_, h2, h3, h4⟩
  unfold quantize
  rw [hu, Option.map_some]
  dsimp only
  rw [h1]

/-! ### Absence of overflow in the search -/

/-- The term added to `v`, without overflow. -/
def gainF (d : Int) : Int := if d < 0 then 176947 else if d < 2818048 then d + 458752 else 2 * d - 2359296

/-- The sum of the terms. -/
def gainSum (gn : Int) : List Int → Int
  | [] => 0
  | e :: l => gainF (e - gn) + gainSum gn l

theorem gainF_pos (d : Int) : 176947 ≤ gainF d := by unfold gainF; split <;> (try split) <;> omega

theorem gainF_mono (d d' : Int) (h : d ≤ d') : gainF d ≤ gainF d' := by
  unfold gainF; split <;> split <;> (try split) <;> (try split) <;> omega

theorem gainF_step (d D : Int) (h : 0 ≤ D) : gainF (d + D) ≤ gainF d + (2 * D + 458752) := by
  unfold gainF; split <;> split <;> (try split) <;> (try split) <;> omega

theorem gainF_le (d D : Int) (h : 0 ≤ D) (hd : d ≤ D) : gainF d ≤ 2 * D + 458752 := by
  unfold gainF; split <;> (try split) <;> omega

theorem gainSum_nonneg (gn : Int) (l : List Int) : 0 ≤ gainSum gn l := by
  induction l with
  | nil => exact Int.le_refl _
  | cons e l ih => unfold gainSum; have := gainF_pos (e - gn); omega

theorem gainSum_mono (gn gn' : Int) (h : gn' ≤ gn) (l : List Int) : gainSum gn l ≤ gainSum gn' l := by
  induction l with
  | nil => exact Int.le_refl _
  | cons e l ih => unfold gainSum; have := gainF_mono (e - gn) (e - gn') (by omega); omega

theorem gainSum_dropWhile (gn : Int) (p : Int → Bool) (l : List Int) : gainSum gn (l.dropWhile p) ≤ gainSum gn l := by
  induction l with
  | nil => exact Int.le_refl _
  | cons e l ih =>
    rw [List.dropWhile_cons]
    split
    · conv => rhs; unfold gainSum
      have := gainF_pos (e - gn); omega
    · exact Int.le_refl _

/-- Lowering the gain: the blocks that were dropped cost at most the difference. -/
theorem gainSum_lower (gn D : Int) (h : 0 ≤ D) (l : List Int) :
    gainSum (gn - D) l ≤ gainSum gn (l.dropWhile fun e => decide (e < gn)) + l.length * (2 * D + 458752) := by
  have aux : ∀ l : List Int, gainSum (gn - D) l ≤ gainSum gn l + l.length * (2 * D + 458752) := by
    intro l
    induction l with
    | nil => simp [gainSum]
    | cons e l ih =>
      unfold gainSum
      have h1 := gainF_step (e - gn) D h
      rw [show e - gn + D = e - (gn - D) by omega] at h1
      rw [List.length_cons]
      push_cast
      rw [add_mul]
      generalize (l.length : Int) * (2 * D + 458752) = q at *
      omega
  induction l with
  | nil => simp [gainSum]
  | cons e l ih =>
    rw [List.dropWhile_cons]
    split
    · rename_i hc
      rw [decide_eq_true_eq] at hc
      conv => lhs; unfold gainSum
      have h1 := gainF_le (e - (gn - D)) D h (by omega)
      rw [List.length_cons]
      push_cast
      rw [add_mul]
      generalize (l.length : Int) * (2 * D + 458752) = q at *
      omega
    · exact aux _

theorem gainTerm_eq (e gn : Int) (h : -1000000000 ≤ e - gn) (h' : e - gn ≤ 1000000000) :
    gainTerm e gn = some (gainF (e - gn)) := by
  unfold gainTerm gainF
  rw [i32_ok _ (by omega) (by omega), Option.bind_some]
  split
  · rfl
  · split
    · exact i32_ok _ (by omega) (by omega)
    · rw [i32_ok _ (by omega) (by omega), Option.bind_some, i32_ok _ (by omega) (by omega)]

/-- Overflow is the only obstacle: the sum is defined when it fits. -/
theorem gainCost_eq (gn : Int) (l : List Int) (hl : ∀ e ∈ l, -1000000000 ≤ e - gn ∧ e - gn ≤ 1000000000) (v : Int) (hv : 0 ≤ v)
    (hs : v + gainSum gn l ≤ 2147483647) : gainCost gn v l = some (v + gainSum gn l) := by
  induction l generalizing v with
  | nil => unfold gainCost gainSum; rw [Int.add_zero]
  | cons e l ih =>
    unfold gainSum at hs ⊢
    have h1 := gainF_pos (e - gn)
    have h2 := gainSum_nonneg gn l
    have h3 := hl e (by simp)
    unfold gainCost
    rw [gainTerm_eq e gn h3.1 h3.2, Option.bind_some, i32_ok _ (by omega) (by omega), Option.bind_some,
      ih (fun x hx => hl x (by simp [hx])) _ (by omega) (by omega)]
    congr 1
    omega

/-- and it is undefined when it does not fit. -/
theorem gainCost_none (gn : Int) (l : List Int) (hl : ∀ e ∈ l, -1000000000 ≤ e - gn ∧ e - gn ≤ 1000000000) (v : Int) (hv : 0 ≤ v)
    (hv' : v ≤ 2147483647) (hs : 2147483647 < v + gainSum gn l) : gainCost gn v l = none := by
  induction l generalizing v with
  | nil => unfold gainSum at hs; omega
  | cons e l ih =>
    unfold gainSum at hs
    have h1 := gainF_pos (e - gn)
    have h3 := hl e (by simp)
    unfold gainCost
    rw [gainTerm_eq e gn h3.1 h3.2, Option.bind_some]
    by_cases c : v + gainF (e - gn) ≤ 2147483647
    · rw [i32_ok _ (by omega) c, Option.bind_some]
      exact ih (fun x hx => hl x (by simp [hx])) _ (by omega) c (by omega)
    · rw [i32_none _ (by omega)]
      rfl

theorem mem_dropWhile {α : Type} (p : α → Bool) (l : List α) {x : α} (h : x ∈ l.dropWhile p) : x ∈ l :=
  (List.dropWhile_sublist p).subset h

theorem length_dropWhile_le {α : Type} (p : α → Bool) (l : List α) : (l.dropWhile p).length ≤ l.length :=
  (List.dropWhile_sublist p).length_le

/-- The search does not overflow when its first sum does not: the next ones are lower, or follow a sum within the limit. -/
theorem gainSearch_defined (nbits : Int) (hn : nbits ≤ 5200) (hn' : -5200 ≤ nbits) (is : List Nat) (hs : is.Pairwise (fun a b => b ≤ a ∧ b ≤ 64))
    (g : Int) (hg : -1000 ≤ g ∧ g ≤ 300) (his : is.sum ≤ 255) (hg' : -600 ≤ g - (is.sum : Nat)) (l : List Int) (hl : l.length ≤ 240)
    (he : ∀ e ∈ l, -100000000 ≤ e ∧ e ≤ 100000000) (h0 : ∀ i ∈ is.head?, gainSum ((g - i) * 46811) l ≤ 2147483647) :
    ∃ r, gainSearch nbits is g l = some r := by
  induction is generalizing g l with
  | nil => exact ⟨g, rfl⟩
  | cons i is ih =>
    rw [List.sum_cons] at his hg'
    have hsum := h0 i rfl
    unfold gainSearch
    rw [i32_ok _ (by omega) (by omega), Option.bind_some]
    dsimp only
    have hdrop := gainSum_dropWhile ((g - i) * 46811) (fun e => decide (e < (g - i) * 46811)) l
    have hcost := gainCost_eq ((g - i) * 46811) (l.dropWhile fun e => decide (e < (g - i) * 46811))
      (fun e h => by have := he e (mem_dropWhile _ _ h); omega) 0 (by omega) (by omega)
    rw [hcost, Option.bind_some, i32_ok _ (by omega) (by omega), Option.bind_some]
    split
    · refine ih hs.tail g hg (by omega) (by omega) _ (Nat.le_trans (length_dropWhile_le _ _) hl)
        (fun e h => he e (mem_dropWhile _ _ h)) ?_
      intro j hj
      have hj' := (List.pairwise_cons.mp hs).1 j (List.mem_of_mem_head? hj)
      have := gainSum_mono ((g - j) * 46811) ((g - i) * 46811) (by omega) (l.dropWhile fun e => decide (e < (g - i) * 46811))
      omega
    · rename_i hv
      refine ih hs.tail (g - i) (by omega) (by omega) (by omega) l hl he ?_
      intro j hj
      have hj' := (List.pairwise_cons.mp hs).1 j (List.mem_of_mem_head? hj)
      have := gainSum_lower ((g - i) * 46811) ((j : Int) * 46811) (by omega) l
      rw [show (g - i) * 46811 - (j : Int) * 46811 = (g - i - j) * 46811 by rw [← Int.sub_mul]] at this
      have h2 : (l.length : Int) * (2 * ((j : Int) * 46811) + 458752) ≤ 240 * 6450560 :=
        mul_le_mul (by omega) (by omega) (by omega) (by omega)
      omega

end LC3
