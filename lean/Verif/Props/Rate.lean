import Mathlib.Analysis.SpecialFunctions.Log.Base
import Verif.Lemmas.RateList
import Verif.Props.Frame

/-!
Properties of the rate control: C38 (costs), C46 (what the rate control accepts fits in the frame).
-/

namespace LC3

/-! ### C38: costs -/

/-- The ideal cost, in bits, of an operation: `-log2` of the share of a symbol. -/
noncomputable def Op.ideal : Op → ℝ
  | .bits _ n => n
  | .sym m s => Real.logb 2 (1024 / (m.sym s).range)

/-- The ideal cost of a sequence of operations. -/
noncomputable def idealCost (ops : List Op) : ℝ := (ops.map Op.ideal).sum

theorem range_pos_of_cost {r c : Nat} (h : 1024 ^ costE ≤ r ^ costE * 2 ^ c) : 0 < r := by
  rcases Nat.eq_zero_or_pos r with h0 | h0
  · subst h0
    rw [Nat.zero_pow (by decide : 0 < costE), Nat.zero_mul] at h
    have : 0 < 1024 ^ costE := Nat.pow_pos (by decide)
    omega
  · exact h0

theorem ideal_le_of (r c : Nat) (h : 1024 ^ costE ≤ r ^ costE * 2 ^ c) :
    Real.logb 2 (1024 / (r : ℝ)) ≤ (c : ℝ) / 2048 := by
  have hr : (0 : ℝ) < r := by exact_mod_cast range_pos_of_cost h
  have h' : (1024 : ℝ) ^ costE ≤ (r : ℝ) ^ costE * 2 ^ c := by exact_mod_cast h
  have h1 : ((1024 : ℝ) / r) ^ costE ≤ 2 ^ c := by
    rw [div_pow, div_le_iff₀ (by positivity)]
    rw [mul_comm]; exact h'
  have h2 := Real.logb_le_logb_of_le (b := 2) (by norm_num) (by positivity) h1
  rw [Real.logb_pow, Real.logb_pow, Real.logb_self_eq_one (by norm_num), mul_one] at h2
  rw [le_div_iff₀ (by norm_num)]
  have e : (costE : ℝ) = 2048 := by norm_num [costE]
  rw [e] at h2
  linarith

theorem ideal_gt_of (r c : Nat) (h0 : 0 < r) (h : r ^ costE * 2 ^ c < 2 * 1024 ^ costE) :
    (c : ℝ) / 2048 < Real.logb 2 (1024 / (r : ℝ)) + 1 / 2048 := by
  have hr : (0 : ℝ) < r := by exact_mod_cast h0
  have h' : (r : ℝ) ^ costE * 2 ^ c < 2 * (1024 : ℝ) ^ costE := by exact_mod_cast h
  have h1 : (2 : ℝ) ^ c < 2 * ((1024 : ℝ) / r) ^ costE := by
    rw [div_pow, ← mul_div_assoc, lt_div_iff₀ (by positivity), mul_comm]
    exact h'
  have h2 := Real.logb_lt_logb (b := 2) (by norm_num) (by positivity) h1
  rw [Real.logb_mul (by norm_num) (by positivity), Real.logb_pow, Real.logb_pow,
    Real.logb_self_eq_one (by norm_num), mul_one] at h2
  have e : (costE : ℝ) = 2048 := by norm_num [costE]
  rw [e] at h2
  have : (c : ℝ) / 2048 - 1 / 2048 < Real.logb 2 (1024 / (r : ℝ)) := by
    rw [← sub_div, div_lt_iff₀ (by norm_num)]
    linarith
  linarith

theorem ideal_of_costOk {r c : Nat} (h : costOk r c = true) :
    Real.logb 2 (1024 / (r : ℝ)) ≤ (c : ℝ) / 2048 ∧ (c : ℝ) / 2048 < Real.logb 2 (1024 / (r : ℝ)) + 1 / 2048 := by
  have h1 := costOk_le h
  unfold costOk at h
  rw [Bool.and_eq_true] at h
  exact ⟨ideal_le_of r c h1, ideal_gt_of r c (range_pos_of_cost h1) (of_decide_eq_true h.2)⟩

/-- **C38**: each tabulated cost, in `1/2048` bit, of the spectrum, of the order and of the coefficients of the TNS filters,
is the ideal cost of the symbol `-log2(range / 1024)` rounded up: never lower, and less than one unit above. -/
theorem C38_tables :
    (∀ i < 64, ∀ s < 17,
      let c : ℝ := (((spectrumBits.getD i []).getD s 0 : Nat) : ℝ) / 2048
      let o := Real.logb 2 (1024 / (((spectrumModels.getD i []).sym s).range : ℝ))
      o ≤ c ∧ c < o + 1 / 2048) ∧
    (∀ i < 2, ∀ s < 8,
      let c : ℝ := (((tnsOrderBits.getD i []).getD s 0 : Nat) : ℝ) / 2048
      let o := Real.logb 2 (1024 / (((tnsOrderModels.getD i []).sym s).range : ℝ))
      o ≤ c ∧ c < o + 1 / 2048) ∧
    (∀ i < 8, ∀ s < 17,
      let c : ℝ := (((tnsCoeffsBits.getD i []).getD s 0 : Nat) : ℝ) / 2048
      let o := Real.logb 2 (1024 / (((tnsCoeffsModels.getD i []).sym s).range : ℝ))
      o ≤ c ∧ c < o + 1 / 2048) := by
  refine ⟨fun i hi s hs => ?_, fun i hi s hs => ?_, fun i hi s hs => ?_⟩
  · exact ideal_of_costOk (cost_of 64 17 _ _ spectrum_costs i s hi hs)
  · exact ideal_of_costOk (cost_of 2 8 _ _ tnsOrder_costs i s hi hs)
  · exact ideal_of_costOk (cost_of 8 17 _ _ tnsCoeffs_costs i s hi hs)

/-- Non-vacuity: the most and the least expensive symbols of a model. -/
example : (spectrumBits.getD 0 []).getD 0 0 = 20480 ∧ ((spectrumModels.getD 0 []).sym 0).range = 1 ∧
    (spectrumBits.getD 0 []).getD 16 0 = 4977 ∧ ((spectrumModels.getD 0 []).sym 16).range = 190 := by decide +kernel

theorem Priced.ideal {ops : List Op} {P N : Nat} (h : Priced costE ops P N) : idealCost ops ≤ (P : ℝ) / 2048 := by
  unfold idealCost
  induction h with
  | nil => simp
  | @bits v n ops P N _ ih =>
    rw [List.map_cons, List.sum_cons]
    have e : ((costE * n + P : Nat) : ℝ) / 2048 = n + (P : ℝ) / 2048 := by
      have : (costE : ℝ) = 2048 := by norm_num [costE]
      push_cast
      rw [this]; ring
    rw [e]
    have : (Op.bits v n).ideal = n := rfl
    rw [this]
    linarith
  | @sym m s c ops P N hc _ ih =>
    rw [List.map_cons, List.sum_cons]
    have h1 : (Op.sym m s).ideal ≤ (c : ℝ) / 2048 := ideal_le_of _ _ hc
    push_cast
    rw [add_div]
    linarith

/-- **C38**: the symbols priced by `compute_nbits` are those that `put_quantized` writes. Whatever the spectrum and a positive
budget, the ideal cost of what the writer writes, with the number of coefficients and the mode that `compute_nbits` returns, is
within the budget. -/
theorem C38_written_in_budget (dt : Dt) (sr : Srate) (nbytes : Nat) (c : List Coef) (hc : ∀ p ∈ c, p.1 < 2 ^ 32)
    (budget : Int) (hb : 0 < budget) :
    let r := computeNbits dt sr nbytes (c.map Prod.fst) budget
    r.n % 2 = 0 ∧ r.n ≤ c.length ∧ (r.lsbMode = true → lsbAllowed sr nbytes = true) ∧
    ∃ ops, (∀ b, putQuantized (highRate sr nbytes) r.lsbMode (ne dt sr) 0 0 (c.take r.n) b = putOps b ops) ∧
      idealCost ops ≤ budget := by
  intro r
  obtain ⟨h1, h2, P, hP, hle⟩ := computeNbits_priced dt sr nbytes c hc budget hb
  refine ⟨h1, h2, ?_, _, fun b => putQuantized_ops _ _ _ _ _ _ b, ?_⟩
  · intro h
    have : r.lsbMode = (lsbAllowed sr nbytes && _) := rfl
    rw [this, Bool.and_eq_true] at h
    exact h.1
  · refine le_trans hP.ideal ?_
    rw [div_le_iff₀ (by norm_num)]
    have : ((P : Int) : ℝ) ≤ ((2048 * budget : Int) : ℝ) := by exact_mod_cast hle
    push_cast at this
    linarith

/-- Non-vacuity: a spectrum of which a part only is retained, and the LSB mode chosen by the budget. -/
example : computeNbits .m10 .k16 100 ([9, 8, 7, 6, 5, 4, 3, 2, 1, 0, 0, 1] ++ List.replicate 20 5) 60 = ⟨14, true, 53⟩ ∧
    lsbAllowed .k16 100 = true := by decide +kernel

theorem lsb_sum_take (hrate lsb : Bool) (ne i state : Nat) (l : List Nat) (j : Nat) (hj : j % 2 = 0) :
    (rateSum hrate lsb ne i state (l.take j)).2 ≤ (rateSum hrate lsb ne i state l).2 := by
  fun_induction rateSum hrate lsb ne i state l generalizing j with
  | case1 i state a b l w r ih =>
    match j, hj with
    | 0, _ => rw [List.take_zero, rateSum_nil]; omega
    | 1, h => omega
    | j + 2, h =>
      rw [List.take_succ_cons, List.take_succ_cons]
      have := ih j (by omega)
      have e : rateSum hrate lsb ne i state (a :: b :: l.take j) =
        (w.nbits + (rateSum hrate lsb ne (i + 2) (nextState state w.k w.a w.b) (l.take j)).1,
         w.lsb + (rateSum hrate lsb ne (i + 2) (nextState state w.k w.a w.b) (l.take j)).2) := by
        conv => lhs; unfold rateSum
      rw [e]
      exact Nat.add_le_add_left this _
  | case2 l i state h =>
    have : ∀ l' : List Nat, l'.length ≤ 1 → rateSum hrate lsb ne i state l' = (0, 0) := by
      intro l' hl
      match l', hl with
      | [], _ => exact rateSum_nil _ _ _ _ _
      | [a], _ => unfold rateSum; rfl
    have hl : l.length ≤ 1 := by
      match l, h with
      | [], _ => simp
      | [_], _ => simp
      | a :: b :: l, h => exact absurd rfl (h a b l)
    rw [this (l.take j) (by rw [List.length_take]; omega)]

/-- **C38**: without a budget (`nbits_budget` of zero, as for the first count of `lc3_spec_analyze`), all the significant
coefficients are counted: the ones left out are zero, and the last pair retained is not. The count returned is not below the ideal
cost of what the writer writes. -/
theorem C38_count (dt : Dt) (sr : Srate) (nbytes : Nat) (c : List Coef) (hc : ∀ p ∈ c, p.1 < 2 ^ 32)
    (he : c.length % 2 = 0) (hl : c.length ≤ 960) :
    let r := computeNbits dt sr nbytes (c.map Prod.fst) 0
    r.lsbMode = false ∧ r.n % 2 = 0 ∧ r.n ≤ c.length ∧ (∀ p ∈ c.drop r.n, p.1 = 0) ∧
    (r.n ≠ 0 → (c.map Prod.fst).getD (r.n - 2) 0 ≠ 0 ∨ (c.map Prod.fst).getD (r.n - 1) 0 ≠ 0) ∧
    ∃ ops, (∀ b, putQuantized (highRate sr nbytes) false (ne dt sr) 0 0 (c.take r.n) b = putOps b ops) ∧
      idealCost ops ≤ r.nbits := by
  intro r
  have hm : ∀ a ∈ c.map Prod.fst, a < 2 ^ 32 := by
    intro a ha
    obtain ⟨p, hp, rfl⟩ := List.mem_map.mp ha
    exact hc p hp
  have hbd := rateLoop_bounds (highRate sr nbytes) (lsbAllowed sr nbytes) (ne dt sr) 2147483647 0 {} (c.map Prod.fst) hm
    (by decide)
  have hall := rateLoop_all (highRate sr nbytes) (lsbAllowed sr nbytes) (ne dt sr) 2147483647 0 {} (c.map Prod.fst) hm
    (by rw [List.length_map]; show (0 : Int) + _ ≤ _; omega)
  obtain ⟨s1, s2, s3, s4⟩ := sigCount_spec (c.map Prod.fst) (by rw [List.length_map]; exact he)
  have er : r = { n := (rateLoop (highRate sr nbytes) (lsbAllowed sr nbytes) (ne dt sr) 2147483647 0 {} (c.map Prod.fst)).nEnd
                  lsbMode := lsbAllowed sr nbytes && decide ((rateLoop (highRate sr nbytes) (lsbAllowed sr nbytes) (ne dt sr) 2147483647 0 {} (c.map Prod.fst)).nbitsEnd + 2048 * ((rateLoop (highRate sr nbytes) (lsbAllowed sr nbytes) (ne dt sr) 2147483647 0 {} (c.map Prod.fst)).lsb : Int) > 2147483647)
                  nbits := ((rateLoop (highRate sr nbytes) (lsbAllowed sr nbytes) (ne dt sr) 2147483647 0 {} (c.map Prod.fst)).nbitsEnd + 2048 * ((rateLoop (highRate sr nbytes) (lsbAllowed sr nbytes) (ne dt sr) 2147483647 0 {} (c.map Prod.fst)).lsb : Int) + 2047) / 2048 } := rfl
  dsimp only at hbd hall
  generalize rateLoop (highRate sr nbytes) (lsbAllowed sr nbytes) (ne dt sr) 2147483647 0 {} (c.map Prod.fst) = st at *
  rw [List.length_map] at hbd s2
  change 0 ≤ st.nbits ∧ st.nbits ≤ 0 + 400000 * (c.length : Int) ∧ 0 ≤ st.lsb ∧ st.lsb ≤ 0 + 2 * c.length at hbd
  change st.lsb = 0 + (rateSum _ _ _ 0 0 _).2 ∧ (_ → st.nEnd = 0 ∧ st.nbitsEnd = 0) ∧
    (_ → st.nEnd = 0 + _ ∧ st.nbitsEnd = 0 + (rateSum _ _ _ 0 0 _).1) at hall
  obtain ⟨a1, a2, a3⟩ := hall
  have hn : st.nEnd = sigCount (c.map Prod.fst) ∧
      st.nbitsEnd = (rateSum (highRate sr nbytes) (lsbAllowed sr nbytes) (ne dt sr) 0 0 ((c.take (sigCount (c.map Prod.fst))).map Prod.fst)).1 := by
    rw [List.map_take]
    by_cases h0 : sigCount (c.map Prod.fst) = 0
    · rw [(a2 h0).1, (a2 h0).2, h0, List.take_zero, rateSum_nil]
      exact ⟨rfl, rfl⟩
    · have := a3 h0
      rw [this.1, this.2]
      constructor <;> omega
  have hct : ∀ p ∈ c.take (sigCount (c.map Prod.fst)), p.1 < 2 ^ 32 := fun p hp => hc p (List.mem_of_mem_take hp)
  obtain ⟨P, hP, hle, -⟩ := quantized_priced (highRate sr nbytes) false (lsbAllowed sr nbytes) (by simp) (ne dt sr) 0 0
    (by decide) (c.take (sigCount (c.map Prod.fst))) hct
  have hlt := lsb_sum_take (highRate sr nbytes) (lsbAllowed sr nbytes) (ne dt sr) 0 0 (c.map Prod.fst)
    (sigCount (c.map Prod.fst)) s1
  rw [← List.map_take] at hlt
  rw [← hn.2] at hle
  have hPle : (P : Int) ≤ st.nbitsEnd + 2048 * (st.lsb : Int) := by
    split at hle <;> omega
  have hend : st.nbitsEnd ≤ 400000 * 960 := by
    rw [hn.2]
    have hb2 := rateLoop_bounds (highRate sr nbytes) (lsbAllowed sr nbytes) (ne dt sr) 2147483647 0 {}
      ((c.take (sigCount (c.map Prod.fst))).map Prod.fst) (by
        intro a ha
        obtain ⟨p, hp, rfl⟩ := List.mem_map.mp ha
        exact hct p hp) (by decide)
    have hs := rateSum_le (highRate sr nbytes) (lsbAllowed sr nbytes) (ne dt sr) 0 0
      ((c.take (sigCount (c.map Prod.fst))).map Prod.fst) (by
        intro a ha
        obtain ⟨p, hp, rfl⟩ := List.mem_map.mp ha
        exact hct p hp)
    rw [List.length_map, List.length_take] at hs
    omega
  rw [er]
  dsimp only
  rw [hn.1]
  refine ⟨?_, s1, s2, ?_, s4, _, fun b => putQuantized_ops _ _ _ _ _ _ b, ?_⟩
  · rw [decide_eq_false (by omega), Bool.and_false]
  · intro p hp
    refine s3 p.1 ?_
    rw [← List.map_drop]
    exact List.mem_map_of_mem hp
  · refine le_trans hP.ideal ?_
    rw [div_le_iff₀ (by norm_num)]
    have : (P : Int) ≤ (st.nbitsEnd + 2048 * (st.lsb : Int) + 2047) / 2048 * 2048 := by omega
    exact_mod_cast this

/-- **C38**: the cost of the TNS data is not below the ideal cost of what the writer writes. -/
theorem C38_tns (dt : Dt) (bw nbytes : Nat) (d : TnsData) (hd : d.Valid dt bw nbytes) :
    ∃ ops, (∀ b, putTns b d = putOps b ops) ∧ idealCost ops ≤ tnsNbits d := by
  obtain ⟨P, hP, hle⟩ := tns_priced dt bw nbytes d hd
  refine ⟨_, fun b => putTns_ops b d, le_trans hP.ideal ?_⟩
  rw [div_le_iff₀ (by norm_num)]
  have : (P : ℝ) ≤ ((2048 * tnsNbits d : Nat) : ℝ) := by exact_mod_cast hle
  push_cast at this
  linarith

/-- **C38**: the additions of `compute_nbits` do not overflow, at any iteration `k`. -/
theorem C38_no_overflow (dt : Dt) (sr : Srate) (nbytes : Nat) (hn : nbytes ≤ 625) (mags : List Nat) (hm : ∀ a ∈ mags, a < 2 ^ 32)
    (hl : mags.length ≤ 960) (budget : Int) (hb : budget ≤ 8 * nbytes) (hb' : -(8 * nbytes) ≤ budget) (k : Nat) :
    let st := rateLoop (highRate sr nbytes) (lsbAllowed sr nbytes) (ne dt sr) (if budget ≠ 0 then budget * 2048 else 2147483647)
      0 {} (mags.take k)
    0 ≤ st.nbits ∧ st.nbits < 2 ^ 31 ∧ -2 ^ 31 ≤ st.nbitsEnd + 2048 * (st.lsb : Int) ∧
    st.nbitsEnd + 2048 * (st.lsb : Int) + 2047 < 2 ^ 31 ∧ -2 ^ 31 ≤ budget * 2048 ∧ budget * 2048 < 2 ^ 31 := by
  intro st
  have hbd := rateLoop_bounds (highRate sr nbytes) (lsbAllowed sr nbytes) (ne dt sr)
    (if budget ≠ 0 then budget * 2048 else 2147483647) 0 {} (mags.take k) (fun a ha => hm a (List.mem_of_mem_take ha)) (by decide)
  have hend := rateLoop_end (highRate sr nbytes) (lsbAllowed sr nbytes) (ne dt sr)
    (if budget ≠ 0 then budget * 2048 else 2147483647) 0 {} (mags.take k) (fun a ha => hm a (List.mem_of_mem_take ha))
    (by decide) (by decide) (by decide)
  have e : rateLoop (highRate sr nbytes) (lsbAllowed sr nbytes) (ne dt sr) (if budget ≠ 0 then budget * 2048 else 2147483647)
      0 {} (mags.take k) = st := rfl
  have hlen : (mags.take k).length ≤ 960 := by rw [List.length_take]; omega
  dsimp only at hbd hend
  rw [e] at hbd hend
  generalize st = st at *
  generalize (mags.take k).length = n at *
  change 0 ≤ st.nbits ∧ st.nbits ≤ 0 + 400000 * (n : Int) ∧ 0 ≤ st.lsb ∧ st.lsb ≤ 0 + 2 * n at hbd
  omega


/-! ### C46: what the rate control accepts fits in the frame -/

/-- The side information of the encoder holds the decision of `compute_nbits` on the `n` first coefficients `x`, with the budget
of `lc3_spec_analyze`. -/
def RateAccepted {R : Type} (A : Arith R) (dt : Dt) (sr : Srate) (nbytes : Nat) (side : SideData) (x : List R) (n : Nat) : Prop :=
  let r := computeNbits dt sr nbytes (((x.take n).map (quantCoef A sr.hr)).map Prod.fst)
    (specBudget dt sr nbytes side.pitchPresent side.tns)
  side.spec.nq = r.n ∧ side.spec.lsbMode = r.lsbMode

/-- Refutation of the claim as stated: a frame of 71 bytes at 8 kHz, whose spectrum is accepted within the budget. -/
def overPairs : List (Nat × Nat) :=
  [(3, 3), (0, 60), (29, 29), (0, 6), (21, 44), (29, 29), (6, 6), (44, 44), (4, 4), (21, 60), (0, 60), (44, 60), (2, 4),
   (21, 60), (60, 0), (6, 6), (44, 44), (4, 4), (21, 60), (0, 60), (60, 60), (60, 0), (0, 60), (44, 60), (21, 29),
   (44, 60), (44, 44), (21, 60), (0, 60), (21, 60), (60, 0), (4, 0)]

/-- The spectrum. -/
def overX : List Rat := (overPairs.flatMap fun p => [(p.1 : Rat), (p.2 : Rat)]) ++ List.replicate 16 0

/-- The side information. -/
def overSide : SideData :=
  ⟨0, ⟨166, 64, false⟩, ⟨false, [[]]⟩, false, ⟨0, 0, 0, 0, 0, false, 0, false⟩, ⟨false, 0⟩⟩

theorem overSide_encodable : Encodable .m10 .k8 71 overSide := by
  refine ⟨by show 0 ≤ _; decide, ⟨?_, ?_, ?_⟩, ⟨rfl, ?_, ?_⟩, ⟨?_, ?_, ?_, ?_, ?_, ?_⟩, ?_⟩
  case refine_5 =>
    intro rc hrc
    have : rc = [] := List.mem_singleton.mp hrc
    subst this
    exact ⟨by decide, by decide⟩
  all_goals decide +kernel

/-- The frame is refused by the decoder. -/
def isRefused {α : Type} : Outcome α × Bits → Bool
  | (.refused, _) => true
  | _ => false

theorem overFrame_encoded : (encodeFrame Arith.exact .m10 .k8 (List.replicate 71 0) overSide overX).isSome = true := by
  decide +kernel

theorem overFrame_refused (sh32 : Nat → Nat) (junk : LtpfData) :
    (encodeFrame Arith.exact .m10 .k8 (List.replicate 71 0) overSide overX).any
      (fun F => isRefused (decodeFrame Arith.exact .m10 .k8 sh32 junk F)) = true := by
  run_tac do
    let g ← Lean.Elab.Tactic.getMainGoal
    g.assign (Lean.mkApp2 (.const ``Eq.refl [1]) (.const ``Bool []) (.const ``Bool.true []))

/-- **C46**, refuted: the spectrum `overX` is accepted within the budget by the rate control, with a valid side information, and
the frame encoded is refused by the decoder, whatever the compiler (`sh32`) and the uninitialised data. The price of a
symbol is its ideal cost, but the coder divides its range by 1024, which drops up to 10 bits of it at each symbol: the
3 spare bits (`get_nbits_ac`) are not enough. -/
theorem C46_refuted :
    Encodable .m10 .k8 71 overSide ∧ 0 < specBudget .m10 .k8 71 overSide.pitchPresent overSide.tns ∧
    overX.length = ne .m10 .k8 ∧ RateAccepted Arith.exact .m10 .k8 71 overSide overX 80 ∧
    ∃ F, encodeFrame Arith.exact .m10 .k8 (List.replicate 71 0) overSide overX = some F ∧
      ∀ sh32 junk, ∃ r, decodeFrame Arith.exact .m10 .k8 sh32 junk F = (.refused, r) := by
  refine ⟨overSide_encodable, by decide +kernel, by decide +kernel, ⟨by decide +kernel, by decide +kernel⟩, ?_⟩
  obtain ⟨F, hF⟩ := Option.isSome_iff_exists.mp overFrame_encoded
  refine ⟨F, hF, fun sh32 junk => ?_⟩
  have h := overFrame_refused sh32 junk
  rw [hF, Option.any_some] at h
  generalize decodeFrame Arith.exact .m10 .k8 sh32 junk F = w at *
  obtain ⟨o, r⟩ := w
  cases o with
  | refused => exact ⟨r, rfl⟩
  | ub => cases h
  | ok => cases h

/-- **C46**, what holds: when the budget is positive and the number of symbols of the arithmetic coder is within 44 times the
number of spare bits (1 to 4), a frame accepted by the rate control does not overflow, whatever the arithmetic, the
configuration, the side information and the spectrum. It is then accepted by the decoder, which obtains the quantised
spectrum of the encoder (with C25).

The bound on the number of symbols is missing in the code, `C46_refuted` shows that the claim needs one. -/
theorem C46_fits_partial {R : Type} (A : Arith R) (dt : Dt) (sr : Srate) (data : List Nat) (hd : Bytes data)
    (h4 : 4 ≤ data.length) (side : SideData) (hv : Encodable dt sr data.length side) (x : List R) (hx : x.length = ne dt sr)
    (n : Nat) (hmag : ∀ v ∈ x, (quantCoef A sr.hr v).1 < if sr.hr then 2 ^ 24 else 2 ^ 16)
    (hb : 0 < specBudget dt sr data.length side.pitchPresent side.tns)
    (hr : RateAccepted A dt sr data.length side x n)
    (hs : 1 + tnsSyms side.tns + symCount ((x.take side.spec.nq).map fun v => (quantCoef A sr.hr v).1) ≤
      44 * (1 + b2n sr.hr + min ((data.length - 1) / 160) 2)) :
    ∃ bE, encodeBits A dt sr data side x = some bE ∧ 0 ≤ bitsLeftRaw bE ∧
      (2 ≤ side.spec.nq → ∀ sh32 junk, ∃ sd s r,
        decodeFrame A dt sr sh32 junk (flushBits bE).buf.data = (.ok (sd, s), r) ∧ sd.spec = side.spec ∧
        s.xq.length = side.spec.nq) := by
  have hi := winv_setup data hd
  have hvS := opsSideData_valid dt sr data.length side hv
  have hc : CoefOk sr.hr (codedCoefs A sr side.spec x) := by
    intro p hp
    unfold codedCoefs at hp
    obtain ⟨v, hv, rfl⟩ := List.mem_map.mp hp
    have := hmag v (List.mem_of_mem_take hv)
    generalize sr.hr = h at *
    cases h <;> exact this
  have hc32 : ∀ p ∈ (x.take n).map (quantCoef A sr.hr), p.1 < 2 ^ 32 := by
    intro p hp
    obtain ⟨v, hv, rfl⟩ := List.mem_map.mp hp
    have := hmag v (List.mem_of_mem_take hv)
    refine Nat.lt_of_lt_of_le this ?_
    split <;> decide
  obtain ⟨r1, r2, P2, hP2, hle2⟩ := computeNbits_priced dt sr data.length _ hc32 _ hb
  obtain ⟨h1, h2⟩ := hr
  rw [← h1] at r2 hP2
  rw [← h2] at hP2
  obtain ⟨P1, hP1, hle1⟩ := side_priced dt sr data.length side hv
  have hnle : side.spec.nq ≤ n := by
    rw [List.length_map, List.length_take] at r2
    omega
  have etake : ((x.take n).map (quantCoef A sr.hr)).take side.spec.nq = codedCoefs A sr side.spec x := by
    unfold codedCoefs
    rw [← List.map_take, List.take_take, Nat.min_eq_left hnle]
  rw [etake, ← List.map_take, etake] at hP2
  unfold encodeBits
  rw [putSideData_ops]
  obtain ⟨nf, hnf, hest, e⟩ := specEncode_ops A dt sr side.bw data.length side.spec x hv.bw hx
    (putOps (setupWrite data) (opsSideData dt sr side))
  have hvH := opsSpecHead_valid A dt sr data.length side.spec nf x hnf hc
  have hPa : Priced costE (opsSideData dt sr side ++ opsSpecHead dt sr data.length side.spec nf (codedCoefs A sr side.spec x))
      (P1 + (costE * 3 + P2)) (tnsSyms side.tns + symCount ((codedCoefs A sr side.spec x).map Prod.fst)) :=
    hP1.append (Priced.bits hP2)
  have hva : ∀ o ∈ opsSideData dt sr side ++ opsSpecHead dt sr data.length side.spec nf (codedCoefs A sr side.spec x), o.Valid := by
    intro o ho
    rcases List.mem_append.mp ho with ho | ho
    · exact hvS o ho
    · exact hvH o ho
  have hsym : symCount ((codedCoefs A sr side.spec x).map Prod.fst) =
      symCount ((x.take side.spec.nq).map fun v => (quantCoef A sr.hr v).1) := by
    unfold codedCoefs
    rw [List.map_map]; rfl
  have hfit0 : Fit (setupWrite data) := by
    show 0 < data.length
    omega
  generalize hS : 1 + b2n sr.hr + min ((data.length - 1) / 160) 2 = S at *
  have hbud : (sideBits dt sr side.pitchPresent : Int) + tnsNbits side.tns +
      specBudget dt sr data.length side.pitchPresent side.tns + S + 1 = 8 * data.length := by
    unfold sideBits specBudget nbitsAc
    rw [← hS]
    push_cast
    omega
  generalize specBudget dt sr data.length side.pitchPresent side.tns = bud at *
  obtain ⟨B, rfl⟩ : ∃ B : Nat, bud = B := ⟨bud.toNat, by omega⟩
  have hE : costE = 2048 := rfl
  obtain ⟨-, hleft⟩ := priced_fits costE (by decide) data.length
    (sideBits dt sr side.pitchPresent + tnsNbits side.tns + B) S (by omega) (44 * S) (by
      rw [Nat.pow_mul, Nat.pow_mul, ← Nat.mul_pow]
      exact Nat.pow_le_pow_left (by decide) _)
    _ _ _ hPa (setupWrite data) hi rfl hva 0 1 (pot_setup costE data) hfit0
    (by rw [hE]; omega) (by rw [hsym]; omega)
  rw [putOps_append] at hleft
  have hw := winv_ops _ _ hi hva
  rw [putOps_append] at hw
  have hl := tail_fits A sr side.spec x _ hw.1 hleft
  refine ⟨_, e, hl, fun hnq sh32 junk => ?_⟩
  obtain ⟨-, -, s, r, hdec, -, -, -, -, hlen⟩ := C25_round_trip A dt sr data hd h4 sh32 junk side hv hnq x hx
    (fun v hv => hmag v (List.mem_of_mem_take hv)) _ (by unfold encodeBits; rw [putSideData_ops]; exact e) hl
  exact ⟨_, s, r, hdec, rfl, hlen⟩

/-- Non-vacuity of `C46_fits_partial`. -/
example :
    0 < specBudget .m10 .k8 40 (exSide false).pitchPresent (exSide false).tns ∧
    RateAccepted Arith.exact .m10 .k8 40 { exSide false with spec := ⟨137, 12, false⟩ } exSpec 80 ∧
    1 + tnsSyms (exSide false).tns + symCount ((exSpec.take 12).map fun v => (quantCoef Arith.exact false v).1) ≤ 44 * 1 :=
  ⟨by decide +kernel, ⟨by decide +kernel, by decide +kernel⟩, by decide +kernel⟩

end LC3
