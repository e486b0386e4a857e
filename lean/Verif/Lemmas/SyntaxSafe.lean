import Verif.Lemmas.Syntax
import Verif.Props.Bits

/-!
The side information read from any frame: no access out of the frame, values in range.
-/

namespace LC3

/-! ### Reading any frame -/

theorem getBit_safe (F : List Nat) (r : Bits) (h : RInv F r) :
    ((getBit r).1 = 0 ∨ (getBit r).1 = 1) ∧ RInv F (getBit r).2 := by
  obtain ⟨h1, h2⟩ := getBits_safe F 1 r h (by omega)
  refine ⟨?_, h2⟩
  unfold getBit
  omega

theorem getBw_safe (F : List Nat) (sr : Srate) (r : Bits) (h : RInv F r) :
    let q := getBw r sr
    RInv F q.2.2 ∧ (q.1 = 0 ∨ q.1 = -1) ∧ q.2.1 ≤ sr.idx ∧ (q.1 = 0 → BwValid sr q.2.1) := by
  have hn : bwNbits sr ≤ 31 ∧ (bwNbits sr = 0 → BwValid sr sr.idx) ∧
      (bwNbits sr > 0 → sr.hr = false) := by
    cases sr <;> (unfold BwValid; decide)
  obtain ⟨s1, s2⟩ := getBits_safe F (bwNbits sr) r h hn.1
  unfold getBw
  by_cases h0 : bwNbits sr ≤ 0
  · simp only [if_pos h0, if_neg (show ¬ sr.idx > sr.idx by omega)]
    exact ⟨h, by simp, Nat.le_refl _, fun _ => hn.2.1 (by omega)⟩
  · simp only [if_neg h0]
    by_cases h1 : (getBits r (bwNbits sr)).1 > sr.idx
    · simp only [if_pos h1]
      exact ⟨s2, by simp, Nat.le_refl _, fun e => absurd e (by decide)⟩
    · simp only [if_neg h1]
      refine ⟨s2, by simp, by omega, fun _ => ?_⟩
      unfold BwValid
      rw [hn.2.2 (by omega)]
      simp only [Bool.false_eq_true, if_false]
      omega

theorem getSide_safe (F : List Nat) (dt : Dt) (sr : Srate) (r : Bits) (h : RInv F r) :
    let q := getSide r dt sr
    RInv F q.2.2 ∧ (q.1 = 0 ∨ q.1 = -1) ∧ q.2.1.Valid dt sr ∧ 2 ≤ q.2.1.nq := by
  obtain ⟨n1, n2, n3, n4, n5, n6⟩ := nbitsNq_spec dt sr
  obtain ⟨a1, a2⟩ := getBits_safe F (nbitsNq dt sr) r h (by omega)
  obtain ⟨b1, b2⟩ := getBit_safe F _ a2
  obtain ⟨c1, c2⟩ := getBits_safe F 8 _ b2 (by omega)
  unfold getSide
  dsimp only
  have e : ∀ x : Nat, (x + 1) <<< 1 = 2 * (x + 1) := fun x => by rw [Nat.shiftLeft_eq]; omega
  rw [e]
  split
  · exact ⟨c2, Or.inr rfl, ⟨by dsimp only; omega, n4, Nat.le_refl _⟩, by dsimp only; omega⟩
  · exact ⟨c2, Or.inl rfl, ⟨by dsimp only; omega, by dsimp only; omega, by dsimp only; omega⟩,
      by dsimp only; omega⟩

theorem getTnsCoeffs_safe (F : List Nat) (hF : Bytes F) (n i : Nat) (r : Bits) (h : RInv F r)
    (hi : i + n ≤ 8) :
    let q := getTnsCoeffs n i r
    RInv F q.2 ∧ q.1.length = n ∧ ∀ c ∈ q.1, -8 ≤ c ∧ c ≤ 8 := by
  induction n generalizing i r with
  | zero => exact ⟨h, rfl, by simp [getTnsCoeffs]⟩
  | succ n ih =>
    obtain ⟨a1, a2⟩ := getSymbol_safe F hF _ (tnsCoeffs_wf i (by omega)) r h
    obtain ⟨i1, i2, i3⟩ := ih (i + 1) _ a2 (by omega)
    simp only [getTnsCoeffs]
    refine ⟨i1, by rw [List.length_cons, i2], ?_⟩
    intro c hc
    rw [List.mem_cons] at hc
    rcases hc with rfl | hc
    · have := a1.1
      omega
    · exact i3 c hc

theorem getTnsFilter_safe (F : List Nat) (hF : Bytes F) (dt : Dt) (lw : Bool) (r : Bits)
    (h : RInv F r) :
    let q := getTnsFilter r dt lw
    RInv F q.2.2 ∧ (q.1 = 0 ∨ q.1 = -1) ∧ TnsFilterValid dt q.2.1 := by
  obtain ⟨b1, b2⟩ := getBit_safe F r h
  obtain ⟨s1, s2⟩ := getSymbol_safe F hF _ (tnsOrder_wf lw) _ b2
  have s3 := (tnsOrder_codable lw _).mp s1
  have hnil : TnsFilterValid dt [] := ⟨Nat.zero_le _, by simp⟩
  unfold getTnsFilter
  dsimp only
  split
  · exact ⟨b2, Or.inl rfl, hnil⟩
  · rename_i hb
    split
    · exact ⟨s2, Or.inr rfl, hnil⟩
    · rename_i ho
      obtain ⟨c1, c2, c3⟩ := getTnsCoeffs_safe F hF
        ((getBit r).1 + (getSymbol (getBit r).2 (tnsOrderModel lw)).1) 0 _ s2 (by omega)
      refine ⟨c1, Or.inl rfl, ⟨?_, c3⟩⟩
      rw [c2]
      split <;> omega

theorem getTnsFilters_safe (F : List Nat) (hF : Bytes F) (n : Nat) (dt : Dt) (lw : Bool) (r : Bits)
    (h : RInv F r) :
    let q := getTnsFilters n r dt lw
    RInv F q.2.2 ∧ (q.1 = 0 ∨ q.1 = -1) ∧ q.2.1.length ≤ n ∧ (q.1 = 0 → q.2.1.length = n) ∧
    ∀ rc ∈ q.2.1, TnsFilterValid dt rc := by
  induction n generalizing r with
  | zero => exact ⟨h, Or.inl rfl, Nat.le_refl _, fun _ => rfl, by simp [getTnsFilters]⟩
  | succ n ih =>
    obtain ⟨a1, a2, a3⟩ := getTnsFilter_safe F hF dt lw r h
    obtain ⟨i1, i2, i3, i4, i5⟩ := ih _ a1
    simp only [getTnsFilters]
    split
    · refine ⟨a1, a2, Nat.succ_le_succ (Nat.zero_le _), fun e => by omega, ?_⟩
      intro rc hrc
      rw [List.mem_singleton] at hrc
      rw [hrc]; exact a3
    · refine ⟨i1, i2, by simpa using i3, fun e => by simpa using i4 e, ?_⟩
      intro rc hrc
      rw [List.mem_cons] at hrc
      rcases hrc with rfl | hrc
      · exact a3
      · exact i5 rc hrc

theorem tnsNfilters_spec (dt : Dt) (bw : Nat) : 1 ≤ tnsNfilters dt bw ∧ tnsNfilters dt bw ≤ 2 := by
  unfold tnsNfilters
  have := b2n_lt (decide (dt.idx ≥ 1) && decide (bw ≥ bwSwb))
  omega

theorem getTns_safe (F : List Nat) (hF : Bytes F) (dt : Dt) (bw nbytes : Nat) (r : Bits)
    (h : RInv F r) :
    let q := getTns r dt bw nbytes
    RInv F q.2.2 ∧ (q.1 = 0 ∨ q.1 = -1) ∧ q.2.1.filters.length ≤ 2 ∧
    (∀ rc ∈ q.2.1.filters, TnsFilterValid dt rc) ∧ (q.1 = 0 → q.2.1.Valid dt bw nbytes) := by
  obtain ⟨i1, i2, i3, i4, i5⟩ :=
    getTnsFilters_safe F hF (tnsNfilters dt bw) dt (resolveLpcWeighting dt nbytes) r h
  have := tnsNfilters_spec dt bw
  unfold getTns
  dsimp only
  exact ⟨i1, i2, Nat.le_trans i3 this.2, i5, fun e => ⟨rfl, i4 e, i5⟩⟩

theorem getLtpf_safe (F : List Nat) (r : Bits) (h : RInv F r) :
    RInv F (getLtpf r).2 ∧ (getLtpf r).1.pitchIndex < 512 := by
  obtain ⟨b1, b2⟩ := getBit_safe F r h
  obtain ⟨c1, c2⟩ := getBits_safe F 9 _ b2 (by omega)
  exact ⟨c2, c1⟩

/-- The demultiplexing of the SNS fields, as a function of the values of the fields. -/
def snsDemux (lfcb hfcb shapeMsb gain : Nat) (lsA : Bool) (muxCode : Nat) : Int × SnsData :=
  if shapeMsb = 0 then
    if muxCode ≥ 2390004 * 14 then (-1, ⟨lfcb, hfcb, 0, gain, 0, lsA, 0, false⟩) else
    if muxCode / 2390004 < 2 then
      (0, ⟨lfcb, hfcb, 1, 2 * gain + muxCode / 2390004 % 2, muxCode % 2390004, lsA, 0, false⟩)
    else
      (0, ⟨lfcb, hfcb, 0, gain, muxCode % 2390004, lsA, (muxCode / 2390004 - 2) / 2,
        decide ((muxCode / 2390004 - 2) % 2 ≠ 0)⟩)
  else
    if muxCode ≥ 15158272 + 1549824 then (-1, ⟨lfcb, hfcb, 0, gain, 0, lsA, 0, false⟩) else
    if muxCode < 15158272 then (0, ⟨lfcb, hfcb, 2, gain, muxCode, lsA, 0, false⟩)
    else
      (0, ⟨lfcb, hfcb, 3, 2 * gain + (muxCode - 15158272) % 2, (muxCode - 15158272) / 2, lsA, 0, false⟩)

theorem getSns_demux (r : Bits) (lfcb hfcb shapeMsb gain lsA mux : Nat) (r1 r2 r3 r4 r5 r6 : Bits)
    (e1 : getBits r 5 = (lfcb, r1)) (e2 : getBits r1 5 = (hfcb, r2)) (e3 : getBits r2 1 = (shapeMsb, r3))
    (e4 : getBits r3 (1 + shapeMsb) = (gain, r4)) (e5 : getBits r4 1 = (lsA, r5))
    (e6 : getBits r5 (25 - shapeMsb) = (mux, r6)) :
    getSns r = ((snsDemux lfcb hfcb shapeMsb gain (decide (lsA ≠ 0)) mux).1,
      (snsDemux lfcb hfcb shapeMsb gain (decide (lsA ≠ 0)) mux).2, r6) := by
  have sl : ∀ x : Nat, x <<< 1 = 2 * x := fun x => by rw [Nat.shiftLeft_eq]; omega
  unfold getSns snsDemux
  simp only [getBit, e1, e2, e3, e4, e5, e6, sl]
  clear e1 e2 e3 e4 e5 e6
  by_cases h0 : shapeMsb = 0
  · simp only [if_pos h0]
    by_cases h1 : mux ≥ 2390004 * 14
    · simp only [if_pos h1]
    · simp only [if_neg h1]
      by_cases h2 : mux / 2390004 < 2
      · simp only [decide_eq_true h2, show b2n true = 1 from rfl, if_neg (show ¬ (1 = 0) by decide),
          if_pos h2]
      · simp only [decide_eq_false h2, show b2n false = 0 from rfl, if_true, if_neg h2]
  · simp only [if_neg h0]
    by_cases h1 : mux ≥ 15158272 + 1549824
    · simp only [if_pos h1]
    · simp only [if_neg h1]
      by_cases h2 : mux ≥ 15158272
      · simp only [decide_eq_true h2, show b2n true = 1 from rfl, show 2 + 1 = 3 from rfl,
          if_neg (show ¬ (3 = 2) by decide), if_neg (show ¬ mux < 15158272 by omega)]
      · simp only [decide_eq_false h2, show b2n false = 0 from rfl, show 2 + 0 = 2 from rfl, if_true,
          if_pos (show mux < 15158272 by omega)]

theorem b2n_decide (x : Nat) (h : x = 0 ∨ x = 1) : b2n (decide (x ≠ 0)) = x := by
  rcases h with rfl | rfl <;> rfl

/-- What is accepted is valid, and would be written with the same fields. -/
theorem snsDemux_spec (lfcb hfcb shapeMsb gain lsA mux : Nat) (h1 : lfcb < 32) (h2 : hfcb < 32)
    (h3 : shapeMsb = 0 ∨ shapeMsb = 1) (h4 : gain < 2 ^ (1 + shapeMsb)) (h5 : lsA = 0 ∨ lsA = 1) :
    let q := snsDemux lfcb hfcb shapeMsb gain (decide (lsA ≠ 0)) mux
    (q.1 = 0 ∨ q.1 = -1) ∧ (q.1 = 0 → q.2.Valid ∧ opsSns q.2 =
      [.bits lfcb 5, .bits hfcb 5, .bits shapeMsb 1, .bits gain (1 + shapeMsb), .bits lsA 1,
        .bits mux (25 - shapeMsb)]) := by
  have hls := b2n_decide lsA h5
  have g1 : ∀ x : Nat, x &&& 1 = x % 2 := fun x => Nat.and_one_is_mod x
  have g2 : ∀ x : Nat, x >>> 1 = x / 2 := fun x => Nat.shiftRight_eq_div_pow x 1
  unfold snsDemux
  rcases h3 with rfl | rfl
  · simp only [if_true]
    by_cases c1 : mux ≥ 2390004 * 14
    · simp only [if_pos c1]; exact ⟨by simp, fun e => absurd e (by decide)⟩
    · simp only [if_neg c1]
      by_cases c2 : mux / 2390004 < 2
      · simp only [if_pos c2]
        refine ⟨by simp, fun _ => ⟨⟨h1, h2, by simp, ?_, ?_, ?_⟩, ?_⟩⟩
        · change _ < 4; dsimp only; omega
        · change _ < 2390004; dsimp only; omega
        · exact ⟨rfl, rfl⟩
        · simp only [opsSns, hls, show (1 : Nat) >>> 1 = 0 from rfl, show 1 &&& 1 = 1 from rfl, if_true,
            if_neg (show ¬ (1 = 0) by decide), List.cons_append, List.nil_append, g1, g2]
          rw [show (2 * gain + mux / 2390004 % 2) / 2 = gain by omega,
            show (2 * gain + mux / 2390004 % 2) % 2 * 2390004 + mux % 2390004 = mux by omega]
      · simp only [if_neg c2]
        refine ⟨by simp, fun _ => ⟨⟨h1, h2, by simp, ?_, ?_, ?_⟩, ?_⟩⟩
        · change _ < 2; dsimp only; omega
        · change _ < 2390004; dsimp only; omega
        · change (mux / 2390004 - 2) / 2 < 6; omega
        · have hb := b2n_decide ((mux / 2390004 - 2) % 2) (by omega)
          simp only [opsSns, hls, hb, show (0 : Nat) >>> 1 = 0 from rfl, show 0 &&& 1 = 0 from rfl,
            if_true, List.cons_append, List.nil_append, Nat.shiftRight_zero]
          rw [show (2 * ((mux / 2390004 - 2) / 2 + 1) + (mux / 2390004 - 2) % 2) * 2390004 +
            mux % 2390004 = mux by omega]
  · simp only [if_neg (show ¬ (1 = 0) by decide)]
    by_cases c1 : mux ≥ 15158272 + 1549824
    · simp only [if_pos c1]; exact ⟨by simp, fun e => absurd e (by decide)⟩
    · simp only [if_neg c1]
      by_cases c2 : mux < 15158272
      · simp only [if_pos c2]
        refine ⟨by simp, fun _ => ⟨⟨h1, h2, by simp, ?_, c2, ⟨rfl, rfl⟩⟩, ?_⟩⟩
        · change _ < 4; dsimp only; omega
        · simp only [opsSns, hls, show (2 : Nat) >>> 1 = 1 from rfl, show 2 &&& 1 = 0 from rfl, if_true,
            if_neg (show ¬ (1 = 0) by decide), List.cons_append, List.nil_append, Nat.shiftRight_zero]
      · simp only [if_neg c2]
        refine ⟨by simp, fun _ => ⟨⟨h1, h2, by simp, ?_, ?_, ⟨rfl, rfl⟩⟩, ?_⟩⟩
        · change _ < 8; dsimp only; omega
        · change _ < 774912; dsimp only; omega
        · simp only [opsSns, hls, show (3 : Nat) >>> 1 = 1 from rfl, show 3 &&& 1 = 1 from rfl,
            if_neg (show ¬ (1 = 0) by decide), List.cons_append, List.nil_append, g1, g2]
          rw [show (2 * gain + (mux - 15158272) % 2) / 2 = gain by omega,
            show 15158272 + 2 * ((mux - 15158272) / 2) + (2 * gain + (mux - 15158272) % 2) % 2 = mux by
              omega]

/-- The fields of `lc3_sns_get_data`. -/
theorem getSns_fields (F : List Nat) (r : Bits) (h : RInv F r) :
    ∃ lfcb hfcb shapeMsb gain lsA mux r1 r2 r3 r4 r5 r6,
      getBits r 5 = (lfcb, r1) ∧ getBits r1 5 = (hfcb, r2) ∧ getBits r2 1 = (shapeMsb, r3) ∧
      getBits r3 (1 + shapeMsb) = (gain, r4) ∧ getBits r4 1 = (lsA, r5) ∧
      getBits r5 (25 - shapeMsb) = (mux, r6) ∧
      lfcb < 32 ∧ hfcb < 32 ∧ (shapeMsb = 0 ∨ shapeMsb = 1) ∧ gain < 2 ^ (1 + shapeMsb) ∧
      (lsA = 0 ∨ lsA = 1) ∧ RInv F r6 := by
  obtain ⟨a1, a2⟩ := getBits_safe F 5 r h (by omega)
  rcases e1 : getBits r 5 with ⟨lfcb, r1⟩
  rw [e1] at a1 a2
  obtain ⟨b1, b2⟩ := getBits_safe F 5 r1 a2 (by omega)
  rcases e2 : getBits r1 5 with ⟨hfcb, r2⟩
  rw [e2] at b1 b2
  obtain ⟨c1, c2⟩ := getBits_safe F 1 r2 b2 (by omega)
  rcases e3 : getBits r2 1 with ⟨shapeMsb, r3⟩
  rw [e3] at c1 c2
  dsimp only at c1
  obtain ⟨d1, d2⟩ := getBits_safe F (1 + shapeMsb) r3 c2 (by omega)
  rcases e4 : getBits r3 (1 + shapeMsb) with ⟨gain, r4⟩
  rw [e4] at d1 d2
  obtain ⟨f1, f2⟩ := getBits_safe F 1 r4 d2 (by omega)
  rcases e5 : getBits r4 1 with ⟨lsA, r5⟩
  rw [e5] at f1 f2
  dsimp only at f1
  obtain ⟨g1, g2⟩ := getBits_safe F (25 - shapeMsb) r5 f2 (by omega)
  rcases e6 : getBits r5 (25 - shapeMsb) with ⟨mux, r6⟩
  rw [e6] at g2
  exact ⟨lfcb, hfcb, shapeMsb, gain, lsA, mux, r1, r2, r3, r4, r5, r6, rfl, e2, e3, e4, e5, e6,
    a1, b1, by omega, d1, by omega, g2⟩

theorem getSns_safe (F : List Nat) (r : Bits) (h : RInv F r) :
    RInv F (getSns r).2.2 ∧ ((getSns r).1 = 0 ∨ (getSns r).1 = -1) ∧
    ((getSns r).1 = 0 → (getSns r).2.1.Valid ∧
      readAll r ((opsSns (getSns r).2.1).map Op.shape) =
        ((opsSns (getSns r).2.1).map Op.val, (getSns r).2.2)) := by
  obtain ⟨lfcb, hfcb, shapeMsb, gain, lsA, mux, r1, r2, r3, r4, r5, r6, e1, e2, e3, e4, e5, e6,
    h1, h2, h3, h4, h5, h6⟩ := getSns_fields F r h
  rw [getSns_demux r lfcb hfcb shapeMsb gain lsA mux r1 r2 r3 r4 r5 r6 e1 e2 e3 e4 e5 e6]
  obtain ⟨s1, s2⟩ := snsDemux_spec lfcb hfcb shapeMsb gain lsA mux h1 h2 h3 h4 h5
  refine ⟨h6, s1, fun e => ⟨(s2 e).1, ?_⟩⟩
  rw [(s2 e).2]
  simp only [List.map_cons, List.map_nil, Op.shape, Op.val, readAll, Shape.read, e1, e2, e3, e4, e5, e6]

end LC3
