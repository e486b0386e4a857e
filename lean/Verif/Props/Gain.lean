import Verif.Lemmas.Gain
import Verif.Props.Rate

/-!
Properties of the rate control: C47 (the decision is valid), C46 (complete analysis), C48 (overflow of the gain estimation).
-/

namespace LC3

variable {R : Type}

/-! ### C47: the decision of the rate control is valid -/

theorem gainOffset_le (sr : Srate) (nbytes : Nat) : gainOffset sr nbytes ≤ 255 := by
  unfold gainOffset
  dsimp only
  split <;> omega

theorem computeNbits_nonneg (dt : Dt) (sr : Srate) (nbytes : Nat) (mags : List Nat) (hm : ∀ a ∈ mags, a < 2 ^ 32) (b : Int) :
    0 ≤ (computeNbits dt sr nbytes mags b).nbits := by
  unfold computeNbits
  dsimp only
  have := rateLoop_end (highRate sr nbytes) (lsbAllowed sr nbytes) (ne dt sr) (if b ≠ 0 then b * 2048 else 2147483647) 0 {} mags hm
    (by decide) (by decide) (by decide)
  dsimp only at this
  generalize rateLoop (highRate sr nbytes) (lsbAllowed sr nbytes) (ne dt sr) (if b ≠ 0 then b * 2048 else 2147483647) 0 {} mags = st
    at *
  split <;> omega

theorem computeNbits_n (dt : Dt) (sr : Srate) (nbytes : Nat) (mags : List Nat) (b : Int) :
    (computeNbits dt sr nbytes mags b).n % 2 = 0 ∧ (computeNbits dt sr nbytes mags b).n ≤ mags.length ∧
    ((computeNbits dt sr nbytes mags b).lsbMode = true → lsbAllowed sr nbytes = true) := by
  unfold computeNbits
  dsimp only
  obtain ⟨j, j0, j1, -, j2⟩ := rateLoop_prefix (highRate sr nbytes) (lsbAllowed sr nbytes) (ne dt sr)
    (if b ≠ 0 then b * 2048 else 2147483647) 0 {} mags
  refine ⟨?_, ?_, ?_⟩
  · rcases j2 with ⟨-, h, -⟩ | ⟨-, h, -⟩
    · rw [h]; rfl
    · rw [h]; omega
  · rcases j2 with ⟨-, h, -⟩ | ⟨-, h, -⟩
    · rw [h]; exact Nat.zero_le _
    · rw [h]; omega
  · intro h
    rw [Bool.and_eq_true] at h
    exact h.1

theorem magnitudes_spec (A : Arith R) (sr : Srate) (n : Nat) (x : List R) (m : List Nat) (h : magnitudes A sr n x = some m) :
    m = ((x.take n).map (quantCoef A sr.hr)).map Prod.fst ∧ ∀ a ∈ m, a < 2 ^ 32 := by
  unfold magnitudes at h
  dsimp only at h
  split at h
  · rename_i hc
    injection h with h
    subst h
    refine ⟨by rw [List.map_map]; rfl, fun a ha => ?_⟩
    exact of_decide_eq_true (List.all_eq_true.mp hc a ha)
  · cases h

/-- The spectrum is only scaled, by the inverse of a gain, and possibly a second time by the inverse of its adjustment. -/
def Scaled (A : Arith R) (x y : List R) (g adj : Int) : Prop :=
  ∃ u, unquantizeGain A (-g) = some u ∧
    if adj = 0 then y = x.map fun v => A.mul v u
    else ∃ u', unquantizeGain A (-adj) = some u' ∧ y = x.map fun v => A.mul (A.mul v u) u'

/-- **C47.** Whatever the floating point implementation, the state of the rate control, the configuration and the
spectrum: the gain index fits in its 8 bits, the number of coefficients is even and within the spectrum, the LSB mode
is chosen only when allowed, the spectrum returned is the one given scaled by the gain of the index, and the decision is the one
of the bit consumption within the budget. -/
theorem C47_decision (A : Arith R) (G : GainMath R) (dt : Dt) (sr : Srate) (nbytes : Nat) (pitch : Bool) (tns : TnsData)
    (st st' : SpecSt R) (x y : List R) (hx : x.length = ne dt sr) (side : SpecSide)
    (h : specAnalyze A G dt sr nbytes pitch tns st x = some (st', y, side)) :
    side.Valid dt sr ∧ y.length = ne dt sr ∧ (side.lsbMode = true → lsbAllowed sr nbytes = true) ∧
    (∃ g adj : Int, (side.gIdx : Int) = g + adj + gainOffset sr nbytes ∧ Scaled A x y g adj ∧ -1 ≤ adj ∧
      (sr.hr = false → adj ≤ 2)) ∧
    ∃ n, n % 2 = 0 ∧ n ≤ ne dt sr ∧ ∀ d : SideData, d.spec = side → d.pitchPresent = pitch → d.tns = tns →
      RateAccepted A dt sr nbytes d y n := by
  unfold specAnalyze at h
  dsimp only at h
  obtain ⟨est, hest, h⟩ := Option.bind_eq_some_iff.mp h
  obtain ⟨⟨q, n1⟩, hq, h⟩ := Option.bind_eq_some_iff.mp h
  split at h
  · cases h
  obtain ⟨m1, hm1, h⟩ := Option.bind_eq_some_iff.mp h
  obtain ⟨⟨q2, n2⟩, hq2, h⟩ := Option.bind_eq_some_iff.mp h
  split at h
  · cases h
  obtain ⟨m2, hm2, h⟩ := Option.bind_eq_some_iff.mp h
  split at h
  · cases h
  rename_i hg0
  injection h with h
  rw [Prod.mk.injEq, Prod.mk.injEq] at h
  obtain ⟨-, hy, hside⟩ := h
  obtain ⟨r1, r2, r3⟩ := estimateGain_range _ _ _ _ _ _ _ _ _ _ hest
  obtain ⟨u, k, hu, e1, k1, k2, -⟩ := quantize_some A dt sr est.gInt x hx
  rw [hq] at e1
  injection e1 with e1
  rw [Prod.mk.injEq] at e1
  obtain ⟨eq1, en1⟩ := e1
  have hqlen : q.length = ne dt sr := by rw [eq1, List.length_map]; exact hx
  obtain ⟨em1, hm1⟩ := magnitudes_spec _ _ _ _ _ hm1
  have hn0 := computeNbits_nonneg dt sr nbytes m1 hm1 0
  have hn1 := computeNbits_n dt sr nbytes m1 0
  have hadj := adjustGain_range dt sr (gainOffset sr nbytes + est.gInt) (computeNbits dt sr nbytes m1 0).nbits
    (specBudget dt sr nbytes pitch tns) (gainOffset sr nbytes + est.gMin) (by omega) (by omega) hn0
  have hm1len : m1.length ≤ ne dt sr := by
    rw [em1, List.length_map, List.length_map, List.length_take]
    omega
  generalize computeNbits dt sr nbytes m1 0 = c1 at *
  generalize hA : adjustGain dt sr (gainOffset sr nbytes + est.gInt) c1.nbits (specBudget dt sr nbytes pitch tns)
    (gainOffset sr nbytes + est.gMin) = adj at *
  have hq2' : q2.length = ne dt sr ∧ (∃ k : Nat, n2 = k ∧ k % 2 = 0 ∧ k ≤ ne dt sr) ∧ Scaled A x q2 est.gInt adj := by
    by_cases c : adj = 0
    · rw [if_neg (fun h => h c)] at hq2
      injection hq2 with hq2
      rw [Prod.mk.injEq] at hq2
      refine ⟨by rw [← hq2.1]; exact hqlen, ⟨c1.n, hq2.2.symm, hn1.1, by omega⟩, u, hu, ?_⟩
      rw [if_pos c, ← hq2.1, eq1]
    · rw [if_pos c] at hq2
      obtain ⟨u', k', hu', e', k1', k2', -⟩ := quantize_some A dt sr adj q hqlen
      rw [hq2] at e'
      injection e' with e'
      rw [Prod.mk.injEq] at e'
      refine ⟨by rw [e'.1, List.length_map]; exact hqlen, ⟨k', e'.2, k1', k2'⟩, u, hu, ?_⟩
      rw [if_neg c]
      refine ⟨u', hu', ?_⟩
      rw [e'.1, eq1, List.map_map]
      rfl
  obtain ⟨hl2, ⟨k', ek', ke', kl'⟩, hsc⟩ := hq2'
  obtain ⟨em2, hm2⟩ := magnitudes_spec _ _ _ _ _ hm2
  have hn2 := computeNbits_n dt sr nbytes m2 (specBudget dt sr nbytes pitch tns)
  have hm2len : m2.length ≤ ne dt sr := by
    rw [em2, List.length_map, List.length_map, List.length_take]
    omega
  subst hy
  have e1 : side.gIdx = (est.gInt + adj + gainOffset sr nbytes).toNat := by rw [← hside]
  have e2 : side.nq = (computeNbits dt sr nbytes m2 (specBudget dt sr nbytes pitch tns)).n := by rw [← hside]
  have e3 : side.lsbMode = (computeNbits dt sr nbytes m2 (specBudget dt sr nbytes pitch tns)).lsbMode := by rw [← hside]
  refine ⟨⟨by omega, by rw [e2]; exact hn2.1, by rw [e2]; omega⟩, hl2, by rw [e3]; exact hn2.2.2, ?_, n2.toNat, by omega, by omega, ?_⟩
  · exact ⟨est.gInt, adj, by omega, hsc, hadj.2.2.1, hadj.2.2.2.2.1⟩
  · intro d h1 h2 h3
    unfold RateAccepted
    dsimp only
    rw [h1, h2, h3, e2, e3, ← em2]
    exact ⟨rfl, rfl⟩

/-- **C47**: the adjustment of the gain divides by a positive number, lowers the index only above the minimum and raises it
when the budget is exceeded, unless it is the maximum. -/
theorem C47_adjust (dt : Dt) (sr : Srate) (gIdx nbits budget gMin : Int) (h0 : gMin ≤ gIdx) (h1 : gIdx ≤ 255) (hn : 0 ≤ nbits) :
    let adj := adjustGain dt sr gIdx nbits budget gMin
    3 ≤ adjDelta sr nbits ∧ adjDelta sr nbits ≤ 107 ∧ gMin ≤ gIdx + adj ∧ gIdx + adj ≤ 255 ∧
    (nbits ≤ budget → adj ≤ 0) ∧ (budget < nbits → gIdx < 255 → 0 < adj) := by
  have := adjustGain_range dt sr gIdx nbits budget gMin h0 h1 hn
  have hd := adjDelta_range sr nbits hn
  exact ⟨hd.1, hd.2, this.1, this.2.1, this.2.2.2.2.2.1, this.2.2.2.2.2.2⟩

/-- Non-vacuity of C47: adjustments of all kinds. -/
example : adjustGain .m10 .k16 100 1000 2000 10 = -1 ∧ adjustGain .m10 .k16 10 1000 2000 10 = 0 ∧
    adjustGain .m10 .k16 100 2010 2000 10 = 1 ∧ adjustGain .m10 .k16 100 2500 2000 10 = 2 ∧
    adjustGain .m2_5 .k48hr 100 2500 2000 10 = 41 := by decide +kernel

/-! ### C46: from the analysis -/

theorem over_analysis :
    (specAnalyze (Arith.rounded rne24) floatMath .m10 .k8 71 false ⟨false, [[]]⟩ ⟨0, 0⟩ overX).any
      (fun r => decide (r.2.1 = overX) && decide (r.2.2 = overSide.spec)) = true := by
  decide +kernel

theorem over_refused24 (sh32 : Nat → Nat) (junk : LtpfData) :
    (encodeFrame (Arith.rounded rne24) .m10 .k8 (List.replicate 71 0) overSide overX).any
      (fun F => isRefused (decodeFrame (Arith.rounded rne24) .m10 .k8 sh32 junk F)) = true := by
  run_tac do
    let g ← Lean.Elab.Tactic.getMainGoal
    g.assign (Lean.mkApp2 (.const ``Eq.refl [1]) (.const ``Bool []) (.const ``Bool.true []))

/-- **C46**, refuted from the analysis, in the arithmetic of binary32: for the first frame of an encoder at 8 kHz with 71 bytes,
`lc3_spec_analyze` selects on the spectrum `overX` the gain index 166 and retains 64 coefficients. The frame then encoded is refused
by the decoder. -/
theorem C46_refuted_from_analysis :
    ∃ st' F, specAnalyze (Arith.rounded rne24) floatMath .m10 .k8 71 false overSide.tns ⟨0, 0⟩ overX =
        some (st', overX, overSide.spec) ∧
      encodeFrame (Arith.rounded rne24) .m10 .k8 (List.replicate 71 0) overSide overX = some F ∧
      ∀ sh32 junk, ∃ r, decodeFrame (Arith.rounded rne24) .m10 .k8 sh32 junk F = (.refused, r) := by
  have h := over_analysis
  rw [Option.any_eq_true] at h
  obtain ⟨⟨st', y, s⟩, h1, h2⟩ := h
  rw [Bool.and_eq_true, decide_eq_true_eq, decide_eq_true_eq] at h2
  dsimp only at h2
  obtain ⟨rfl, rfl⟩ := h2
  have h3 := over_refused24 id ⟨false, 0⟩
  rw [Option.any_eq_true] at h3
  obtain ⟨F, hF, -⟩ := h3
  refine ⟨st', F, h1, hF, fun sh32 junk => ?_⟩
  have h := over_refused24 sh32 junk
  rw [hF, Option.any_some] at h
  generalize decodeFrame (Arith.rounded rne24) .m10 .k8 sh32 junk F = w at *
  obtain ⟨o, r⟩ := w
  cases o with
  | refused => exact ⟨r, rfl⟩
  | ub => cases h
  | ok => cases h

/-- **C46**, what holds, from the analysis: with the decision of `lc3_spec_analyze`, whatever the arithmetic, and with the bound on
the number of symbols of `C46_fits_partial`, the frame fits and is accepted by the decoder. -/
theorem C46_analysis_partial (A : Arith R) (G : GainMath R) (dt : Dt) (sr : Srate) (data : List Nat) (hd : Bytes data)
    (h4 : 4 ≤ data.length) (side : SideData) (st st' : SpecSt R) (x y : List R) (hx : x.length = ne dt sr)
    (h : specAnalyze A G dt sr data.length side.pitchPresent side.tns st x = some (st', y, side.spec))
    (hbw : BwValid sr side.bw) (htns : side.tns.Valid dt side.bw data.length) (hsns : side.sns.Valid)
    (hltpf : side.pitchPresent = true → side.ltpf.pitchIndex < 512)
    (hmag : ∀ v ∈ y, (quantCoef A sr.hr v).1 < if sr.hr then 2 ^ 24 else 2 ^ 16)
    (hb : 0 < specBudget dt sr data.length side.pitchPresent side.tns)
    (hs : 1 + tnsSyms side.tns + symCount ((y.take side.spec.nq).map fun v => (quantCoef A sr.hr v).1) ≤
      44 * (1 + b2n sr.hr + min ((data.length - 1) / 160) 2)) :
    ∃ bE, encodeBits A dt sr data side y = some bE ∧ 0 ≤ bitsLeftRaw bE ∧
      (2 ≤ side.spec.nq → ∀ sh32 junk, ∃ sd s r,
        decodeFrame A dt sr sh32 junk (flushBits bE).buf.data = (.ok (sd, s), r) ∧ sd.spec = side.spec ∧
        s.xq.length = side.spec.nq) := by
  obtain ⟨h1, h2, -, -, n, -, -, h3⟩ := C47_decision A G dt sr data.length side.pitchPresent side.tns st st' x y hx side.spec h
  exact C46_fits_partial A dt sr data hd h4 side ⟨hbw, h1, htns, hsns, hltpf⟩ y h2 n hmag hb (h3 side rfl rfl rfl) hs

/-! ### C48: the gain estimation does not overflow -/

/-- The smoothed offset stays within 40 bits, in exact arithmetic: a state of the encoder satisfies the hypothesis, and so does
the next one (`off` is zero or this value). -/
theorem C48_offset (G : GainMath Rat) (hG : ∀ a b, G.min a b = min a b) (st : SpecSt Rat) (h : |st.off| ≤ 40) :
    |nbitsOffset Arith.exact G st| ≤ 40 := by
  unfold nbitsOffset
  dsimp only [Arith.exact, Arith.ofInt, id]
  rw [hG]
  have h1 : ∀ a b : Rat, (if a ≤ b then b else a) = max a b := by
    intro a b
    split
    · rw [max_eq_right (by assumption)]
    · rw [max_eq_left (by linarith)]
  rw [h1]
  rw [abs_le] at h ⊢
  generalize st.off + (st.spare : Rat) = o
  have h2 : (-40 : Rat) ≤ min (max o ((-40 : Int) : Rat)) ((40 : Int) : Rat) := by
    refine le_min ?_ (by norm_num)
    refine le_trans ?_ (le_max_right _ _)
    norm_num
  have h3 : min (max o ((-40 : Int) : Rat)) ((40 : Int) : Rat) ≤ 40 := by
    refine le_trans (min_le_right _ _) ?_
    norm_num
  generalize min (max o ((-40 : Int) : Rat)) ((40 : Int) : Rat) = w at *
  constructor <;> linarith

theorem gainSum_le (gn M : Int) (l : List Int) (h : ∀ e ∈ l, e ≤ M) : gainSum gn l ≤ l.length * gainF (M - gn) := by
  induction l with
  | nil => simp [gainSum]
  | cons e l ih =>
    unfold gainSum
    have h1 := gainF_mono (e - gn) (M - gn) (by have := h e (by simp); omega)
    have h2 := ih (fun x hx => h x (by simp [hx]))
    rw [List.length_cons]
    push_cast
    rw [add_mul, one_mul]
    omega

theorem gainBlocks_length (A : Arith R) (x : List R) (m : R) : (gainBlocks A x m).2.length = x.length / 4 := by
  fun_induction gainBlocks A x m with
  | case1 x0 x1 x2 x3 l m y0 y1 y2 y3 r ih =>
    have : r.2.length = l.length / 4 := ih
    simp only [List.length_cons]
    omega
  | case2 l m h =>
    have : l.length < 4 := by
      match l, h with
      | [], _ => simp
      | [_], _ => simp
      | [_, _], _ => simp
      | [_, _, _], _ => simp
      | a :: b :: c :: d :: l, h => exact absurd rfl (h a b c d l)
    simp
    omega

/-- **C48**, what holds: the gain estimation is defined when the energies of the blocks are at most `M` (`10*log10`, in
`1/65536`), where the cost of all the blocks at `M`, for the first gain tried, is in the range of `int`. Other
hypotheses: in high-resolution mode the slope is in the range of `int` (see `C48_slope`), and so is the number of bits given.

The other sums of the search never overflow, for any spectrum. -/
theorem C48_defined_partial (A : Arith R) (G : GainMath R) (dt : Dt) (sr : Srate) (x : List R) (hx : x.length ≤ 960) (nbytes : Nat)
    (budget : Int) (off : R) (gOff : Nat) (hg : gOff ≤ 255) (nf : R) (M : Int)
    (hnf : noiseFloor A G dt sr nbytes x (G.sqrt (gainBlocks A x (A.ofRat 0)).1) = some nf)
    (hM : (x.length / 4 : Nat) * gainF (M - (127 - gOff) * 46811) ≤ 2147483647)
    (he : ∀ v ∈ (gainBlocks A x (A.ofRat 0)).2,
      -100000000 ≤ G.db (A.max (A.add v nf) (A.ofRat (1/10000000000))) ∧
      G.db (A.max (A.add v nf) (A.ofRat (1/10000000000))) ≤ 100000000 ∧
      G.db (A.max (A.add v nf) (A.ofRat (1/10000000000))) ≤ M)
    (hb : -5200 ≤ A.trunc (A.add (A.add (A.ofInt budget) off) (A.ofRat (1/2))) ∧
      A.trunc (A.add (A.add (A.ofInt budget) off) (A.ofRat (1/2))) ≤ 5200) :
    ∃ est, estimateGain A G dt sr x nbytes budget off gOff = some est := by
  unfold estimateGain
  dsimp only
  rw [hnf, Option.bind_some, i32_ok _ (by omega) (by omega), Option.bind_some]
  have hlen : (((gainBlocks A x (A.ofRat 0)).2.map fun v => G.db (A.max (A.add v nf) (A.ofRat (1/10000000000)))).reverse).length =
      x.length / 4 := by
    rw [List.length_reverse, List.length_map, gainBlocks_length]
  have hmem : ∀ e ∈ ((gainBlocks A x (A.ofRat 0)).2.map fun v => G.db (A.max (A.add v nf) (A.ofRat (1/10000000000)))).reverse,
      (-100000000 ≤ e ∧ e ≤ 100000000) ∧ e ≤ M := by
    intro e h
    rw [List.mem_reverse] at h
    obtain ⟨v, hv, rfl⟩ := List.mem_map.mp h
    have := he v hv
    exact ⟨⟨this.1, this.2.1⟩, this.2.2⟩
  generalize ((gainBlocks A x (A.ofRat 0)).2.map fun v => G.db (A.max (A.add v nf) (A.ofRat (1/10000000000)))).reverse = l at *
  obtain ⟨g, hgs⟩ := gainSearch_defined (A.trunc (A.add (A.add (A.ofInt budget) off) (A.ofRat (1/2)))) hb.2 hb.1 gainSteps
    (by decide) (255 - gOff) (by omega) (by rw [gainSteps_sum]) (by rw [gainSteps_sum]; omega) l (by omega)
    (fun e h => (hmem e h).1) (by
      intro i hi
      have : i = 128 := by
        have : gainSteps.head? = some 128 := rfl
        rw [this] at hi
        exact (Option.some.inj hi).symm
      subst this
      have h1 := gainSum_le ((255 - (gOff : Int) - (128 : Nat)) * 46811) M l (fun e h => (hmem e h).2)
      rw [hlen, show (255 - (gOff : Int) - (128 : Nat)) = 127 - gOff by push_cast; omega] at h1
      rw [show (255 - (gOff : Int) - (128 : Nat)) = 127 - gOff by push_cast; omega]
      omega)
  obtain ⟨m, hm⟩ := gainMin_some A (A.ofRat (xLim sr)) (G.sqrt (gainBlocks A x (A.ofRat 0)).1) gainSteps (255 - gOff)
  rw [hgs, Option.bind_some, hm, Option.map_some]
  exact ⟨_, rfl⟩

/-- The hypothesis on `M` is met, for all the frames of a valid size: by 143 dB up to 32 kHz, that no 16 or 24 bits signal reaches,
by 123 dB at 48 kHz; but by 47 dB only at 96 kHz in high-resolution, and 81 dB at 48 kHz in high-resolution. -/
theorem C48_bounds (dt : Dt) (nbytes : Nat) :
    (∀ sr : Srate, sr.idx ≤ 3 → nbytes ≤ 400 →
      (ne dt sr / 4 : Nat) * gainF (143 * 65536 - (127 - gainOffset sr nbytes) * 46811) ≤ 2147483647) ∧
    (nbytes ≤ 400 → (ne dt .k48 / 4 : Nat) * gainF (123 * 65536 - (127 - gainOffset .k48 nbytes) * 46811) ≤ 2147483647) ∧
    (nbytes ≤ 625 → (ne dt .k48hr / 4 : Nat) * gainF (80 * 65536 - (127 - gainOffset .k48hr nbytes) * 46811) ≤ 2147483647) ∧
    (nbytes ≤ 625 → (ne dt .k96hr / 4 : Nat) * gainF (47 * 65536 - (127 - gainOffset .k96hr nbytes) * 46811) ≤ 2147483647) := by
  have aux : ∀ (n : Nat) (M gO c : Int), gO ≤ c → (n : Int) * gainF (M - (127 - c) * 46811) ≤ 2147483647 →
      (n : Int) * gainF (M - (127 - gO) * 46811) ≤ 2147483647 := by
    intro n M gO c h h2
    have h3 := gainF_mono (M - (127 - gO) * 46811) (M - (127 - c) * 46811) (by omega)
    have := mul_le_mul_of_nonneg_left h3 (Int.natCast_nonneg n)
    omega
  have hoff : ∀ sr n, (gainOffset sr n : Int) ≤ 105 + 5 * (1 + srInd sr) + min ((n * 8 / (10 * (1 + srInd sr)) : Nat) : Int) 115 := by
    intro sr n
    unfold gainOffset
    dsimp only
    omega
  have hoff6 : ∀ n, (gainOffset .k96hr n : Int) ≤ 181 := by
    intro n
    unfold gainOffset
    dsimp only
    rw [if_pos (by decide)]
    omega
  refine ⟨?_, ?_, ?_, ?_⟩
  · intro sr hs hn
    have h := hoff sr nbytes
    cases sr with
    | k8 => exact aux _ _ _ 225 (by simp [srInd, Srate.hr, Srate.idx] at h; omega) (by cases dt <;> decide +kernel)
    | k16 => exact aux _ _ _ 230 (by simp [srInd, Srate.hr, Srate.idx] at h; omega) (by cases dt <;> decide +kernel)
    | k24 => exact aux _ _ _ 226 (by simp [srInd, Srate.hr, Srate.idx] at h; omega) (by cases dt <;> decide +kernel)
    | k32 => exact aux _ _ _ 205 (by simp [srInd, Srate.hr, Srate.idx] at h; omega) (by cases dt <;> decide +kernel)
    | k48 => exact absurd hs (by decide)
    | k48hr => exact absurd hs (by decide)
    | k96hr => exact absurd hs (by decide)
  · intro hn
    have h := hoff .k48 nbytes
    exact aux _ _ _ 194 (by simp [srInd, Srate.hr, Srate.idx] at h; omega) (by cases dt <;> decide +kernel)
  · intro hn
    have h := hoff .k48hr nbytes
    exact aux _ _ _ 230 (by simp [srInd, Srate.hr, Srate.idx] at h; omega) (by cases dt <;> decide +kernel)
  · intro hn
    exact aux _ _ _ 181 (hoff6 nbytes) (by cases dt <;> decide +kernel)

set_option maxRecDepth 10000 in
/-- **C48**, refuted: at 96 kHz in high-resolution mode with 625 bytes, the `int` accumulator of `estimate_gain` overflows on a flat
spectrum of magnitude 200, the one of a white noise 44 dB below the full scale. The slope and the noise
floor are defined. -/
theorem C48_refuted :
    (lowBits (Arith.rounded rne24) floatMath .m10 (List.replicate 960 200)).isSome = true ∧
    specAnalyze (Arith.rounded rne24) floatMath .m10 .k96hr 625 false ⟨false, [[], []]⟩ ⟨0, 0⟩ (List.replicate 960 200) = none := by
  refine ⟨by decide +kernel, ?_⟩
  rw [← Option.isSome_eq_false_iff.trans Option.isNone_iff_eq_none]
  decide +kernel

set_option maxRecDepth 10000 in
/-- Same at 48 kHz in high-resolution mode, with a white noise 14 dB below the full scale. -/
theorem C48_refuted_48k :
    (lowBits (Arith.rounded rne24) floatMath .m10 (List.replicate 480 6500)).isSome = true ∧
    specAnalyze (Arith.rounded rne24) floatMath .m10 .k48hr 625 false ⟨false, [[], []]⟩ ⟨0, 0⟩ (List.replicate 480 6500) = none := by
  refine ⟨by decide +kernel, ?_⟩
  rw [← Option.isSome_eq_false_iff.trans Option.isNone_iff_eq_none]
  decide +kernel

set_option maxRecDepth 10000 in
/-- The slope of the spectrum, in high-resolution mode, is converted to `int` without a limit: undefined for a spectrum
of which only the first coefficient is not zero. -/
theorem C48_slope :
    lowBits (Arith.rounded rne24) floatMath .m2_5 (20000 :: List.replicate 119 0) = none := by
  decide +kernel

/-- Non-vacuity of `C48_defined_partial`: the energies of the blocks of the spectrum `overX`, analysed in `C46_refuted_from_analysis`. -/
example : (gainBlocks (Arith.rounded rne24) overX 0).2.all (fun v =>
    let e := floatMath.db ((Arith.rounded rne24).max v (1/10000000000))
    decide (-100000000 ≤ e) && decide (e ≤ 143 * 65536)) = true ∧ (127 - gainOffset .k8 71 : Int) = -39 := by decide +kernel

end LC3
