import Verif.Lemmas.FidelityField

/-!
C78: from the samples given to the encoder to the spectrum of the decoder, in exact arithmetic: the whole chain (transform, noise shaping, temporal
noise shaping, rate control, quantisation, arithmetic coding, noise filling) is transparent, up to an error bounded by the quantisation step.
-/

namespace LC3

open Fld

variable {K : Type} [Field K] [LinearOrder K] [IsStrictOrderedRing K] [FloorRing K]

/-- What is used of the power of 2. -/
structure Exp2Ok (M : SnsMath K) : Prop where
  inv : ∀ v, M.exp2 (-v) * M.exp2 v = 1
  pos : ∀ v, 0 < M.exp2 v

theorem exp2Ok_real : Exp2Ok SnsMath.real := by
  refine ⟨fun v => ?_, fun v => Real.rpow_pos_of_pos (by norm_num) _⟩
  change (2 : ℝ) ^ (-v) * (2 : ℝ) ^ v = 1
  rw [← Real.rpow_add (by norm_num), neg_add_cancel, Real.rpow_zero]

theorem nf_range (dt : Dt) (bw : Nat) (h : bw ≤ 6) : 3 * (1 + dt.idx) ≤ tnsNf dt bw := by
  have : bw = 0 ∨ bw = 1 ∨ bw = 2 ∨ bw = 3 ∨ bw = 4 ∨ bw = 5 ∨ bw = 6 := by omega
  rcases this with rfl | rfl | rfl | rfl | rfl | rfl | rfl <;> cases dt <;> decide

theorem bw_le (sr : Srate) (bw : Nat) (h : BwValid sr bw) : bw ≤ 6 := by
  unfold BwValid at h
  have hi : sr.idx ≤ 6 := by cases sr <;> decide
  split at h <;> omega

theorem invFilters_nil {R : Type} (A : Arith R) (nf : Nat) (rcs : List (List R)) (h : ∀ rc ∈ rcs, rc = []) (f i0 : Nat) (s x : List R) :
    invFilters A nf rcs f i0 s x = some x := by
  induction rcs generalizing f i0 with
  | nil => rfl
  | cons rc rcs ih =>
    rw [invFilters]
    dsimp only
    rw [if_pos (by rw [h rc List.mem_cons_self]; rfl)]
    exact ih (fun r hr => h r (List.mem_cons_of_mem _ hr)) _ _

theorem tnsSynthesize_nil {R : Type} (A : Arith R) (dt : Dt) (bw : Nat) (d : TnsData) (h : ∀ f ∈ d.filters, f = []) (x : List R) :
    tnsSynthesize A dt bw d x = some x := by
  obtain ⟨l, l1, -, l3⟩ := mapM_prop (unquantizeRc A) (fun rc => rc = []) d.filters (fun f hf => ⟨[], by rw [h f hf]; rfl, rfl⟩)
  unfold tnsSynthesize
  rw [l1, Option.bind_some]
  exact invFilters_nil _ _ _ l3 _ _ _ _

/-- The synthesis of the spectrum by the decoder, from the spectrum `x` of the encoder and an error `E`: the spectrum before the
analysis by the encoder, and the synthesis of the error. -/
theorem synth_sum (P : Platform K) (hA : P.A = Arith.ofField K) (hM : Exp2Ok P.M) (dt : Dt) (sr srPcm : Srate) (hc : Config dt sr)
    (hrate : sr.idx ≤ srPcm.idx) (side : SideData) (nbytes : Nat) (hbw : BwValid sr side.bw) (htns : side.tns.Valid dt side.bw nbytes)
    (scf : List K) (hscf : snsDecodeScf P.A P.M side.sns = some scf) (hsl : scf.length = 16) (Y xn x : List K) (hY : ne dt sr ≤ Y.length)
    (hsh : spectralShaping P.A P.M dt sr scf false none Y = some xn) (hxl : xn.length = x.length) (hlen : ne dt sr ≤ x.length)
    (hx : tnsSynthesize P.A dt side.bw side.tns x = some xn) (z : List K) (hz : z.length = ne dt sr) :
    ∃ E D Xh : List K, goodSpectrum P dt sr srPcm side (padSpectrum P.A dt sr z) = some Xh ∧ goodSpectrum P dt sr srPcm side E = some D ∧
      E.length = ns dt sr ∧ Xh.length = ns dt srPcm ∧ D.length = ns dt srPcm ∧
      (∀ j, j < ne dt sr → E.getD j 0 = z.getD j 0 - x.getD j 0) ∧ (∀ j, ne dt sr ≤ j → E.getD j 0 = 0) ∧
      (∀ k, k < ne dt sr → Xh.getD k 0 = Y.getD k 0 + D.getD k 0) ∧
      (∀ k, ne dt sr ≤ k → Xh.getD k 0 = 0 ∧ D.getD k 0 = 0) ∧
      ((∀ f ∈ side.tns.filters, f = []) → ∀ k, k < ne dt sr → ∃ b, b < numBands dt sr ∧ (bandLim dt sr).getD b 0 ≤ k ∧
        k < (bandLim dt sr).getD (b + 1) 0 ∧ D.getD k 0 = (bandGains P.A P.M dt sr scf true).getD b 0 * E.getD k 0) := by
  obtain ⟨A, M, sq, sh⟩ := P
  dsimp only at hA hM hscf hsh hx ⊢
  subst hA
  obtain ⟨d1, d2, d3, d4, -⟩ := dec_dims dt sr srPcm hrate
  have hb6 := bw_le sr side.bw hbw
  have hst := bw_stop dt sr side.bw hbw
  -- the filters, on the lines coded only
  obtain ⟨w, w1, w2, -⟩ := C28_synthesize_defined (Arith.ofField K) dt side.bw nbytes side.tns htns (x.take (ne dt sr))
    (by rw [List.length_take]; omega)
  rw [List.length_take, Nat.min_eq_left hlen] at w2
  have app := tnsSynthesize_append (Arith.ofField K) dt side.bw (nf_range dt side.bw hb6) side.tns (x.take (ne dt sr))
  have a1 := app (x.drop (ne dt sr)) w w1
  rw [List.take_append_drop, hx] at a1
  have a1 := Option.some.inj a1
  have hw : ∀ k, k < ne dt sr → w.getD k 0 = xn.getD k 0 := by
    intro k hk
    rw [a1, List.getD_eq_getElem?_getD, List.getD_eq_getElem?_getD, List.getElem?_append_left (by omega)]
  have a2 := app (List.replicate (ns dt sr - ne dt sr) 0) w w1
  -- the error
  obtain ⟨E, hE⟩ : ∃ E, E = List.zipWith (fun a b => a - b) z (x.take (ne dt sr)) ++ List.replicate (ns dt sr - ne dt sr) (0 : K) := ⟨_, rfl⟩
  have hzl : (List.zipWith (fun a b => a - b) z (x.take (ne dt sr))).length = ne dt sr := by
    rw [List.length_zipWith, List.length_take]; omega
  have hEl : E.length = ns dt sr := by
    rw [hE, List.length_append, hzl, List.length_replicate]; omega
  have hE1 : ∀ j, j < ne dt sr → E.getD j 0 = z.getD j 0 - x.getD j 0 := by
    intro j hj
    rw [hE, List.getD_eq_getElem?_getD, List.getElem?_append_left (by omega), ← List.getD_eq_getElem?_getD, List.getD_eq_getElem _ _ (by omega),
      List.getElem_zipWith, List.getElem_take, List.getD_eq_getElem _ _ (by omega), List.getD_eq_getElem _ _ (by omega)]
  have hE2 : ∀ j, ne dt sr ≤ j → E.getD j 0 = 0 := by
    intro j hj
    rw [hE, List.getD_eq_getElem?_getD, List.getElem?_append_right (by omega), List.getElem?_replicate]
    split <;> rfl
  have hpad : padSpectrum (Arith.ofField K) dt sr z = ladd (x.take (ne dt sr) ++ List.replicate (ns dt sr - ne dt sr) 0) E := by
    apply List.ext_getElem
    · unfold padSpectrum ladd
      rw [List.length_zipWith, List.length_append, List.length_append, hEl, List.length_take, List.length_take, List.length_replicate, List.length_replicate]
      omega
    · intro k h1 h2
      have e1 : (x.take (ne dt sr) ++ List.replicate (ns dt sr - ne dt sr) (0 : K)).length = E.length := by
        rw [List.length_append, hEl, List.length_take, List.length_replicate]; omega
      rw [← List.getD_eq_getElem _ 0 h1, ← List.getD_eq_getElem _ 0 h2, ladd_getD _ _ e1]
      unfold padSpectrum
      rw [fld_zero]
      by_cases hk : k < ne dt sr
      · rw [hE1 k hk, List.getD_eq_getElem?_getD, List.getElem?_append_left (by rw [List.length_take]; omega), List.getElem?_take_of_lt hk,
          ← List.getD_eq_getElem?_getD, List.getD_eq_getElem?_getD (l := x.take (ne dt sr) ++ _),
          List.getElem?_append_left (by rw [List.length_take]; omega), List.getElem?_take_of_lt hk, ← List.getD_eq_getElem?_getD]
        ring
      · rw [hE2 k (by omega), List.getD_eq_getElem?_getD, List.getElem?_append_right (by rw [List.length_take]; omega), List.getElem?_replicate,
          List.getD_eq_getElem?_getD, List.getElem?_append_right (by rw [List.length_take]; omega), List.getElem?_replicate]
        split <;> split <;> simp
  obtain ⟨TE, t1, t2, -⟩ := C28_synthesize_defined (Arith.ofField K) dt side.bw nbytes side.tns htns E (by omega)
  have hwl : (w ++ List.replicate (ns dt sr - ne dt sr) (0 : K)).length = TE.length := by
    rw [List.length_append, List.length_replicate]; omega
  have t3 := tnsSynthesize_add dt side.bw nbytes side.tns htns _ _ _ _ (by
    rw [List.length_append, hEl, List.length_take, List.length_replicate]; omega) a2 t1
  -- the shaping
  have hrep : ne dt sr ≤ (List.replicate (ns dt srPcm) ((Arith.ofField K).ofRat 0)).length := by rw [List.length_replicate]; omega
  obtain ⟨Xh, x1, x2, x3, x4⟩ := shaping_spec (Arith.ofField K) M 0 dt sr hc scf hsl true
    (some (ladd (w ++ List.replicate (ns dt sr - ne dt sr) 0) TE)) (List.replicate (ns dt srPcm) ((Arith.ofField K).ofRat 0))
    (fun x' h => by cases h; rw [ladd_length _ _ hwl, hwl]; omega) hrep
  obtain ⟨D, y1, y2, y3, y4⟩ := shaping_spec (Arith.ofField K) M 0 dt sr hc scf hsl true
    (some TE) (List.replicate (ns dt srPcm) ((Arith.ofField K).ofRat 0)) (fun x' h => by cases h; omega) hrep
  obtain ⟨xn', z1, z2, z3, z4⟩ := shaping_spec (Arith.ofField K) M 0 dt sr hc scf hsl false none Y (by simp) hY
  rw [hsh] at z1
  obtain rfl := Option.some.inj z1
  rw [List.length_replicate] at x2 y2
  have hgain : ∀ b, b < numBands dt sr → (bandGains (Arith.ofField K) M dt sr scf false).getD b 0 *
      (bandGains (Arith.ofField K) M dt sr scf true).getD b 0 = 1 := by
    intro b hb
    obtain ⟨v, g1, g2⟩ := bandGains_fld M dt sr hc scf hsl b hb
    rw [g1, g2, hM.inv]
  have hzero : ∀ (L : List K), (∀ k, ne dt sr ≤ k → L[k]? = (List.replicate (ns dt srPcm) ((Arith.ofField K).ofRat 0))[k]?) →
      ∀ k, ne dt sr ≤ k → L.getD k 0 = 0 := by
    intro L hL k hk
    rw [List.getD_eq_getElem?_getD, hL k hk, List.getElem?_replicate, fld_zero]
    split <;> rfl
  refine ⟨E, D, Xh, ?_, ?_, hEl, x2, y2, hE1, hE2, ?_, fun k hk => ⟨hzero Xh x3 k hk, hzero D y3 k hk⟩, ?_⟩
  · unfold goodSpectrum snsSynthesize
    rw [hpad, t3, Option.bind_some, hscf, Option.bind_some, x1]
  · unfold goodSpectrum snsSynthesize
    rw [t1, Option.bind_some, hscf, Option.bind_some, y1]
  · intro k hk
    obtain ⟨b, c1, c2, c3⟩ := bandLim_exists dt sr hc k hk
    rw [x4 b c1 k c2 c3, y4 b c1 k c2 c3, Option.getD_some, Option.getD_some, ladd_getD _ _ hwl, List.getD_eq_getElem?_getD (l := w ++ _),
      List.getElem?_append_left (by omega), ← List.getD_eq_getElem?_getD, hw k hk, z4 b c1 k c2 c3, Option.getD_none]
    have := hgain b c1
    change (Y.getD k 0 * (bandGains (Arith.ofField K) M dt sr scf false).getD b 0 + TE.getD k 0) * _ = Y.getD k 0 + TE.getD k 0 * _
    rw [add_mul, mul_assoc, this, mul_one]
  · intro hf k hk
    obtain ⟨b, c1, c2, c3⟩ := bandLim_exists dt sr hc k hk
    refine ⟨b, c1, c2, c3, ?_⟩
    have hTE : TE = E := by
      rw [tnsSynthesize_nil _ _ _ _ hf] at t1
      exact (Option.some.inj t1).symm
    rw [y4 b c1 k c2 c3, Option.getD_some, hTE]
    exact mul_comm _ _

set_option maxHeartbeats 1000000 in
/-- **C78.** In exact arithmetic (of the real numbers, or of any ordered field with a function such as `2^-v 2^v = 1`), after any sequence of calls,
with `X` the transform of the samples given to a call of `lc3_encode` that returns 0, and `y` the coefficients in quantisation steps. When these fit in
the frame (`Fits`, see C62), with coded coefficients, the samples that any decoder of the same configuration outputs with this frame, whatever it
has received before and its output rate, are the inverse transform of the spectrum `X + D`, with `D` the synthesis of an error `E`
of 9/8 quantisation steps at most (17/8 in LSB mode), and of half a step more than the coefficient itself on the lines that are not coded; up to
`2 10^-7` because of the table of the gains. Out of the high-resolution mode the output is given when the post filter is not active. Without filter of
the temporal noise shaping, `D` is `E` times the gain of the band, given by the scale factors. -/
theorem C78_spectrum {α β : Type} [Inhabited K] (P : EncPlatform K) (hA : P.A = Arith.ofField K) (hcand : CandidatesOk P.A) (hM : Exp2Ok P.M) (hr : Bool)
    (dtUs srHz srPcmHz : Int) (ops : List (EncOp K α)) (rets : List (Option (Int × List Nat))) (e : Enc K)
    (h : EncPlayed P hr dtUs srHz srPcmHz ops rets e) (c : EncCall K α) (hc : c.Ok (ns e.dt e.srPcm)) (out : List Nat) (e' : Option (Enc K))
    (hd : lc3Encode P c (some e) = some (0, out, e')) :
    ∃ (v : List (Int × K)) (e1 : Enc K) (side : SideData) (X y scf : List K) (G : K), c.samples (ns e.dt e.srPcm) = some v ∧
      encAnalyze P c.junk c.nbytes.toNat (encLoad v e) = some (side, e1) ∧ e1.xs.take (ne e.dt e.sr) = y ∧
      (∀ u : Nat → K, mdctForward P.A P.sqrt (mdctTables P.A) e.dt e.srPcm e.sr ((List.range maxNs).map u) (v.map Prod.snd) e.xd (v.map Prod.snd) =
        some (X, e1.xd)) ∧
      unquantizeGain P.A ((side.spec.gIdx : Int) - gainOffset e.sr c.nbytes.toNat) = some G ∧ 0 < G ∧ snsDecodeScf P.A P.M side.sns = some scf ∧
      (Fits P.A e.dt e.sr c.nbytes.toNat side y → 2 ≤ side.spec.nq → ∀ (P' : Platform K) (dtUs' srHz' srPcmHz' : Int) (calls : List (DecCall K β))
        (rets' : List Int) (d : Dec K) (mem : Int → β), P'.A = P.A → P'.M = P.M → Played P' hr dtUs' srHz' srPcmHz' calls rets' d mem →
        d.dt = e.dt → d.sr = e.sr → ∀ c' : DecCall K β, Gives c' (out.take c.nbytes.toNat) →
          ∃ (d' : Dec K) (xs Xh E D t ed xd : List K),
            lc3Decode P' c' (some d) mem = some (0, some (complete d'), pcmStore c'.stride c'.base (xs.map c'.conv) mem) ∧
            win d.x d.xdOff (nd d.dt d.srPcm) = some xd ∧ invTransform P' d.dt d.sr d.srPcm Xh xd = some (t, ed) ∧
            win d'.x d'.xdOff (nd d.dt d.srPcm) = some ed ∧ SameConfig d d' ∧ (d.sr.hr = true → xs = t) ∧
            ((side.pitchPresent = true → side.ltpf.active = false) → (d.sr.hr = false → d'.ltpf.active = false) ∧ (d.ltpf.active = false → xs = t)) ∧
            goodSpectrum P' d.dt d.sr d.srPcm side E = some D ∧ Xh.length = ns d.dt d.srPcm ∧ E.length = ns d.dt d.sr ∧
            (∀ k, k < ne d.dt d.sr → Xh.getD k 0 = X.getD k 0 + D.getD k 0) ∧ (∀ k, ne d.dt d.sr ≤ k → Xh.getD k 0 = 0) ∧
            (∀ j, j < ne d.dt d.sr → |E.getD j 0| ≤ G * ((if j < side.spec.nq then (if side.spec.lsbMode then 17/8 else 9/8)
              else 1/2 + |y.getD j 0|) + |y.getD j 0| * 2 / 10 ^ 7)) ∧
            (∀ j, ne d.dt d.sr ≤ j → E.getD j 0 = 0) ∧
            ((∀ f ∈ side.tns.filters, f = []) → ∀ k, k < ne d.dt d.sr → ∃ b, b < numBands d.dt d.sr ∧ (bandLim d.dt d.sr).getD b 0 ≤ k ∧
              k < (bandLim d.dt d.sr).getD (b + 1) 0 ∧ 0 < (bandGains P'.A P'.M d.dt d.sr scf true).getD b 0 ∧
              Xh.getD k 0 - X.getD k 0 = (bandGains P'.A P'.M d.dt d.sr scf true).getD b 0 * E.getD k 0)) := by
  obtain ⟨n0, n1, hlen, v, e1, side, st', x, y, w1, w2, w3, h1, h2, h3, h4, -, h6⟩ := C62_frame P hcand hr dtUs srHz srPcmHz ops rets e h c hc out e' hd
  obtain ⟨hi, -⟩ := h.inv hcand
  obtain ⟨v', v1, v2, v3⟩ := samples_some c _ hc
  rw [w1] at v1
  obtain rfl := Option.some.inj v1
  have hl := load_inv e hi v v2 v3
  have hmax := maxFrame_le e.dt e.sr
  obtain ⟨s, s1, s2, s3⟩ := analyze_stages P hcand (encLoad v e) hl c.nbytes.toNat (by omega)
  have s3 := s3 c.junk
  rw [w2] at s3
  obtain ⟨pitch, -, s3⟩ := Option.bind_eq_some_iff.mp s3.symm
  obtain ⟨⟨st2, y2, sp⟩, hsp, s3⟩ := Option.bind_eq_some_iff.mp s3
  have s3 := Option.some.inj s3
  rw [Prod.mk.injEq] at s3
  obtain ⟨rfl, rfl⟩ := s3
  obtain ⟨m1, m2, m3, m4, -⟩ := dec_dims e.dt e.sr e.srPcm hi.rate
  have hxl : s.x.length = ns e.dt e.srPcm := s1.x
  have hx2 : (s.x.take (ne e.dt e.sr)).length = ne e.dt e.sr := by rw [List.length_take]; omega
  obtain ⟨c1, c2, -, ⟨g, adj, c3, c4, -, -⟩, -⟩ := C47_decision P.A P.G e.dt e.sr c.nbytes.toNat pitch.1 s.tns e.spec st2 _ y2 hx2 sp hsp
  have hy : y2 = y := by
    rw [← w3]
    change y2 = (y2 ++ _).take _
    rw [List.take_append_of_le_length (by omega), List.take_of_length_le (by omega)]
  subst hy
  -- the transform and the shaping
  have hyl : s.y.length = ns e.dt e.srPcm := by
    have hm := s2.mdct (fun _ => 0)
    obtain ⟨yy, dd, r1, r2, -, -⟩ := C49_forward_safe P.A P.sqrt e.dt e.srPcm e.sr hi.cfgPcm m1 ((List.range maxNs).map fun _ => (0 : K))
      (encLoad v e).xs (encLoad v e).xd (encLoad v e).xs (by simpa using m3) (le_of_eq hl.xs.symm) (le_of_eq hl.xd.symm) (le_of_eq hl.xs.symm)
    have r1' := hm.symm.trans r1
    have r1' := Option.some.inj r1'
    rw [Prod.mk.injEq] at r1'
    rw [r1'.1, r2]
    exact hl.xs
  have hebl : s.eb.length = numBands e.dt e.sr := by
    obtain ⟨ee, nn, r1, r2⟩ := C51_safe P.A e.dt e.sr hi.cfg s.y (by omega)
    have r1' := s2.energy.symm.trans r1
    have r1' := Option.some.inj r1'
    rw [Prod.mk.injEq] at r1'
    rw [r1'.1, r2]
  obtain ⟨sd0, xn0, scf, k1, k2, -, k3, -, k4, k5⟩ := C54_analysis P.A P.M hcand e.dt e.sr hi.cfg c.nbytes.toNat s.eb (by omega) s.att.1 s.y (by omega)
  have k1' := s2.shaping
  change snsAnalyzeFull P.A P.M e.dt e.sr c.nbytes.toNat s.eb s.att.1 s.y = _ at k1'
  rw [k1'] at k1
  have k1 := Option.some.inj k1
  rw [Prod.mk.injEq] at k1
  obtain ⟨rfl, rfl⟩ := k1
  obtain ⟨scf', k6, k7⟩ := snsDecodeScf_some P.A P.M s.sns k2
  rw [k4] at k6
  obtain rfl := Option.some.inj k6
  have hG : unquantizeGain P.A ((sp.gIdx : Int) - gainOffset e.sr c.nbytes.toNat) =
      some ((gainE ((sp.gIdx : Int) - gainOffset e.sr c.nbytes.toNat) : Rat) : K) := by rw [hA]; exact gain_fld _
  have hGp : (0 : K) < ((gainE ((sp.gIdx : Int) - gainOffset e.sr c.nbytes.toNat) : Rat) : K) := by exact_mod_cast gainE_pos _
  refine ⟨v, _, _, s.y, y2, scf, _, w1, w2, w3, s2.mdct, hG, hGp, k4, ?_⟩
  intro hfit hnq P' dtUs' srHz' srPcmHz' calls rets' d mem hPA hPM hp hdt hsr c' hc'
  have htn : tnsSynthesize P.A e.dt s.bw s.tns s.x = some s.xn := by
    have := s2.tns
    change tnsAnalyze P.A e.dt s.bw s.nn c.nbytes.toNat s.xn = _ at this
    rw [hA] at this ⊢
    have h7 : e.dt = .m7_5 → s.bw ≤ 4 := by
      intro h
      have hcf := hi.cfg
      have hbw := s1.bw
      change BwValid e.sr s.bw at hbw
      unfold Config at hcf
      unfold BwValid at hbw
      revert hcf hbw
      rw [h]
      cases e.sr <;> simp [Srate.hr, Srate.idx] <;> omega
    have := bw_stop e.dt e.sr s.bw s1.bw
    exact tns_round_trip e.dt s.bw (bw_le e.sr s.bw s1.bw) h7 s.nn c.nbytes.toNat s.xn (by omega) _ _ (by assumption)
  -- the frame
  have hdata : (List.replicate c.nbytes.toNat 0).length = c.nbytes.toNat := List.length_replicate
  have hbytes : Bytes (List.replicate c.nbytes.toNat 0) := by
    intro b hb
    rw [List.eq_of_mem_replicate hb]; decide
  have key : ∀ sh32 junk, ∃ (s' : SpecData K) (r : Bits), decodeFrame P.A e.dt e.sr sh32 junk (out.take c.nbytes.toNat) =
        (.ok ({ s.side (encLoad v e).bypass (pitch.1, pitch.2.1) sp with
          ltpf := if (s.side (encLoad v e).bypass (pitch.1, pitch.2.1) sp).pitchPresent then
            (s.side (encLoad v e).bypass (pitch.1, pitch.2.1) sp).ltpf else junk }, s'), r) ∧ s'.x.length = ne e.dt e.sr ∧
      ∀ j, j < ne e.dt e.sr → ∃ z n, s'.x.getD j 0 = ((gainE ((sp.gIdx : Int) - gainOffset e.sr c.nbytes.toNat) : Rat) : K) * (z + n) ∧
        (z ≠ 0 → n = 0) ∧ |n| ≤ 1/2 ∧ (sp.nq ≤ j → z = 0) ∧
        (j < sp.nq → |y2.getD j 0 - z| ≤ if sp.lsbMode then 13/8 else 5/8) := by
    intro sh32 junk
    rcases hfit with ⟨f1, f2, f3, f4⟩ | ⟨f1, f2⟩
    · obtain ⟨bE, b1, b2, -⟩ := C46_analysis_partial P.A P.G e.dt e.sr (List.replicate c.nbytes.toNat 0) hbytes (by omega) _ e.spec st' x y2 h2
        (by rw [hdata]; exact h4) h1.bw (by rw [hdata]; exact h1.tns) h1.sns h1.ltpf f3 (by rw [hdata]; exact f2) (by rw [hdata]; exact f4)
      have k1 := h6 _ hdata
      unfold encodeFrame at k1
      rw [b1, Option.map_some] at k1
      have k1 := Option.some.inj k1
      rw [hA] at b1 f3 ⊢
      have := frame_error e.dt e.sr (List.replicate c.nbytes.toNat 0) hbytes (by omega) sh32 junk _ (by rw [hdata]; exact h1) hnq y2 h3
        (fun v hv => f3 v (List.mem_of_mem_take hv)) bE b1 b2
      rw [k1, hdata] at this
      exact this
    · omega
  obtain ⟨i1, -⟩ := hp.inv
  obtain ⟨j1, j2⟩ := hc'.frame_eq
  have hgood : FrameGood P' d.dt d.sr (out.take c.nbytes.toNat) := by
    refine ⟨by omega, by rw [hdt, hsr]; omega, ⟨false, 0⟩, ?_⟩
    obtain ⟨s', r, k, -⟩ := key P'.sh32 ⟨false, 0⟩
    exact ⟨_, s', by rw [hPA, hdt, hsr, k]⟩
  obtain ⟨d2, xs, xd, Xh, t, ed, sd, s', q1, q2, q3, q4, q5, q6, q7, q8, q9, q10, q11, q12⟩ := goodCall P' c' d mem i1 hc'.ok _ j1 j2 hgood
  obtain ⟨s'', r, z1, z2, z3⟩ := key P'.sh32 c'.junk.ltpf
  rw [hPA, hdt, hsr, z1] at q1
  injection q1 with q1
  rw [Prod.mk.injEq] at q1
  obtain ⟨rfl, rfl⟩ := q1
  obtain ⟨E, D, Xh', o1, o2, o3, o4, o5, o6, o7, o8, o9, o10⟩ := synth_sum P' (hPA.trans hA) (by rw [hPM]; exact hM) d.dt d.sr d.srPcm i1.cfg i1.rate
    (s.side (encLoad v e).bypass (pitch.1, pitch.2.1) sp) c.nbytes.toNat (by rw [hsr]; exact h1.bw) (by rw [hdt]; exact h1.tns) scf
    (by rw [hPA, hPM]; exact k4) k7 s.y s.xn s.x (by rw [hdt, hsr]; omega) (by rw [hPA, hPM, hdt, hsr]; exact k5) (by omega) (by rw [hdt, hsr]; omega)
    (by rw [hPA, hdt]; exact htn) s''.x (by rw [hdt, hsr]; exact z2)
  have hX : Xh' = Xh := by
    have : some Xh' = some Xh := by
      rw [← o1, ← q6]; rfl
    exact Option.some.inj this
  subst hX
  refine ⟨d2, xs, Xh', E, D, t, ed, xd, q2, q5, q8, q9, q4, q11, ?_, o2, o4, o3, o8, fun k hk => (o9 k hk).1, ?_, o7, ?_⟩
  · intro hl0
    refine q12 ?_
    intro junk sd' s3 h5 h7
    obtain ⟨s4, r4, y1, -⟩ := key P'.sh32 junk
    rw [hPA, hdt, hsr, y1] at h5
    injection h5 with h5
    rw [Prod.mk.injEq] at h5
    obtain ⟨rfl, rfl⟩ := h5
    dsimp only at h7 ⊢
    rw [if_pos h7]
    exact hl0 h7
  · intro j hj
    rw [o6 j hj]
    rw [hdt, hsr] at hj
    obtain ⟨z, n, u1, u2, u3, u4, u5⟩ := z3 j hj
    have hs := scaled_error _ _ _ _ (hA ▸ c4) j
    have hxj : (s.x.take (ne e.dt e.sr)).getD j 0 = s.x.getD j 0 := by
      rw [List.getD_eq_getElem?_getD, List.getElem?_take_of_lt hj, ← List.getD_eq_getElem?_getD]
    rw [hxj, show g + adj = (sp.gIdx : Int) - gainOffset e.sr c.nbytes.toNat by omega] at hs
    rw [u1]
    change _ ≤ _ * ((if j < sp.nq then (if sp.lsbMode then 17/8 else 9/8) else 1/2 + |y2.getD j 0|) + _)
    generalize ((gainE ((sp.gIdx : Int) - gainOffset e.sr c.nbytes.toNat) : Rat) : K) = G at *
    generalize y2.getD j 0 = b at *
    generalize s.x.getD j 0 = a at *
    have e1 : G * (z + n) - a = G * ((z - b) + n) + (G * b - a) := by ring
    have e2 : |G * (z + n) - a| ≤ G * (|b - z| + |n|) + |G * b - a| := by
      rw [e1]
      refine (abs_add_le _ _).trans ?_
      rw [abs_mul, abs_of_pos hGp]
      have := abs_add_le (z - b) n
      rw [abs_sub_comm z b] at this
      have := mul_le_mul_of_nonneg_left this hGp.le
      linarith
    have e3 : |b - z| + |n| ≤ if j < sp.nq then (if sp.lsbMode then 17/8 else 9/8) else 1/2 + |b| := by
      by_cases hj2 : j < sp.nq
      · rw [if_pos hj2]
        have := u5 hj2
        by_cases hls : sp.lsbMode = true
        · rw [if_pos hls] at this ⊢; linarith
        · rw [if_neg hls] at this ⊢; linarith
      · rw [if_neg hj2, u4 (by omega), sub_zero]
        linarith
    have e4 := mul_le_mul_of_nonneg_left e3 hGp.le
    refine e2.trans ?_
    have := add_le_add e4 hs
    rw [← mul_add] at this
    exact this
  · intro hf k hk
    obtain ⟨b, b1, b2, b3, b4⟩ := o10 hf k hk
    refine ⟨b, b1, b2, b3, ?_, ?_⟩
    · obtain ⟨vv, -, g2⟩ := bandGains_fld P'.M d.dt d.sr i1.cfg scf k7 b b1
      rw [hPA, hA, g2, hPM]
      exact hM.pos _
    · rw [o8 k hk, b4]; ring

/-- C78 over the real numbers, with the powers of two of the codec: nothing is assumed of the platform, and the coefficients that the decoder gives to
its inverse transform are within the bound of the ones that the encoder obtained from its samples, when the frame carries no TNS filter. -/
theorem C78_real {α β : Type} (P : EncPlatform ℝ) (hA : P.A = Arith.real) (hM : P.M = SnsMath.real) (hr : Bool)
    (dtUs srHz srPcmHz : Int) (ops : List (EncOp ℝ α)) (rets : List (Option (Int × List Nat))) (e : Enc ℝ)
    (h : EncPlayed P hr dtUs srHz srPcmHz ops rets e) (c : EncCall ℝ α) (hc : c.Ok (ns e.dt e.srPcm)) (out : List Nat) (e' : Option (Enc ℝ))
    (hd : lc3Encode P c (some e) = some (0, out, e')) :
    ∃ (v : List (Int × ℝ)) (e1 : Enc ℝ) (side : SideData) (X y scf : List ℝ) (G : ℝ), c.samples (ns e.dt e.srPcm) = some v ∧
      encAnalyze P c.junk c.nbytes.toNat (encLoad v e) = some (side, e1) ∧ e1.xs.take (ne e.dt e.sr) = y ∧
      (∀ u : Nat → ℝ, mdctForward P.A P.sqrt (mdctTables P.A) e.dt e.srPcm e.sr ((List.range maxNs).map u) (v.map Prod.snd) e.xd (v.map Prod.snd) =
        some (X, e1.xd)) ∧
      unquantizeGain P.A ((side.spec.gIdx : Int) - gainOffset e.sr c.nbytes.toNat) = some G ∧ 0 < G ∧ snsDecodeScf P.A P.M side.sns = some scf ∧
      (Fits P.A e.dt e.sr c.nbytes.toNat side y → 2 ≤ side.spec.nq → (∀ f ∈ side.tns.filters, f = []) →
        ∀ (P' : Platform ℝ) (dtUs' srHz' srPcmHz' : Int) (calls : List (DecCall ℝ β))
        (rets' : List Int) (d : Dec ℝ) (mem : Int → β), P'.A = P.A → P'.M = P.M → Played P' hr dtUs' srHz' srPcmHz' calls rets' d mem →
        d.dt = e.dt → d.sr = e.sr → ∀ c' : DecCall ℝ β, Gives c' (out.take c.nbytes.toNat) →
          ∃ (d' : Dec ℝ) (xs Xh t ed xd : List ℝ),
            lc3Decode P' c' (some d) mem = some (0, some (complete d'), pcmStore c'.stride c'.base (xs.map c'.conv) mem) ∧
            win d.x d.xdOff (nd d.dt d.srPcm) = some xd ∧ invTransform P' d.dt d.sr d.srPcm Xh xd = some (t, ed) ∧
            (d.sr.hr = true → xs = t) ∧
            ((side.pitchPresent = true → side.ltpf.active = false) → d.ltpf.active = false → xs = t) ∧
            Xh.length = ns d.dt d.srPcm ∧ (∀ k, ne d.dt d.sr ≤ k → Xh.getD k 0 = 0) ∧
            (∀ k, k < ne d.dt d.sr → ∃ b, b < numBands d.dt d.sr ∧ (bandLim d.dt d.sr).getD b 0 ≤ k ∧
              k < (bandLim d.dt d.sr).getD (b + 1) 0 ∧ 0 < (bandGains P'.A P'.M d.dt d.sr scf true).getD b 0 ∧
              |Xh.getD k 0 - X.getD k 0| ≤ (bandGains P'.A P'.M d.dt d.sr scf true).getD b 0 *
                (G * ((if k < side.spec.nq then (if side.spec.lsbMode then 17/8 else 9/8) else 1/2 + |y.getD k 0|) + |y.getD k 0| * 2 / 10 ^ 7)))) := by
  obtain ⟨v, e1, side, X, y, scf, G, g1, g2, g3, g4, g5, g6, g7, g8⟩ := C78_spectrum (β := β) P (hA.trans ofField_real.symm)
    (by rw [hA]; exact candidatesOk_real) (by rw [hM]; exact exp2Ok_real) hr dtUs srHz srPcmHz ops rets e h c hc out e' hd
  refine ⟨v, e1, side, X, y, scf, G, g1, g2, g3, g4, g5, g6, g7, ?_⟩
  intro hf hn ht P' dtUs' srHz' srPcmHz' calls rets' d mem q1 q2 q3 q4 q5 c' hc'
  obtain ⟨d', xs, Xh, E, D, t, ed, xd, a1, a2, a3, -, -, a4, a5, a6, a7, a8, a9, a10, a11, a12, a13⟩ :=
    g8 hf hn P' dtUs' srHz' srPcmHz' calls rets' d mem q1 q2 q3 q4 q5 c' hc'
  refine ⟨d', xs, Xh, t, ed, xd, a1, a2, a3, a4, fun h => (a5 h).2, a7, a10, fun k hk => ?_⟩
  obtain ⟨b, b1, b2, b3, b4, b5⟩ := a13 ht k hk
  refine ⟨b, b1, b2, b3, b4, ?_⟩
  rw [b5, abs_mul, abs_of_pos b4]
  exact mul_le_mul_of_nonneg_left (a11 k hk) b4.le

/-! ### Concrete case -/

/-- Functions whose power of two has an exact inverse in the rationals. -/
def exFidMath : SnsMath Rat := { SnsMath.test with exp2 := fun v => if v < 0 then 1 / (1 - v) else 1 + v }

def exFidPlat : EncPlatform Rat := { exEncPlat with M := exFidMath }

theorem exFid_exp2 : Exp2Ok exFidPlat.M := by
  refine ⟨fun v => ?_, fun v => ?_⟩ <;> dsimp only [exFidPlat, exFidMath]
  · rcases lt_trichotomy v 0 with hv | rfl | hv
    · rw [if_neg (by linarith), if_pos hv]
      have : (1 - v) ≠ 0 := by linarith
      field_simp
      ring
    · norm_num
    · rw [if_pos (by linarith), if_neg (by linarith)]
      have : (1 + v) ≠ 0 := by linarith
      rw [sub_neg_eq_add]
      field_simp
  · split
    · have : 0 < 1 - v := by linarith
      positivity
    · linarith

set_option maxRecDepth 100000 in
theorem exFid_fits : (((encSetup exFidPlat.A false 2500 8000 0 true).join).bind fun e =>
    ((exEncCall 20 (List.replicate 22 7) ⟨⟨true, 7⟩, fun _ => 3⟩).samples (ns e.dt e.srPcm)).bind fun v =>
    (encAnalyze exFidPlat ⟨⟨true, 7⟩, fun _ => 3⟩ 20 (encLoad v e)).map fun r =>
      decide (Fits exFidPlat.A e.dt e.sr 20 r.1 (r.2.xs.take (ne e.dt e.sr))) &&
        decide (r.1.spec.nq = 20 ∧ r.1.spec.lsbMode = false ∧ r.1.tns.filters = [[]])) = some true := by
  decide +kernel

set_option maxRecDepth 100000 in
theorem exFid_ret : (((encSetup exFidPlat.A false 2500 8000 0 true).join).bind fun e =>
    lc3Encode exFidPlat (exEncCall 20 (List.replicate 22 7) ⟨⟨true, 7⟩, fun _ => 3⟩) (some e)).map (fun r => r.1) = some 0 := by
  decide +kernel

/-- Non vacuity: the first frame of this encoder meets the hypotheses of C78, all its coefficients are coded, and what any decoder at 8 kHz and 2.5 ms
gives to its inverse transform is within the bound, whatever it received before. -/
example (P' : Platform Rat) (hPA : P'.A = Arith.exact) (hPM : P'.M = exFidMath) (calls : List (DecCall Rat Int)) (rets : List Int) (d : Dec Rat)
    (mem : Int → Int) (hp : Played P' false 2500 8000 0 calls rets d mem) :
    ∃ (e : Enc Rat) (out : List Nat) (e' : Option (Enc Rat)) (X y : List Rat) (G : Rat),
      encSetup exFidPlat.A false 2500 8000 0 true = some (some e) ∧
      lc3Encode exFidPlat (exEncCall 20 (List.replicate 22 7) ⟨⟨true, 7⟩, fun _ => 3⟩) (some e) = some (0, out, e') ∧
      ∀ c' : DecCall Rat Int, Gives c' (out.take 20) → ∃ d' mem' Xh xd r, lc3Decode P' c' (some d) mem = some (0, some d', mem') ∧
        invTransform P' d.dt d.sr d.srPcm Xh xd = some r ∧
        ∀ k, k < 20 → ∃ g, 0 < g ∧ |Xh.getD k 0 - X.getD k 0| ≤ g * (G * (9 / 8 + |y.getD k 0| * 2 / 10 ^ 7)) := by
  obtain ⟨e0, h0⟩ : ∃ e0, encSetup exFidPlat.A false 2500 8000 0 true = some (some e0) := ⟨_, rfl⟩
  have hf := exFid_fits
  have h1 := exFid_ret
  rw [h0, Option.join_some, Option.bind_some] at hf h1
  obtain ⟨v, hv, hf⟩ := Option.bind_eq_some_iff.1 hf
  obtain ⟨⟨side, e1⟩, hs, hf⟩ := Option.map_eq_some_iff.1 hf
  rw [Bool.and_eq_true, decide_eq_true_eq, decide_eq_true_eq] at hf
  obtain ⟨f1, f2, f3, f4⟩ := hf
  obtain ⟨⟨r, out, e'⟩, h1, h2⟩ := Option.map_eq_some_iff.1 h1
  dsimp only at h2
  subst h2
  have hpl : EncPlayed exFidPlat false 2500 8000 0 ([] : List (EncOp Rat Int)) [] e0 := ⟨fun c hc => (by cases hc), e0, h0, rfl⟩
  obtain ⟨v', e1', side', X, y', scf, G, q1, q2, q3, -, -, -, -, q4⟩ := C78_spectrum (β := Int) exFidPlat ofField_exact.symm exEncCandidates exFid_exp2
    false 2500 8000 0 [] [] e0 hpl _ (exEncCall_ok _ _ _ _ (by decide)) out e' h1
  rw [hv] at q1
  injection q1 with q1
  subst q1
  have q2' : encAnalyze exFidPlat ⟨⟨true, 7⟩, fun _ => 3⟩ 20 (encLoad v e0) = some (side', e1') := q2
  rw [hs] at q2'
  injection q2' with q2'
  rw [Prod.mk.injEq] at q2'
  obtain ⟨rfl, rfl⟩ := q2'
  dsimp only at f1 f2 f3 f4
  rw [q3] at f1
  refine ⟨e0, out, e', X, y', G, h0, h1, fun c' hc' => ?_⟩
  obtain ⟨-, rE1, rE2, -⟩ := hpl.inv (show CandidatesOk exFidPlat.A from exEncCandidates)
  obtain ⟨-, rD1, rD2, -⟩ := hp.inv
  have hdt := Option.some.inj (rD1.symm.trans rE1)
  have hsr := Option.some.inj (rD2.symm.trans rE2)
  obtain ⟨d', xs, Xh, E, D, t, ed, xd, a1, a2, a3, -, -, a4, a5, a6, a7, a8, a9, a10, a11, a12, a13⟩ :=
    q4 f1 (by rw [f2]; decide) P' 2500 8000 0 calls rets d mem hPA hPM hp hdt hsr c' hc'
  have hne : ne d.dt d.sr = 20 := by
    have e1 : d.dt = .m2_5 := (Option.some.inj rD1).symm
    have e2 : d.sr = .k8 := (Option.some.inj rD2).symm
    rw [e1, e2]
    rfl
  refine ⟨_, _, Xh, xd, _, a1, a3, fun k hk => ?_⟩
  obtain ⟨b, b1, b2, b3, b4, b5⟩ := a13 (by rw [f4]; simp) k (by omega)
  refine ⟨_, b4, ?_⟩
  rw [b5, abs_mul, abs_of_pos b4]
  have := a11 k (by omega)
  rw [f2, f3, if_pos hk, if_neg (by decide)] at this
  exact mul_le_mul_of_nonneg_left this b4.le

end LC3
