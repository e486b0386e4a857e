import Verif.Props.Level
import Verif.Props.Encoder
import Verif.Props.Resync
import Verif.Props.Silent

/-!
C62: from `lc3_encode` to `lc3_decode`.
-/

namespace LC3

variable {R α β : Type} [Inhabited R]

theorem core_frame (P : EncPlatform R) (hA : CandidatesOk P.A) (e : Enc R) (he : EncInv e) (n : Nat) (hn : n ≤ 625) (u : EncJunk R)
    (data f : List Nat) (e' : Enc R) (hd : data.length = n) (h : encCore P u n data e = some (f, e')) :
    ∃ (side : SideData) (st' : SpecSt R) (x y : List R), Encodable e.dt e.sr n side ∧ x.length = ne e.dt e.sr ∧ y.length = ne e.dt e.sr ∧
      specAnalyze P.A P.G e.dt e.sr n side.pitchPresent side.tns e.spec x = some (st', y, side.spec) ∧
      (e.bypass = true → side.pitchPresent = false) ∧ (∃ e1, encAnalyze P u n e = some (side, e1) ∧ e1.xs.take (ne e.dt e.sr) = y) ∧
      ∀ data', data'.length = n → encodeFrame P.A e.dt e.sr data' side y = some f := by
  obtain ⟨us, p1, p2, p3, p4⟩ := encPitch_spec P e he
  obtain ⟨s, s1, s3, s2⟩ := analyze_stages P hA e he n (by omega)
  have hdims := dec_dims e.dt e.sr e.srPcm he.rate
  have hlen : (s.x.take (ne e.dt e.sr)).length = ne e.dt e.sr := by
    obtain ⟨d4, d5, d6, -, -⟩ := hdims
    rw [List.length_take, s1.x]; omega
  unfold encCore at h
  have s2' := s2 u
  rw [s2 u] at h
  cases hp : encPitch P u e with
  | none => rw [hp] at h; cases h
  | some q =>
    obtain ⟨p, l, t⟩ := q
    rw [hp, Option.bind_some] at h
    dsimp only at h
    cases hs : specAnalyze P.A P.G e.dt e.sr n p s.tns e.spec (s.x.take (ne e.dt e.sr)) with
    | none => rw [hs] at h; cases h
    | some w =>
      obtain ⟨st, y, sp⟩ := w
      rw [hs, Option.bind_some, Option.bind_some] at h
      dsimp only at h
      rw [hp, Option.bind_some, hs, Option.bind_some] at s2'
      obtain ⟨g1, g2, -⟩ := C47_decision P.A P.G e.dt e.sr n p s.tns e.spec st _ y hlen sp hs
      have g3 := specAnalyze_coded P.A P.G e.dt e.sr n p s.tns e.spec st _ y sp hs
      obtain ⟨-, q2, q3, -⟩ := p4 u u p l t hp
      have hE : Encodable e.dt e.sr n (s.side e.bypass (p, l) sp) := ⟨s1.bw, g1, s1.tns, s1.sns, fun h => by
        have := q2 h
        unfold Stages.side
        dsimp only
        split
        · exact this
        · exact this⟩
      obtain ⟨f', f1, f2, f3⟩ := encodeFrame_total P.A e.dt e.sr n (s.side e.bypass (p, l) sp) hE y g2 g3
      rw [List.take_append_of_le_length (by omega), List.take_of_length_le (by omega), f3 data hd, Option.bind_some] at h
      have h := Option.some.inj h
      rw [Prod.mk.injEq] at h
      obtain ⟨rfl, -⟩ := h
      exact ⟨s.side e.bypass (p, l) sp, st, s.x.take (ne e.dt e.sr), y, hE, hlen, g2, hs, q3, ⟨_, s2', by
        dsimp only
        rw [List.take_append_of_le_length (by omega), List.take_of_length_le (by omega)]⟩, f3⟩

/-- **C62**, the frame: after any sequence of calls, a call of `lc3_encode` that returns 0 has written the frame of a valid side
information, of which the gain and the number of coefficients are those of the rate control, on the spectrum in quantisation steps; nothing of
the previous content of the output, nor of uninitialised memory, remains in it. -/
theorem C62_frame (P : EncPlatform R) (hA : CandidatesOk P.A) (hr : Bool) (dtUs srHz srPcmHz : Int) (ops : List (EncOp R α))
    (rets : List (Option (Int × List Nat))) (e : Enc R) (h : EncPlayed P hr dtUs srHz srPcmHz ops rets e) (c : EncCall R α)
    (hc : c.Ok (ns e.dt e.srPcm)) (out : List Nat) (e' : Option (Enc R)) (hd : lc3Encode P c (some e) = some (0, out, e')) :
    20 ≤ c.nbytes ∧ c.nbytes ≤ maxFrameBytes e.dt e.sr ∧ (out.take c.nbytes.toNat).length = c.nbytes.toNat ∧
    ∃ (v : List (Int × R)) (e1 : Enc R) (side : SideData) (st' : SpecSt R) (x y : List R), c.samples (ns e.dt e.srPcm) = some v ∧
      encAnalyze P c.junk c.nbytes.toNat (encLoad v e) = some (side, e1) ∧ e1.xs.take (ne e.dt e.sr) = y ∧
      Encodable e.dt e.sr c.nbytes.toNat side ∧ x.length = ne e.dt e.sr ∧ y.length = ne e.dt e.sr ∧
      specAnalyze P.A P.G e.dt e.sr c.nbytes.toNat side.pitchPresent side.tns e.spec x = some (st', y, side.spec) ∧
      (EncOp.disableLtpf ∈ ops → side.pitchPresent = false) ∧
      ∀ data, data.length = c.nbytes.toNat → encodeFrame P.A e.dt e.sr data side y = some (out.take c.nbytes.toNat) := by
  obtain ⟨hi, -, -, -, -, hb⟩ := h.inv hA
  have hn : ¬ (c.nbytes < minFrameBytes e.dt e.sr ∨ c.nbytes > maxFrameBytes e.dt e.sr) := by
    intro hn
    rw [(C09_encode_rejected P c).2 e hn] at hd
    have hd := Option.some.inj hd
    rw [Prod.mk.injEq] at hd
    exact absurd hd.1 (by decide)
  obtain ⟨n0, n1⟩ := maxFrame_int e.dt e.sr c.nbytes hn
  have hmin : 20 ≤ minFrameBytes e.dt e.sr := by
    have := hi.cfg
    revert this
    unfold Config
    cases e.dt <;> cases e.sr <;> decide
  obtain ⟨v, v1, v2, v3⟩ := samples_some c _ hc
  have hl := load_inv e hi v v2 v3
  have hdata : (c.out.take c.nbytes.toNat).length = c.nbytes.toNat := by
    have := hc.out
    rw [List.length_take]; omega
  unfold lc3Encode at hd
  dsimp only at hd
  rw [if_neg hn, encProcess_core P c e v v1 hc.out, Option.map_map] at hd
  obtain ⟨⟨f, e1⟩, h1, h2⟩ := Option.map_eq_some_iff.1 hd
  dsimp only [Function.comp] at h2
  rw [Prod.mk.injEq, Prod.mk.injEq] at h2
  obtain ⟨-, rfl, rfl⟩ := h2
  obtain ⟨us, s, u1, u2, u3, u6, u4, u5⟩ := core_spec P hA (encLoad v e) hl c.nbytes.toNat n1
  obtain ⟨g1, g2, -⟩ := u5 c.junk _ f e1 hdata h1
  obtain ⟨side, st', x, y, a1, a2, a3, a4, a5, ⟨e2, a7, a8⟩, a6⟩ := core_frame P hA (encLoad v e) hl c.nbytes.toNat n1 c.junk _ f e1 hdata h1
  have ht : (f ++ c.out.drop c.nbytes.toNat).take c.nbytes.toNat = f := by
    rw [List.take_append_of_le_length (by omega), List.take_of_length_le (by omega)]
  rw [ht]
  exact ⟨by omega, by omega, g1, v, e2, side, st', x, y, v1, a7, a8, a1, a2, a3, a4, fun h => a5 (hb.2 h), a6⟩

/-- What the encoder does not check: that the magnitudes can be coded, and that the arithmetic coder keeps within the bits counted. The second
alternative is a frame without coefficient. -/
def Fits (A : Arith R) (dt : Dt) (sr : Srate) (nbytes : Nat) (side : SideData) (y : List R) : Prop :=
  (2 ≤ side.spec.nq ∧ 0 < specBudget dt sr nbytes side.pitchPresent side.tns ∧
    (∀ v ∈ y, (quantCoef A sr.hr v).1 < if sr.hr then 2 ^ 24 else 2 ^ 16) ∧
    1 + tnsSyms side.tns + symCount ((y.take side.spec.nq).map fun v => (quantCoef A sr.hr v).1) ≤
      44 * (1 + b2n sr.hr + min ((nbytes - 1) / 160) 2)) ∨
  (side.spec.nq = 0 ∧ ∀ f ∈ side.tns.filters, f = [])

/-- **C62**, what holds of the acceptance: after any sequence of calls, the frame written by a call of `lc3_encode` that returns 0 is accepted by
any decoder of the same configuration, whatever it has received before, its output rate and the format: `lc3_decode` returns 0, and it reads the
side information of the encoder; out of the LSB mode, the integer spectrum is the quantised spectrum of the encoder. The condition `Fits` is not
checked by the code, and `C46_refuted_from_analysis`, `C61_level_refuted`, `C26_not_silent` show that the analysis does not ensure it. -/
theorem C62_accepted_partial (P : EncPlatform R) (hA : CandidatesOk P.A) (hz : P.A.isZero (P.A.ofInt 0) = true) (hr : Bool)
    (dtUs srHz srPcmHz : Int) (ops : List (EncOp R α)) (rets : List (Option (Int × List Nat))) (e : Enc R)
    (h : EncPlayed P hr dtUs srHz srPcmHz ops rets e) (c : EncCall R α) (hc : c.Ok (ns e.dt e.srPcm)) (out : List Nat) (e' : Option (Enc R))
    (hd : lc3Encode P c (some e) = some (0, out, e')) :
    ∃ (v : List (Int × R)) (e1 : Enc R) (side : SideData) (y : List R), c.samples (ns e.dt e.srPcm) = some v ∧
      encAnalyze P c.junk c.nbytes.toNat (encLoad v e) = some (side, e1) ∧ e1.xs.take (ne e.dt e.sr) = y ∧
      (Fits P.A e.dt e.sr c.nbytes.toNat side y → ∀ (P' : Platform R) (dtUs' srHz' srPcmHz' : Int) (calls : List (DecCall R β)) (rets' : List Int)
        (d : Dec R) (mem : Int → β), P'.A = P.A → Played P' hr dtUs' srHz' srPcmHz' calls rets' d mem → d.dt = e.dt → d.sr = e.sr →
        ∀ c' : DecCall R β, Gives c' (out.take c.nbytes.toNat) →
          ∃ (d' : Dec R) (mem' : Int → β) (sd : SideData) (s : SpecData R), lc3Decode P' c' (some d) mem = some (0, some d', mem') ∧
            (decodeFrame P'.A d.dt d.sr P'.sh32 c'.junk.ltpf (out.take c.nbytes.toNat)).1 = .ok (sd, s) ∧
            sd = { side with spec := { side.spec with nq := max 2 side.spec.nq }
                             ltpf := if side.pitchPresent then side.ltpf else c'.junk.ltpf } ∧
            (side.spec.lsbMode = false → side.spec.nq ≠ 0 →
              s.quant = (y.take side.spec.nq).map fun v => (quantCoef P.A e.sr.hr v).val)) := by
  obtain ⟨n0, n1, hlen, v, e1, side, st', x, y, w1, w2, w3, h1, h2, h3, h4, -, h6⟩ := C62_frame P hA hr dtUs srHz srPcmHz ops rets e h c hc out e' hd
  refine ⟨v, e1, side, y, w1, w2, w3, ?_⟩
  intro hfit P' dtUs' srHz' srPcmHz' calls rets' d mem hPA hp hdt hsr c' hc'
  have hdata : (List.replicate c.nbytes.toNat 0).length = c.nbytes.toNat := List.length_replicate
  have hbytes : Bytes (List.replicate c.nbytes.toNat 0) := by
    intro b hb
    rw [List.eq_of_mem_replicate hb]; decide
  -- the frame is decoded
  have key : ∀ sh32 junk, ∃ (s : SpecData R) (r : Bits), decodeFrame P.A e.dt e.sr sh32 junk (out.take c.nbytes.toNat) =
      (.ok ({ side with spec := { side.spec with nq := max 2 side.spec.nq }
                        ltpf := if side.pitchPresent then side.ltpf else junk }, s), r) ∧
      (side.spec.lsbMode = false → side.spec.nq ≠ 0 →
              s.quant = (y.take side.spec.nq).map fun v => (quantCoef P.A e.sr.hr v).val) := by
    intro sh32 junk
    rcases hfit with ⟨f1, f2, f3, f4⟩ | ⟨f1, f2⟩
    · obtain ⟨bE, b1, b2, -⟩ := C46_analysis_partial P.A P.G e.dt e.sr (List.replicate c.nbytes.toNat 0) hbytes (by omega) side e.spec st' x y h2
        (by rw [hdata]; exact h4) h1.bw (by rw [hdata]; exact h1.tns) h1.sns h1.ltpf f3 (by rw [hdata]; exact f2) (by rw [hdata]; exact f4)
      obtain ⟨k1, k2, s, r, k3, k4, k5, k6, -⟩ := C25_round_trip P.A e.dt e.sr (List.replicate c.nbytes.toNat 0) hbytes (by omega) sh32 junk side
        (by rw [hdata]; exact h1) f1 y h3 (fun v hv => f3 v (List.mem_of_mem_take hv)) bE b1 b2
      rw [h6 _ hdata] at k1
      have k1 := Option.some.inj k1
      rw [← k1] at k3
      refine ⟨s, r, ?_, fun hl _ => k6 hl⟩
      rw [k3, Nat.max_eq_right f1]
    · obtain ⟨F, s, r, k1, k2, -, -⟩ := C26_silent_partial P.A hz e.dt e.sr (List.replicate c.nbytes.toNat 0) hbytes (by omega) sh32 junk side
        (by rw [hdata]; exact h1) f1 f2 y h3
      rw [h6 _ hdata] at k1
      have k1 := Option.some.inj k1
      rw [← k1] at k2
      refine ⟨s, r, ?_, fun _ hn => absurd f1 hn⟩
      rw [k2, f1]
      rfl
  obtain ⟨i1, -⟩ := hp.inv
  obtain ⟨j1, j2⟩ := hc'.frame_eq
  have hgood : FrameGood P' d.dt d.sr (out.take c.nbytes.toNat) := by
    refine ⟨by omega, by rw [hdt, hsr]; omega, ⟨false, 0⟩, ?_⟩
    obtain ⟨s, r, k, -⟩ := key P'.sh32 ⟨false, 0⟩
    exact ⟨_, s, by rw [hPA, hdt, hsr, k]⟩
  obtain ⟨d2, xs, xd, g, t, e2, sd, s, q1, q2, -⟩ := goodCall P' c' d mem i1 hc'.ok _ j1 j2 hgood
  refine ⟨_, _, sd, s, q2, q1, ?_⟩
  obtain ⟨s', r, k1, k2⟩ := key P'.sh32 c'.junk.ltpf
  rw [hPA, hdt, hsr, k1] at q1
  injection q1 with q1
  rw [Prod.mk.injEq] at q1
  obtain ⟨rfl, rfl⟩ := q1
  exact ⟨rfl, k2⟩

/-- **C62**, the level: when the operations round to 24 bits, the condition on the magnitudes in `Fits` follows from the level of the
spectrum given to the rate control. -/
theorem C62_level_partial (rnd : Rat → Rat) (hrnd : Round24 rnd) (P : EncPlatform Rat) (hP : P.A = Arith.rounded rnd) (hA : CandidatesOk P.A)
    (hG : SqrtOk P.G.sqrt) (hr : Bool) (dtUs srHz srPcmHz : Int) (ops : List (EncOp Rat α)) (rets : List (Option (Int × List Nat))) (e : Enc Rat)
    (h : EncPlayed P hr dtUs srHz srPcmHz ops rets e) (c : EncCall Rat α) (hc : c.Ok (ns e.dt e.srPcm)) (out : List Nat) (e' : Option (Enc Rat))
    (hd : lc3Encode P c (some e) = some (0, out, e')) :
    ∃ (v : List (Int × Rat)) (e1 : Enc Rat) (side : SideData) (x y : List Rat), c.samples (ns e.dt e.srPcm) = some v ∧
      encAnalyze P c.junk c.nbytes.toNat (encLoad v e) = some (side, e1) ∧ e1.xs.take (ne e.dt e.sr) = y ∧
      (∃ st', specAnalyze P.A P.G e.dt e.sr c.nbytes.toNat side.pitchPresent side.tns e.spec x = some (st', y, side.spec)) ∧
      ((∀ v ∈ x, |((v : Rat) : ℝ)| ≤ (if e.sr.hr then 32767 * 256 else 32767) *
          (10 : ℝ) ^ ((255 - gainOffset e.sr c.nbytes.toNat : ℝ) / 28)) →
        2 ≤ side.spec.nq → 0 < specBudget e.dt e.sr c.nbytes.toNat side.pitchPresent side.tns →
        1 + tnsSyms side.tns + symCount ((y.take side.spec.nq).map fun v => (quantCoef P.A e.sr.hr v).1) ≤
          44 * (1 + b2n e.sr.hr + min ((c.nbytes.toNat - 1) / 160) 2) →
        Fits P.A e.dt e.sr c.nbytes.toNat side y) := by
  obtain ⟨n0, n1, hlen, v, e1, side, st', x, y, w1, w2, w3, h1, h2, h3, h4, -, h6⟩ :=
    C62_frame P hA hr dtUs srHz srPcmHz ops rets e h c hc out e' hd
  refine ⟨v, e1, side, x, y, w1, w2, w3, ⟨st', h4⟩, ?_⟩
  intro l1 l2 l3 l4
  refine Or.inl ⟨l2, l3, ?_, l4⟩
  rw [hP] at h4 ⊢
  exact C61_magnitudes_partial rnd hrnd P.G hG e.dt e.sr c.nbytes.toNat side.pitchPresent side.tns e.spec st' x y h2 side.spec h4 l1

instance (A : Arith R) (dt : Dt) (sr : Srate) (nbytes : Nat) (side : SideData) (y : List R) : Decidable (Fits A dt sr nbytes side y) := by
  unfold Fits; infer_instance

set_option maxRecDepth 100000 in
theorem exFits : (((encSetup exEncPlat.A false 2500 8000 0 true).join).bind fun e =>
    ((exEncCall 20 (List.replicate 22 7) ⟨⟨true, 7⟩, fun _ => 3⟩).samples (ns e.dt e.srPcm)).bind fun v =>
    (encAnalyze exEncPlat ⟨⟨true, 7⟩, fun _ => 3⟩ 20 (encLoad v e)).map fun r =>
      decide (Fits exEncPlat.A e.dt e.sr 20 r.1 (r.2.xs.take (ne e.dt e.sr))) && decide (r.1.spec.nq ≠ 0)) = some true := by
  decide +kernel

set_option maxRecDepth 100000 in
theorem exFits_ret : (((encSetup exEncPlat.A false 2500 8000 0 true).join).bind fun e =>
    lc3Encode exEncPlat (exEncCall 20 (List.replicate 22 7) ⟨⟨true, 7⟩, fun _ => 3⟩) (some e)).map (fun r => r.1) = some 0 := by
  decide +kernel

/-- Non vacuity: the first frame of the encoder of `exEncRun_outputs` satisfies `Fits`, with coded coefficients; it is accepted by any decoder at
8 kHz and 2.5 ms, whatever it received before. -/
example (P' : Platform Rat) (hPA : P'.A = Arith.exact) (calls : List (DecCall Rat Int)) (rets : List Int) (d : Dec Rat) (mem : Int → Int)
    (hp : Played P' false 2500 8000 0 calls rets d mem) :
    ∃ (e : Enc Rat) (out : List Nat) (e' : Option (Enc Rat)), encSetup exEncPlat.A false 2500 8000 0 true = some (some e) ∧
      lc3Encode exEncPlat (exEncCall 20 (List.replicate 22 7) ⟨⟨true, 7⟩, fun _ => 3⟩) (some e) = some (0, out, e') ∧
      ∀ c' : DecCall Rat Int, Gives c' (out.take 20) → ∃ d' mem', lc3Decode P' c' (some d) mem = some (0, some d', mem') := by
  obtain ⟨e0, h0⟩ : ∃ e0, encSetup exEncPlat.A false 2500 8000 0 true = some (some e0) := ⟨_, rfl⟩
  have hf := exFits
  have h1 := exFits_ret
  rw [h0, Option.join_some, Option.bind_some] at hf h1
  obtain ⟨v, hv, hf⟩ := Option.bind_eq_some_iff.1 hf
  obtain ⟨⟨side, e1⟩, hs, hf⟩ := Option.map_eq_some_iff.1 hf
  rw [Bool.and_eq_true, decide_eq_true_eq] at hf
  obtain ⟨⟨r, out, e'⟩, h1, h2⟩ := Option.map_eq_some_iff.1 h1
  dsimp only at h2
  subst h2
  have hpl : EncPlayed exEncPlat false 2500 8000 0 ([] : List (EncOp Rat Int)) [] e0 := ⟨fun c hc => (by cases hc), e0, h0, rfl⟩
  refine ⟨e0, out, e', h0, h1, fun c' hc' => ?_⟩
  obtain ⟨v', e1', side', y', q1, q2, q3, q4⟩ := C62_accepted_partial exEncPlat exEncCandidates (by decide +kernel) false 2500 8000 0 [] [] e0 hpl _
    (exEncCall_ok _ _ _ _ (by decide)) out e' h1 (β := Int)
  rw [hv] at q1
  injection q1 with q1
  subst q1
  have q2' : encAnalyze exEncPlat ⟨⟨true, 7⟩, fun _ => 3⟩ 20 (encLoad v e0) = some (side', e1') := q2
  rw [hs] at q2'
  injection q2' with q2'
  rw [Prod.mk.injEq] at q2'
  obtain ⟨rfl, rfl⟩ := q2'
  subst q3
  obtain ⟨-, rE1, rE2, -⟩ := hpl.inv exEncCandidates
  obtain ⟨-, rD1, rD2, -⟩ := hp.inv
  obtain ⟨d', mem', sd, s, z1, -⟩ := q4 hf.1 P' 2500 8000 0 calls rets d mem hPA hp (Option.some.inj (rD1.symm.trans rE1))
    (Option.some.inj (rD2.symm.trans rE2)) c' hc'
  exact ⟨d', mem', z1⟩

end LC3
