import Verif.Lemmas.ZeroFrame
import Verif.Props.TimeDomain
import Verif.Props.Hostile

/-!
C90: digital silence is coded as digital silence, in single precision.
-/

namespace LC3

variable {α β : Type} {rnd : Rat → Rat}

/-- The samples of a call of `lc3_encode` are null. -/
def EncCall.Silent (c : EncCall Rat α) (n : Nat) : Prop := ∀ i : Nat, i < n → ∃ s, c.conv (c.pcm (c.base + i * c.stride)) = some (s, 0)

theorem EncCall.Silent.samples {c : EncCall Rat α} {n : Nat} (h : c.Silent n) (v : List (Int × Rat)) (hv : c.samples n = some v) :
    ∀ p ∈ v, p.2 = 0 := by
  obtain ⟨l1, l2⟩ := pcmLoad_spec c.stride c.pcm n c.base
  refine (mapM_outs (p := fun p : Int × Rat => p.2 = 0) _ _ hv ?_).2
  intro a ha p hp
  obtain ⟨i, hi, rfl⟩ := List.mem_iff_getElem.mp ha
  rw [l2 i hi] at hp
  obtain ⟨s, hs⟩ := h i (by omega)
  rw [hs] at hp
  cases hp; rfl

/-- A frame is decoded as a null spectrum, without temporal noise shaping. -/
structure SilentFrame (A : Arith Rat) (dt : Dt) (sr : Srate) (sh32 : Nat → Nat) (F : List Nat) (pitch : Bool) : Prop where
  low : 20 ≤ F.length
  high : F.length ≤ maxFrameBytes dt sr
  decode : ∀ junk, ∃ side s, (decodeFrame A dt sr sh32 junk F).1 = .ok (side, s) ∧ (∀ f ∈ side.tns.filters, f = []) ∧
    side.pitchPresent = pitch ∧ ∀ v ∈ s.x, v = 0

/-- The stages of the analysis of null samples: no temporal noise shaping, a null spectrum. -/
theorem stages_silent (h : RoundF rnd) (P : EncPlatform Rat) (hP : P.A = Arith.rounded rnd)
    (e : Enc Rat) (he : EncInv e) (hx : ∀ v ∈ e.xs, v = 0) (hd : ∀ v ∈ e.xd, v = 0) (n : Nat) (s : Stages Rat) (s1 : s.Ok e n) (s2 : s.Run P e n) :
    (∀ f ∈ s.tns.filters, f = []) ∧ s.tns.filters.length ≤ 2 ∧ AllZ (Arith.rounded rnd) s.x ∧ (s.x.take (ne e.dt e.sr)).length = ne e.dt e.sr := by
  have h0 : rnd 0 = 0 := h.zero
  have hz := zeroOk_rounded h0
  have hm := s2.mdct fun _ => rnd 0
  have hsh := s2.shaping
  have ht := s2.tns
  rw [hP] at hm hsh ht
  have zl : ∀ l : List Rat, (∀ v ∈ l, v = 0) → AllZ (Arith.rounded rnd) l := fun l hl v hv => (hl v hv).trans h0.symm
  have hy := (mdctForward_z hz P.sqrt _ _ _ _ _ _ _ _ (by
    intro v hv
    obtain ⟨i, -, rfl⟩ := List.mem_map.1 hv
    rfl) (zl _ hx) (zl _ hd) (zl _ hx) _ hm).1
  have hxn := snsAnalyzeFull_z hz P.M _ _ _ _ _ _ hy _ hsh
  obtain ⟨t1, t2⟩ := tnsAnalyze_silent h _ _ _ _ _ _ _ hxn ht
  have hxz : AllZ (Arith.rounded rnd) s.x := by rw [t2]; exact hxn
  obtain ⟨d4, d5, d6, -, -⟩ := dec_dims e.dt e.sr e.srPcm he.rate
  have hlen : (s.x.take (ne e.dt e.sr)).length = ne e.dt e.sr := by rw [List.length_take, s1.x]; omega
  have hfl : s.tns.filters.length ≤ 2 := by
    have := s1.tns.count
    have : tnsNfilters e.dt s.bw ≤ 2 := by
      unfold tnsNfilters
      generalize (decide (e.dt.idx ≥ 1) && decide (s.bw ≥ bwSwb)) = b
      cases b <;> decide
    omega
  exact ⟨t1, hfl, hxz, hlen⟩

theorem analysis_silent (h : RoundF rnd) (P : EncPlatform Rat) (hP : P.A = Arith.rounded rnd) (hA : CandidatesOk P.A) (hG : P.G.sqrt 0 = 0)
    (e : Enc Rat) (he : EncInv e) (hx : ∀ v ∈ e.xs, v = 0) (hd : ∀ v ∈ e.xd, v = 0) (n : Nat) (hn : 20 ≤ n) (hn' : n ≤ 625) (u : EncJunk Rat)
    (side : SideData) (e1 : Enc Rat) (ha : encAnalyze P u n e = some (side, e1)) :
    side.spec = ⟨0, 0, false⟩ ∧ (∀ f ∈ side.tns.filters, f = []) ∧ (∀ v ∈ e1.xs.take (ne e.dt e.sr), v = 0) ∧ e1.spec = ⟨0, 0⟩ := by
  have h0 : rnd 0 = 0 := h.zero
  obtain ⟨s, s1, s2, s3⟩ := analyze_stages P hA e he n (by omega)
  rw [s3 u] at ha
  obtain ⟨pitch, -, ha⟩ := Option.bind_eq_some_iff.1 ha
  obtain ⟨⟨st, y, sp⟩, hs, ha⟩ := Option.bind_eq_some_iff.1 ha
  dsimp only at ha
  rw [Option.some.injEq, Prod.mk.injEq] at ha
  obtain ⟨rfl, rfl⟩ := ha
  rw [hP] at hs
  obtain ⟨t1, hfl, hxz, hlen⟩ := stages_silent h P hP e he hx hd n s s1 s2
  obtain ⟨r1, r2, r3⟩ := specAnalyze_silent h P.G hG e.dt e.sr n hn pitch.1 s.tns t1 hfl e.spec st _ y hlen (hxz.take _) sp hs
  refine ⟨r1, t1, ?_, r3⟩
  dsimp only
  intro v hv
  exact ((r2.append (hxz.drop _)) v (List.mem_of_mem_take hv)).trans h0

/-- A call with null samples that returns 0, when the memory of the transform is null: the frame is silent. -/
theorem frame_silent (h : RoundF rnd) (P : EncPlatform Rat) (hP : P.A = Arith.rounded rnd) (hA : CandidatesOk P.A) (hG : P.G.sqrt 0 = 0)
    (hr : Bool) (dtUs srHz srPcmHz : Int) (ops : List (EncOp Rat α)) (rets : List (Option (Int × List Nat))) (e : Enc Rat)
    (hp : EncPlayed P hr dtUs srHz srPcmHz ops rets e) (hxd : ∀ w ∈ e.xd, w = 0) (c : EncCall Rat α) (hc : c.Ok (ns e.dt e.srPcm))
    (hz : c.Silent (ns e.dt e.srPcm)) (out : List Nat) (e2 : Enc Rat) (hd : lc3Encode P c (some e) = some (0, out, some e2)) :
    ∃ v side, c.samples (ns e.dt e.srPcm) = some v ∧ encAnalyze P c.junk c.nbytes.toNat (encLoad v e) = some (side, e2) ∧ e2.spec = ⟨0, 0⟩ ∧
      (.disableLtpf ∈ ops → side.pitchPresent = false) ∧
      ∀ sh32, SilentFrame (Arith.rounded rnd) e.dt e.sr sh32 (out.take c.nbytes.toNat) side.pitchPresent := by
  obtain ⟨m0, m1, kl, v, e2', side, st1, x1, y, w1, q2, q3, g1, g2, g3, g4, g5, g6⟩ :=
    C62_frame P hA hr dtUs srHz srPcmHz _ _ e hp c hc out _ hd
  obtain ⟨rfl, t1, t2, t3, s4, hi⟩ := encode_state P hA hr dtUs srHz srPcmHz _ _ e hp c hc out e2 hd v w1 side e2' q2
  have hmax := maxFrame_le e.dt e.sr
  have hv3 : ∀ p ∈ v, -32768 ≤ p.1 ∧ p.1 ≤ 32767 := by
    obtain ⟨vv, l1, l2, l3⟩ := samples_some c _ hc
    rw [w1] at l1
    cases l1; exact l3
  obtain ⟨a1, a2, a3, a4⟩ := analysis_silent h P hP hA hG (encLoad v e) (load_inv e hi v s4 hv3) (by
    intro w hw
    have hw : w ∈ v.map Prod.snd := hw
    obtain ⟨p, hp', rfl⟩ := List.mem_map.1 hw
    exact hz.samples v w1 p hp') hxd c.nbytes.toNat (by omega) (by omega) c.junk side e2' q2
  refine ⟨v, side, w1, q2, a4, g5, ?_⟩
  intro sh32
  have a3 : ∀ v ∈ e2'.xs.take (ne e.dt e.sr), v = 0 := a3
  rw [q3] at a3
  refine ⟨by omega, by omega, ?_⟩
  intro junk
  have hdata : (List.replicate c.nbytes.toNat 0).length = c.nbytes.toNat := List.length_replicate
  have hbytes : Bytes (List.replicate c.nbytes.toNat 0) := by
    intro b hb
    rw [List.eq_of_mem_replicate hb]; decide
  have hA0 : (Arith.rounded rnd).isZero ((Arith.rounded rnd).ofInt 0) = true := by
    show ((decide (rnd ((0 : Int) : Rat) ≤ rnd 0)) && (decide (rnd 0 ≤ rnd ((0 : Int) : Rat)))) = true
    simp
  rw [hP] at g6
  obtain ⟨F, s, r, k1, k2, k3, -, -, k6, k7⟩ := C26_silent_partial (Arith.rounded rnd) hA0 e.dt e.sr (List.replicate c.nbytes.toNat 0) hbytes (by omega) sh32 junk
    side (by rw [hdata]; exact g1) (by rw [a1]) a2 y g3
  rw [g6 _ hdata] at k1
  have k1 := Option.some.inj k1
  rw [← k1] at k2
  refine ⟨_, s, congrArg Prod.fst k2, a2, rfl, ?_⟩
  have hnf := estimateNoise_silent h _ _ _ y (fun v hv => (a3 v hv).trans h.zero.symm) _ k3
  have e0 : (Arith.rounded rnd).ofInt 0 = 0 := by show rnd ((0 : Int) : Rat) = 0; rw [Int.cast_zero, h.zero]
  rw [hnf, a1, k6, e0] at k7
  unfold specFinish at k7
  obtain ⟨g, -, k7⟩ := Option.bind_eq_some_iff.1 k7
  dsimp only at k7
  have em : (Arith.rounded rnd).mul 0 g = 0 := by show rnd (0 * g) = 0; rw [zero_mul, h.zero]
  have eu : unquantize (Arith.rounded rnd) (ne e.dt e.sr) g [0, 0] = 0 :: 0 :: List.replicate (ne e.dt e.sr - 2) 0 := by
    unfold unquantize
    rw [show (Arith.rounded rnd).ofRat 0 = 0 from h.zero]
    simp only [List.map_cons, List.map_nil, em]
    rfl
  rw [eu] at k7
  have ez : (Arith.rounded rnd).isZero 0 = true := by
    show ((decide ((0 : Rat) ≤ rnd 0)) && (decide (rnd 0 ≤ 0))) = true
    rw [h.zero]; simp
  simp only [List.getElem?_cons_zero, List.getElem?_cons_succ, Option.bind_some, ez] at k7
  rw [if_neg (by simp)] at k7
  have k7 := Option.some.inj k7
  rw [← k7]
  intro w hw
  simp only [List.mem_cons, List.mem_replicate] at hw
  rcases hw with hw | hw | hw
  · exact hw
  · exact hw
  · exact hw.2

/-- **C90**, the frame: after any sequence of calls, and a call of `lc3_encode` with null samples that returns 0, a call with null samples that returns 0
writes a frame that any decoder of the configuration decodes as a null spectrum: no coefficient, no noise, no temporal noise shaping. The rate
control forgets its history. -/
theorem C90_frame (h : RoundF rnd) (P : EncPlatform Rat) (hP : P.A = Arith.rounded rnd) (hA : CandidatesOk P.A) (hG : P.G.sqrt 0 = 0)
    (hr : Bool) (dtUs srHz srPcmHz : Int) (ops : List (EncOp Rat α)) (rets : List (Option (Int × List Nat))) (e : Enc Rat)
    (hp : EncPlayed P hr dtUs srHz srPcmHz ops rets e) (c0 c1 : EncCall Rat α) (hc0 : c0.Ok (ns e.dt e.srPcm)) (hc1 : c1.Ok (ns e.dt e.srPcm))
    (hz0 : c0.Silent (ns e.dt e.srPcm)) (hz1 : c1.Silent (ns e.dt e.srPcm)) (out0 out1 : List Nat) (e1 e2 : Enc Rat)
    (hd0 : lc3Encode P c0 (some e) = some (0, out0, some e1)) (hd1 : lc3Encode P c1 (some e1) = some (0, out1, some e2)) :
    EncPlayed P hr dtUs srHz srPcmHz (ops ++ [.encode c0]) (rets ++ [some (0, out0)]) e1 ∧ e1.dt = e.dt ∧ e1.sr = e.sr ∧ e1.srPcm = e.srPcm ∧
    e2.spec = ⟨0, 0⟩ ∧
    ∃ pitch, (.disableLtpf ∈ ops → pitch = false) ∧ ∀ sh32, SilentFrame (Arith.rounded rnd) e.dt e.sr sh32 (out1.take c1.nbytes.toNat) pitch := by
  obtain ⟨n0, n1, hlen, v, e1', side, st', x, y, w1, w2, w3, h1, h2, h3, h4, h5, h6⟩ :=
    C62_frame P hA hr dtUs srHz srPcmHz ops rets e hp c0 hc0 out0 _ hd0
  obtain ⟨rfl, s1, s2, s3, s4, hi⟩ := encode_state P hA hr dtUs srHz srPcmHz ops rets e hp c0 hc0 out0 e1 hd0 v w1 side e1' w2
  have hp1 := hp.encode c0 hc0 0 out0 e1' hd0 s1 s3
  have hc1' : c1.Ok (ns e1'.dt e1'.srPcm) := by rw [s1, s3]; exact hc1
  have hmax0 := maxFrame_le e.dt e.sr
  -- the memory of the transform
  have hxd : ∀ w ∈ e1'.xd, w = 0 := by
    obtain ⟨vv, -, l2, l3⟩ := samples_some c0 _ hc0
    have hv3 : ∀ p ∈ v, -32768 ≤ p.1 ∧ p.1 ≤ 32767 := by
      obtain ⟨vv, l1, l2, l3⟩ := samples_some c0 _ hc0
      rw [w1] at l1
      cases l1; exact l3
    obtain ⟨s, u1, u2, u3⟩ := analyze_stages P hA (encLoad v e) (load_inv e hi v s4 hv3) c0.nbytes.toNat (by omega)
    rw [u3] at w2
    obtain ⟨pitch, -, w2⟩ := Option.bind_eq_some_iff.1 w2
    obtain ⟨sp, -, w2⟩ := Option.bind_eq_some_iff.1 w2
    rw [Option.some.injEq, Prod.mk.injEq] at w2
    rw [← w2.2]
    dsimp only
    rw [u1.xd]
    intro w hw
    have hw : w ∈ v.map Prod.snd := List.mem_of_mem_drop hw
    obtain ⟨p, hp', rfl⟩ := List.mem_map.1 hw
    exact hz0.samples v w1 p hp'
  obtain ⟨v1, side, q1, q2, q3, q4, q5⟩ := frame_silent h P hP hA hG hr dtUs srHz srPcmHz _ _ e1' hp1 hxd c1 hc1' (by rw [s1, s3]; exact hz1) out1 e2 hd1
  refine ⟨hp1, s1, s2, s3, q3, side.pitchPresent, fun hl => q4 (List.mem_append_left _ hl), ?_⟩
  intro sh32
  rw [← s1, ← s2]
  exact q5 sh32

/-- The decoding of a silent frame. -/
theorem decode_silent (h : RoundF rnd) (P : Platform Rat) (hP : P.A = Arith.rounded rnd) (c : DecCall Rat β) (d : Dec Rat) (mem : Int → β)
    (hd : DecInv P.A d) (F : List Nat) (hF : Gives c F) (pitch : Bool) (hs : SilentFrame (Arith.rounded rnd) d.dt d.sr P.sh32 F pitch)
    (hl : d.sr.hr = true ∨ pitch = false) :
    ∃ (d1 : Dec Rat) (xs : List Rat), lc3Decode P c (some d) mem = some (0, some d1, pcmStore c.stride c.base (xs.map c.conv) mem) ∧
      d1.dt = d.dt ∧ d1.sr = d.sr ∧ d1.srPcm = d.srPcm ∧ xs.length = ns d.dt d.srPcm ∧
      (d1.sr.hr = false → d1.ltpf.active = false) ∧ (∃ m, win d1.x d1.xdOff (nd d1.dt d1.srPcm) = some m ∧ ∀ v ∈ m, v = 0) ∧
      ((d.sr.hr = true ∨ d.ltpf.active = false) → (∃ m, win d.x d.xdOff (nd d.dt d.srPcm) = some m ∧ ∀ v ∈ m, v = 0) → ∀ v ∈ xs, v = 0) := by
  have h0 : rnd 0 = 0 := h.zero
  have hz := zeroOk_rounded h0
  obtain ⟨f1, f2⟩ := hF.frame_eq
  have hgood : FrameGood P d.dt d.sr F := by
    refine ⟨hs.low, hs.high, ⟨false, 0⟩, ?_⟩
    obtain ⟨side, s, k, -⟩ := hs.decode ⟨false, 0⟩
    exact ⟨side, s, by rw [hP]; exact k⟩
  obtain ⟨d2, xs, xd, g, t, e, side, s, q1, q2, q3, q4, q5, q6, q7, q8, q9, q10, q11, q12⟩ := goodCall P c d mem hd hF.ok F f1 f2 hgood
  obtain ⟨side', s', k1, k2, k3, k4⟩ := hs.decode c.junk.ltpf
  rw [hP, k1] at q1
  injection q1 with q1
  rw [Prod.mk.injEq] at q1
  obtain ⟨rfl, rfl⟩ := q1
  have hno : d.sr.hr = false → FrameNoLtpf P d.dt d.sr F := by
    intro hh j side s hj hpr
    obtain ⟨side', s', k1, k2, k3, k4⟩ := hs.decode j
    rw [hP, k1] at hj
    injection hj with hj
    rw [Prod.mk.injEq] at hj
    rw [← hj.1, k3] at hpr
    rcases hl with hl | hl
    · rw [hh] at hl; cases hl
    · rw [hl] at hpr; cases hpr
  -- the spectrum
  unfold goodSpectrum at q6
  rw [hP, tnsSynthesize_none _ _ _ k2, Option.bind_some] at q6
  have hpad : AllZ (Arith.rounded rnd) (padSpectrum (Arith.rounded rnd) d.dt d.sr s'.x) := by
    unfold padSpectrum
    exact AllZ.append (AllZ.take (fun v hv => (k4 v hv).trans h0.symm) _) (allZ_replicate _ _)
  have hg := snsSynthesize_z hz P.M _ _ _ _ _ hpad (allZ_replicate _ _) g q6
  unfold invTransform at q8
  rw [hP] at q8
  obtain ⟨-, -, d6, -, -⟩ := dec_dims d.dt d.sr d.srPcm hd.rate
  obtain ⟨r1, r2⟩ := mdctInverse_z hz P.sqrt d.dt d.srPcm d.sr hd.cfgPcm _ g xd _ (by rw [List.length_replicate]; exact d6) (allZ_replicate _ _) (by omega) hg
    (win_length q5).1 (by rw [List.length_replicate]) (allZ_replicate _ _) t e q8
  have lz : ∀ l : List Rat, AllZ (Arith.rounded rnd) l → ∀ v ∈ l, v = 0 := fun l hl v hv => (hl v hv).trans h0
  refine ⟨complete d2, xs, q2, q4.dt, q4.sr, q4.srPcm, q10, ?_, ⟨e, ?_, lz _ r1⟩, ?_⟩
  · intro hh
    have hh : d2.sr.hr = false := hh
    rw [q4.sr] at hh
    exact (q12 (hno hh)).1 hh
  · show win d2.x d2.xdOff (nd d2.dt d2.srPcm) = some e
    rw [q4.dt, q4.srPcm]; exact q9
  · rintro ha ⟨m, m1, m2⟩
    rw [q5] at m1
    cases m1
    have hxs : xs = t := by
      cases hh : d.sr.hr with
      | true => exact q11 hh
      | false =>
        rcases ha with ha | ha
        · rw [hh] at ha; cases ha
        · exact (q12 (hno hh)).2 ha
    rw [hxs]
    exact lz _ (r2 fun v hv => (m2 v hv).trans h0.symm)

/-- **C90.** In single precision (`RoundF`: the arithmetic of the code, or a rounding to 24 bits, or no rounding), after any sequence of calls of the
encoder, among which `lc3_encoder_disable_ltpf` (or in high-resolution): three successive calls of `lc3_encode` with null samples, that return 0. Any
decoder of the configuration, whatever it has received before, its output rate and the format, outputs null samples, exactly, with the last of the
three frames, when it is decoded after the second. -/
theorem C90_silence (h : RoundF rnd) (P : EncPlatform Rat) (hP : P.A = Arith.rounded rnd) (hA : CandidatesOk P.A) (hG : P.G.sqrt 0 = 0)
    (hr : Bool) (dtUs srHz srPcmHz : Int) (ops : List (EncOp Rat α)) (rets : List (Option (Int × List Nat))) (e : Enc Rat)
    (hp : EncPlayed P hr dtUs srHz srPcmHz ops rets e) (hl : hr = true ∨ .disableLtpf ∈ ops) (c0 c1 c2 : EncCall Rat α)
    (hc0 : c0.Ok (ns e.dt e.srPcm)) (hc1 : c1.Ok (ns e.dt e.srPcm)) (hc2 : c2.Ok (ns e.dt e.srPcm))
    (hz0 : c0.Silent (ns e.dt e.srPcm)) (hz1 : c1.Silent (ns e.dt e.srPcm)) (hz2 : c2.Silent (ns e.dt e.srPcm)) (out0 out1 out2 : List Nat)
    (e1 e2 e3 : Enc Rat) (hd0 : lc3Encode P c0 (some e) = some (0, out0, some e1)) (hd1 : lc3Encode P c1 (some e1) = some (0, out1, some e2))
    (hd2 : lc3Encode P c2 (some e2) = some (0, out2, some e3))
    (P' : Platform Rat) (hP' : P'.A = P.A) (dtUs' srHz' srPcmHz' : Int) (calls : List (DecCall Rat β)) (rets' : List Int) (d : Dec Rat) (mem : Int → β)
    (hq : Played P' hr dtUs' srHz' srPcmHz' calls rets' d mem) (hdt : d.dt = e.dt) (hsr : d.sr = e.sr) (c1' c2' : DecCall Rat β)
    (g1 : Gives c1' (out1.take c1.nbytes.toNat)) (g2 : Gives c2' (out2.take c2.nbytes.toNat)) :
    ∃ (d1 d2 : Dec Rat) (mem1 : Int → β), lc3Decode P' c1' (some d) mem = some (0, some d1, mem1) ∧
      lc3Decode P' c2' (some d1) mem1 =
        some (0, some d2, pcmStore c2'.stride c2'.base (List.replicate (ns d.dt d.srPcm) (c2'.conv 0)) mem1) := by
  obtain ⟨p1, s1, s2, s3, -, pi1, hpi1, f1⟩ := C90_frame h P hP hA hG hr dtUs srHz srPcmHz ops rets e hp c0 c1 hc0 hc1 hz0 hz1 out0 out1 e1 e2 hd0 hd1
  obtain ⟨p2, t1, t2, t3, -, pi2, hpi2, f2⟩ := C90_frame h P hP hA hG hr dtUs srHz srPcmHz _ _ e1 p1 c1 c2 (by rw [s1, s3]; exact hc1)
    (by rw [s1, s3]; exact hc2) (by rw [s1, s3]; exact hz1) (by rw [s1, s3]; exact hz2) out1 out2 e2 e3 hd1 hd2
  obtain ⟨hd, -, hsr', -⟩ := hq.inv
  have hhr : d.sr.hr = hr := (resolve_config hq.inv.2.1 hsr').2
  have hPr : P'.A = Arith.rounded rnd := hP'.trans hP
  have l1 : d.sr.hr = true ∨ pi1 = false := by
    rcases hl with hl | hl
    · exact Or.inl (by rw [hhr]; exact hl)
    · exact Or.inr (hpi1 hl)
  obtain ⟨d1, xs, k1, k2, k3, k4, k5, k6, k7, -⟩ := decode_silent h P' hPr c1' d mem hd _ g1 pi1 (by rw [hdt, hsr]; exact f1 _) l1
  have hq1 := hq.decode c1' g1.ok 0 _ _ k1
  obtain ⟨i1, -⟩ := hq1.inv
  have l2 : d1.sr.hr = true ∨ pi2 = false := by
    rcases hl with hl | hl
    · exact Or.inl (by rw [k3, hhr]; exact hl)
    · exact Or.inr (hpi2 (List.mem_append_left _ hl))
  obtain ⟨d2, xs2, j1, j2, j3, j4, j5, j6, j7, j8⟩ := decode_silent h P' hPr c2' d1 (pcmStore c1'.stride c1'.base (xs.map c1'.conv) mem) i1 _ g2 pi2
    (by rw [k2, k3, hdt, hsr, ← s1, ← s2]; exact f2 _) l2
  refine ⟨d1, d2, _, k1, ?_⟩
  have hz := j8 (by
    cases hh : d1.sr.hr with
    | true => exact Or.inl rfl
    | false => exact Or.inr (k6 hh)) k7
  rw [j1, List.eq_replicate_iff.2 ⟨j5, hz⟩, List.map_replicate, k2, k4]

/-- **C90**, the formats: a null sample is 0 in each of them. -/
theorem C90_formats : outS16 0 = some 0 ∧ outS24 0 = some 0 ∧ outFloat 0 = some 0 := by decide +kernel

/-! ### Example -/

/-- A call with 20 null samples, 2.5 ms at 8 kHz, in the 20 bytes of a frame. -/
def exZeroCall : EncCall Rat Int := ⟨fun _ => 0, fun p => some (p, (p : Rat)), 0, 1, 20, List.replicate 20 7, ⟨⟨true, 7⟩, fun _ => 3⟩⟩

/-- A frame that is not silent, then the post-filter is disabled. -/
def exZeroOps : List (EncOp Rat Int) := [.encode (exEncCall 20 (List.replicate 22 7) ⟨⟨true, 7⟩, fun _ => 3⟩), .disableLtpf]

set_option maxRecDepth 100000 in
/-- Three silent frames follow. -/
theorem exZero_run : (((encSetup exEncPlat.A false 2500 8000 0 true).join).bind fun e0 =>
    (encRun exEncPlat exZeroOps (some e0)).bind fun r => r.2.bind fun e =>
    (lc3Encode exEncPlat exZeroCall (some e)).bind fun r0 => r0.2.2.bind fun e1 =>
    (lc3Encode exEncPlat exZeroCall (some e1)).bind fun r1 => r1.2.2.bind fun e2 =>
    (lc3Encode exEncPlat exZeroCall (some e2)).bind fun r2 => r2.2.2.map fun e3 => (r0.1, r1.1, r2.1)) = some (0, 0, 0) := by
  decide +kernel

theorem roundF_id : RoundF id where
  zero := rfl
  near x _ := by
    rw [id, sub_self, abs_zero]
    exact div_nonneg (add_nonneg (abs_nonneg _) (by norm_num)) (by norm_num)
  rel x _ _ := by
    rw [id, sub_self, abs_zero]
    exact div_nonneg (abs_nonneg _) (by norm_num)

/-- The hypotheses of `C90_silence` are met, for any decoder of the configuration. -/
example (P' : Platform Rat) (hP' : P'.A = Arith.exact) (calls : List (DecCall Rat Int)) (rets' : List Int) (d : Dec Rat) (mem : Int → Int)
    (hq : Played P' false 2500 8000 0 calls rets' d mem) :
    ∃ (e e1 e2 e3 : Enc Rat) (rets : List (Option (Int × List Nat))) (out0 out1 out2 : List Nat),
      EncPlayed exEncPlat false 2500 8000 0 exZeroOps rets e ∧ lc3Encode exEncPlat exZeroCall (some e) = some (0, out0, some e1) ∧
      lc3Encode exEncPlat exZeroCall (some e1) = some (0, out1, some e2) ∧ lc3Encode exEncPlat exZeroCall (some e2) = some (0, out2, some e3) ∧
      ∀ c1' c2' : DecCall Rat Int, Gives c1' (out1.take 20) → Gives c2' (out2.take 20) → ∃ d1 d2 mem1,
        lc3Decode P' c1' (some d) mem = some (0, some d1, mem1) ∧
        lc3Decode P' c2' (some d1) mem1 = some (0, some d2, pcmStore c2'.stride c2'.base (List.replicate 20 (c2'.conv 0)) mem1) := by
  obtain ⟨e0, h0⟩ : ∃ e0, encSetup exEncPlat.A false 2500 8000 0 true = some (some e0) := ⟨_, rfl⟩
  have hf := exZero_run
  rw [h0, Option.join_some, Option.bind_some] at hf
  obtain ⟨⟨rets, oe⟩, hrun, hf1⟩ := Option.bind_eq_some_iff.1 hf
  obtain ⟨e, he, hf2⟩ := Option.bind_eq_some_iff.1 hf1
  obtain ⟨⟨r0, out0, o1⟩, hd0, hf3⟩ := Option.bind_eq_some_iff.1 hf2
  obtain ⟨e1, h1, hf4⟩ := Option.bind_eq_some_iff.1 hf3
  obtain ⟨⟨r1, out1, o2⟩, hd1, hf5⟩ := Option.bind_eq_some_iff.1 hf4
  obtain ⟨e2, h2, hf6⟩ := Option.bind_eq_some_iff.1 hf5
  obtain ⟨⟨r2, out2, o3⟩, hd2, hf7⟩ := Option.bind_eq_some_iff.1 hf6
  obtain ⟨e3, h3, hf8⟩ := Option.map_eq_some_iff.1 hf7
  dsimp only at he h1 h2 h3
  rw [he] at hrun
  rw [h1] at hd0
  rw [h2] at hd1
  rw [h3] at hd2
  simp only [Prod.mk.injEq] at hf8
  obtain ⟨rfl, rfl, rfl⟩ := hf8
  have hpl : EncPlayed exEncPlat false 2500 8000 0 exZeroOps rets e := by
    refine ⟨fun c hc => ?_, e0, h0, hrun⟩
    simp only [exZeroOps, List.mem_cons, List.not_mem_nil, or_false, EncOp.encode.injEq, reduceCtorEq] at hc
    rw [hc]
    exact exEncCall_ok _ _ _ _ (by decide)
  have hz : ∀ n, exZeroCall.Ok n := fun n => ⟨fun i _ => ⟨0, 0, rfl, by decide, by decide⟩, by decide⟩
  have hs : ∀ n, exZeroCall.Silent n := fun n i _ => ⟨0, rfl⟩
  obtain ⟨-, rE1, rE2, rE3, -⟩ := hpl.inv exEncCandidates
  obtain ⟨-, rD1, rD2, rD3, -⟩ := hq.inv
  refine ⟨e, e1, e2, e3, rets, out0, out1, out2, hpl, hd0, hd1, hd2, fun c1' c2' g1 g2 => ?_⟩
  have key := C90_silence roundF_id exEncPlat rfl exEncCandidates (by decide +kernel) false 2500 8000 0 exZeroOps rets e hpl
    (Or.inr (by simp [exZeroOps])) exZeroCall exZeroCall exZeroCall (hz _) (hz _) (hz _) (hs _) (hs _) (hs _) out0 out1 out2 e1 e2 e3 hd0 hd1 hd2 P' hP' 2500 8000 0
    calls rets' d mem hq (Option.some.inj (rD1.symm.trans rE1)) (Option.some.inj (rD2.symm.trans rE2)) c1' c2' g1 g2
  have hdt : d.dt = .m2_5 := Option.some.inj (rD1.symm.trans (by decide))
  have hsr : d.srPcm = .k8 := Option.some.inj (rD3.symm.trans (by decide))
  rw [hdt, hsr] at key
  exact key

end LC3
