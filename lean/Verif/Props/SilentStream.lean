import Verif.Lemmas.ZeroLtpf
import Verif.Lemmas.ZeroDefined
import Verif.Props.DigitalSilence
import Verif.Props.EncoderLevel
import Verif.Props.Conceal

/-!
C91: a stream of digital silence, from an encoder just setup to a decoder just setup, of any length.
-/

namespace LC3

variable {α β : Type} {rnd : Rat → Rat}

/-- The samples of a call of `lc3_encode` are null, in the two formats of the conversion. -/
def EncCall.Null (c : EncCall Rat α) (n : Nat) : Prop := ∀ i : Nat, i < n → c.conv (c.pcm (c.base + i * c.stride)) = some (0, 0)

theorem EncCall.Null.silent {c : EncCall Rat α} {n : Nat} (h : c.Null n) : c.Silent n := fun i hi => ⟨0, h i hi⟩

theorem EncCall.Null.samples {c : EncCall Rat α} {n : Nat} (h : c.Null n) (v : List (Int × Rat)) (hv : c.samples n = some v) :
    ∀ p ∈ v, p = (0, 0) := by
  obtain ⟨l1, l2⟩ := pcmLoad_spec c.stride c.pcm n c.base
  refine (mapM_outs (p := fun p : Int × Rat => p = (0, 0)) _ _ hv ?_).2
  intro a ha p hp
  obtain ⟨i, hi, rfl⟩ := List.mem_iff_getElem.mp ha
  rw [l2 i hi, h i (by omega)] at hp
  cases hp; rfl

/-- The states of an encoder that received null samples only. -/
structure Enc.Zero (e : Enc Rat) : Prop where
  ltpf : e.ltpf.Zero
  xt : ∀ x ∈ e.xt, x = 0
  xd : ∀ x ∈ e.xd, x = 0
  spec : e.spec = ⟨0, 0⟩

theorem encSetup_zero (h0 : rnd 0 = 0) (P : EncPlatform Rat) (hP : P.A = Arith.rounded rnd) (hr : Bool) (dtUs srHz srPcmHz : Int) (m : Bool) (e : Enc Rat)
    (h : encSetup P.A hr dtUs srHz srPcmHz m = some (some e)) : e.Zero := by
  unfold encSetup at h
  obtain ⟨o, -, h⟩ := Option.map_eq_some_iff.1 h
  obtain ⟨l, -, h⟩ := Option.map_eq_some_iff.1 h
  subst h
  have hz : P.A.ofRat 0 = 0 := by rw [hP]; exact h0
  refine ⟨LtpfA.init_zero P.A, fun x hx => List.eq_of_mem_replicate hx, fun x hx => (List.eq_of_mem_replicate hx).trans hz, ?_⟩
  show (⟨P.A.ofRat 0, 0⟩ : SpecSt Rat) = ⟨0, 0⟩
  rw [hz]

theorem encPitch_null (h : RoundF rnd) (P : EncPlatform Rat) (hP : P.A = Arith.rounded rnd) (u : EncJunk Rat) (e : Enc Rat) (hi : EncInv e)
    (hl : e.ltpf.Zero) (hx : ∀ x ∈ e.xt, x = 0) : ∃ l t, encPitch P u e = some (false, l, t) ∧ t.Zero := by
  unfold encPitch
  split
  · exact ⟨_, _, rfl, hl⟩
  · have h0 : P.A.ofInt 0 = 0 := by rw [hP]; show rnd ((0 : Int) : Rat) = 0; rw [Int.cast_zero, h.zero]
    obtain ⟨o, s', g1, g2, -, g4⟩ := ltpfAnalyse_null P.A (by rw [h0, hP]; show decide ((0 : Rat) ≤ 0) = true; simp)
      (by
        rw [h0, hP]
        show decide (rnd (6 / 10) < 0) = false
        have := (h.pos (x := 6 / 10) (by norm_num) (by norm_num)).1
        rw [decide_eq_false_iff_not]
        linarith) P.sqrt e.dt e.srPcm e.ltpf hl e.xt (nt e.srPcm) hx (Nat.le_refl _) (by rw [hi.xt])
    rw [g1, Option.bind_some]
    dsimp only
    rw [g2]
    exact ⟨_, _, rfl, g4⟩

/-- A call with null samples, for an encoder that received null samples only: the call is defined, and the encoder is in the same case. -/
theorem null_step (h : RoundF rnd) (P : EncPlatform Rat) (hP : P.A = Arith.rounded rnd) (hA : CandidatesOk P.A) (hG : GainSane rnd P.G) (e : Enc Rat)
    (hi : EncInv e) (hz : e.Zero) (c : EncCall Rat α) (hc : c.Ok (ns e.dt e.srPcm)) (hn : c.Null (ns e.dt e.srPcm))
    (hs : ¬ (c.nbytes < minFrameBytes e.dt e.sr ∨ c.nbytes > maxFrameBytes e.dt e.sr)) :
    ∃ out e1, lc3Encode P c (some e) = some (0, out, some e1) ∧ e1.dt = e.dt ∧ e1.sr = e.sr ∧ e1.srPcm = e.srPcm ∧
      ∀ v side, c.samples (ns e.dt e.srPcm) = some v → encAnalyze P c.junk c.nbytes.toNat (encLoad v e) = some (side, e1) →
        side.pitchPresent = false ∧ e1.Zero := by
  obtain ⟨v, s, h1, h2, h3, h4, h5, h6⟩ := encode_step P hA e hi c hc hs
  have hv := hn.samples v h1
  have hx : ∀ x ∈ (encLoad v e).xs, x = 0 := by
    intro x hx
    obtain ⟨p, hp, rfl⟩ := List.mem_map.1 (show x ∈ v.map Prod.snd from hx)
    rw [hv p hp]
  have hxt : ∀ x ∈ (encLoad v e).xt, x = 0 := by
    intro x hx
    rcases List.mem_append.1 (show x ∈ e.xt.take (nt e.srPcm) ++ v.map Prod.fst from hx) with hx | hx
    · exact hz.xt x (List.mem_of_mem_take hx)
    · obtain ⟨p, hp, rfl⟩ := List.mem_map.1 hx
      rw [hv p hp]
  obtain ⟨n0, n1⟩ := maxFrame_int e.dt e.sr c.nbytes hs
  have hmax := maxFrame_le e.dt e.sr
  have hmin : 20 ≤ minFrameBytes e.dt e.sr := by
    have := hi.cfg
    revert this
    unfold Config
    cases e.dt <;> cases e.sr <;> decide
  obtain ⟨l, t, p1, p2⟩ := encPitch_null h P hP c.junk (encLoad v e) h2 hz.ltpf hxt
  obtain ⟨t1, t2, t3, t4⟩ := stages_silent h P hP (encLoad v e) h2 hx hz.xd c.nbytes.toNat s h3 h4
  obtain ⟨r, hr⟩ := specAnalyze_null h P.G hG e.dt e.sr c.nbytes.toNat (by omega) (by omega) false s.tns t1 t2 _ t4 (t3.take _)
  cases hd : lc3Encode P c (some e) with
  | none =>
    exfalso
    rcases h5.1 hd with h5 | ⟨pitch, h7, h8⟩
    · rw [p1] at h5; cases h5
    · rw [p1, Option.map_some] at h7
      have h7 := Option.some.inj h7
      rw [← h7, hP, hz.spec] at h8
      change specAnalyze (Arith.rounded rnd) P.G e.dt e.sr c.nbytes.toNat false s.tns ⟨0, 0⟩ (s.x.take (ne e.dt e.sr)) = some r at hr
      rw [hr] at h8
      cases h8
  | some w =>
    obtain ⟨r', out, e'⟩ := w
    obtain ⟨f, e1, rfl, rfl, -, -, -, b1, b2, b3, b4, b5, -⟩ := h6 _ _ _ hd
    refine ⟨out, e1, rfl, b2, b3, b4, ?_⟩
    intro v' side hv' ha
    rw [h1] at hv'
    cases hv'
    have ha' := ha
    obtain ⟨s', s1, s2, s3⟩ := analyze_stages P hA (encLoad v e) h2 c.nbytes.toNat (by omega)
    rw [s3, p1, Option.bind_some] at ha'
    obtain ⟨sp, -, ha'⟩ := Option.bind_eq_some_iff.1 ha'
    rw [Option.some.injEq, Prod.mk.injEq] at ha'
    obtain ⟨-, -, -, a4⟩ := analysis_silent h P hP hA hG.sqrt (encLoad v e) h2 hx hz.xd c.nbytes.toNat (by omega) (by omega) c.junk side e1 ha
    refine ⟨by rw [← ha'.1]; rfl, ?_, ?_, ?_, a4⟩
    · rw [← ha'.2]; exact p2
    · rw [← ha'.2]
      intro x hx
      change x ∈ encShift (encLoad v e) (encLoad v e).xt at hx
      unfold encShift at hx
      rcases List.mem_append.1 hx with hx | hx
      · exact hxt x (List.mem_of_mem_drop (List.mem_of_mem_take hx))
      · exact hxt x (List.mem_of_mem_drop hx)
    · rw [← ha'.2]
      intro w hw
      change w ∈ s'.xd at hw
      rw [s1.xd] at hw
      exact hx w (List.mem_of_mem_drop hw)

/-- The value returned by a call: nothing by `lc3_encoder_disable_ltpf`, 0 or -1 by `lc3_encode`, depending on the size alone. -/
def encReturn (dt : Dt) (sr : Srate) : EncOp Rat α → Option Int
  | .disableLtpf => none
  | .encode c => some (if c.nbytes < minFrameBytes dt sr ∨ c.nbytes > maxFrameBytes dt sr then -1 else 0)

/-- The encoder, played with null samples. -/
theorem null_run (h : RoundF rnd) (P : EncPlatform Rat) (hP : P.A = Arith.rounded rnd) (hA : CandidatesOk P.A) (hG : GainSane rnd P.G)
    (hr : Bool) (dtUs srHz srPcmHz : Int) (e0 : Enc Rat) (hs : encSetup P.A hr dtUs srHz srPcmHz true = some (some e0)) (ops : List (EncOp Rat α)) :
    (∀ c, .encode c ∈ ops → c.Ok (ns e0.dt e0.srPcm) ∧ c.Null (ns e0.dt e0.srPcm)) →
    ∃ rets e, EncPlayed P hr dtUs srHz srPcmHz ops rets e ∧ encRun P ops (some e0) = some (rets, some e) ∧ e.Zero ∧
      e.dt = e0.dt ∧ e.sr = e0.sr ∧ e.srPcm = e0.srPcm ∧ rets.map (Option.map Prod.fst) = ops.map (encReturn e0.dt e0.sr) ∧
      ∀ c out, (EncOp.encode c, some ((0 : Int), out)) ∈ ops.zip rets → ∀ sh32,
        SilentFrame (Arith.rounded rnd) e0.dt e0.sr sh32 (out.take c.nbytes.toNat) false := by
  induction ops using List.reverseRecOn with
  | nil =>
    intro _
    exact ⟨[], e0, ⟨fun c hc => (by cases hc), e0, hs, rfl⟩, rfl, encSetup_zero h.zero P hP hr dtUs srHz srPcmHz true e0 hs, rfl, rfl, rfl, rfl,
      fun c out hc => by cases hc⟩
  | append_singleton l o ih =>
    intro hc
    obtain ⟨rets, e, g1, g2, g3, g4, g5, g6, g7, g8⟩ := ih fun c h => hc c (List.mem_append_left _ h)
    have hlen : l.length = rets.length := by have := congrArg List.length g7; rw [List.length_map, List.length_map] at this; exact this.symm
    obtain ⟨hi, -⟩ := g1.inv hA
    cases o with
    | disableLtpf =>
      have hrun : encRun P (l ++ [.disableLtpf]) (some e0) = some (rets ++ [none], some { e with bypass := true }) := by
        rw [encRun_append, g2, Option.bind_some]
        rfl
      refine ⟨rets ++ [none], { e with bypass := true }, ⟨fun c h => ?_, e0, hs, hrun⟩, hrun, ⟨g3.ltpf, g3.xt, g3.xd, g3.spec⟩, g4, g5, g6, ?_, ?_⟩
      · refine g1.ok c ?_
        rcases List.mem_append.1 h with h | h
        · exact h
        · rw [List.mem_singleton] at h; cases h
      · rw [List.map_append, List.map_append, g7]; rfl
      · intro c out h
        rw [List.zip_append hlen] at h
        rcases List.mem_append.1 h with h | h
        · exact g8 c out h
        · rw [List.zip_cons_cons, List.zip_nil_left, List.mem_singleton, Prod.mk.injEq] at h
          cases h.1
    | encode c =>
      obtain ⟨hc1, hc2⟩ := hc c (by simp)
      rw [← g4, ← g6] at hc1 hc2
      by_cases hn : c.nbytes < minFrameBytes e.dt e.sr ∨ c.nbytes > maxFrameBytes e.dt e.sr
      · have hd := (C09_encode_rejected P c).2 e hn
        refine ⟨rets ++ [some (-1, c.out)], e, g1.encode c hc1 (-1) c.out e hd rfl rfl, ?_, g3, g4, g5, g6, ?_, ?_⟩
        · rw [encRun_append, g2, Option.bind_some]
          unfold encRun encStep
          dsimp only
          rw [hd]
          rfl
        · have hret : encReturn e0.dt e0.sr (.encode c) = some (-1) := by
            show some (if c.nbytes < minFrameBytes e0.dt e0.sr ∨ c.nbytes > maxFrameBytes e0.dt e0.sr then -1 else 0) = some (-1)
            rw [← g4, ← g5, if_pos hn]
          rw [List.map_append, List.map_append, g7, List.map_singleton, List.map_singleton, hret]
          rfl
        · intro c' out h
          rw [List.zip_append hlen] at h
          rcases List.mem_append.1 h with h | h
          · exact g8 c' out h
          · rw [List.zip_cons_cons, List.zip_nil_left, List.mem_singleton, Prod.mk.injEq, Option.some.injEq, Prod.mk.injEq] at h
            exact absurd h.2.1 (by decide)
      · obtain ⟨out, e1, hd, d1, d2, d3, hstep⟩ := null_step h P hP hA hG e hi g3 c hc1 hc2 hn
        obtain ⟨v, side, q1, q2, q3, q4, q5⟩ := frame_silent h P hP hA hG.sqrt hr dtUs srHz srPcmHz l rets e g1 g3.xd c hc1 hc2.silent out e1 hd
        obtain ⟨k1, k2⟩ := hstep v side q1 q2
        refine ⟨rets ++ [some (0, out)], e1, g1.encode c hc1 0 out e1 hd d1 d3, ?_, k2, d1.trans g4, d2.trans g5, d3.trans g6, ?_, ?_⟩
        · rw [encRun_append, g2, Option.bind_some]
          unfold encRun encStep
          dsimp only
          rw [hd]
          rfl
        · have hret : encReturn e0.dt e0.sr (.encode c) = some (0) := by
            show some (if c.nbytes < minFrameBytes e0.dt e0.sr ∨ c.nbytes > maxFrameBytes e0.dt e0.sr then -1 else 0) = some (0)
            rw [← g4, ← g5, if_neg hn]
          rw [List.map_append, List.map_append, g7, List.map_singleton, List.map_singleton, hret]
          rfl
        · intro c' out' h
          rw [List.zip_append hlen] at h
          rcases List.mem_append.1 h with h | h
          · exact g8 c' out' h
          · rw [List.zip_cons_cons, List.zip_nil_left, List.mem_singleton, Prod.mk.injEq, Option.some.injEq, Prod.mk.injEq] at h
            obtain ⟨h1, -, h2⟩ := h
            injection h1 with h1
            subst h1 h2
            intro sh32
            have := q5 sh32
            rw [k1, g4, g5] at this
            exact this

/-- **C91**, the encoder: an encoder just setup, with the long term post-filter or not (`lc3_encoder_disable_ltpf` may be called at any time), receives any
number of calls with null samples. No call is undefined, the value returned depends on the size alone, no pitch is found, and each frame is decoded as a
null spectrum. -/
theorem C91_encoder (h : RoundF rnd) (P : EncPlatform Rat) (hP : P.A = Arith.rounded rnd) (hA : CandidatesOk P.A) (hG : GainSane rnd P.G)
    (hr : Bool) (dtUs srHz srPcmHz : Int) (e0 : Enc Rat) (hs : encSetup P.A hr dtUs srHz srPcmHz true = some (some e0)) (ops : List (EncOp Rat α))
    (hops : ∀ c, .encode c ∈ ops → c.Ok (ns e0.dt e0.srPcm) ∧ c.Null (ns e0.dt e0.srPcm)) :
    ∃ rets e, encRun P ops (some e0) = some (rets, some e) ∧ rets.map (Option.map Prod.fst) = ops.map (encReturn e0.dt e0.sr) ∧
      ∀ c out, (EncOp.encode c, some ((0 : Int), out)) ∈ ops.zip rets → ∀ sh32,
        SilentFrame (Arith.rounded rnd) e0.dt e0.sr sh32 (out.take c.nbytes.toNat) false := by
  obtain ⟨rets, e, -, g2, -, -, -, -, g7, g8⟩ := null_run h P hP hA hG hr dtUs srHz srPcmHz e0 hs ops hops
  exact ⟨rets, e, g2, g7, g8⟩

/-- The states of a decoder that received silent frames only, some of them lost, `n` at most since the last one received. -/
structure Dec.Zero (P : Platform Rat) (n : Nat) (d : Dec Rat) : Prop where
  inv : DecInv P.A d
  count : d.plc.count ≤ n + 1
  ltpf : d.sr.hr = true ∨ d.ltpf.active = false
  xd : ∃ m, win d.x d.xdOff (nd d.dt d.srPcm) = some m ∧ ∀ v ∈ m, v = 0
  xg : ∃ m, win d.x d.xgOff (ns d.dt d.srPcm) = some m ∧ ∀ v ∈ m, v = 0

/-- A decoder just setup has a null memory. -/
theorem decSetup_zero (h0 : rnd 0 = 0) (P : Platform Rat) (hP : P.A = Arith.rounded rnd) (hr : Bool) (dtUs srHz srPcmHz : Int) (m : Bool) (d : Dec Rat)
    (h : decSetup P.A hr dtUs srHz srPcmHz m = some (some d)) : d.Zero P 0 := by
  obtain ⟨hi, -⟩ := decSetup_inv P hr dtUs srHz srPcmHz m d h
  have hx : ∀ v ∈ d.x, v = 0 := by
    unfold decSetup at h
    obtain ⟨o, -, h⟩ := Option.map_eq_some_iff.1 h
    obtain ⟨l, -, h⟩ := Option.map_eq_some_iff.1 h
    subst h
    intro v hv
    rw [List.eq_of_mem_replicate hv, hP]
    exact h0
  have hw : ∀ off n, off + n ≤ d.x.length → ∃ m, win d.x off n = some m ∧ ∀ v ∈ m, v = 0 := by
    intro off n hn
    refine ⟨(d.x.drop off).take n, ?_, fun v hv => hx v (List.mem_of_mem_drop (List.mem_of_mem_take hv))⟩
    unfold win
    rw [if_pos hn]
  have h1 := hi.len
  have h2 := hi.xd
  have h3 := hi.xg
  refine ⟨hi, ?_, Or.inr ?_, hw _ _ (by omega), hw _ _ (by omega)⟩
  · unfold decSetup at h
    obtain ⟨o, -, h⟩ := Option.map_eq_some_iff.1 h
    obtain ⟨l, -, h⟩ := Option.map_eq_some_iff.1 h
    subst h
    exact Int.le_refl 1
  · unfold decSetup at h
    obtain ⟨o, -, h⟩ := Option.map_eq_some_iff.1 h
    obtain ⟨l, -, h⟩ := Option.map_eq_some_iff.1 h
    subst h
    rfl

/-- A silent frame received. -/
theorem received_silent (h : RoundF rnd) (P : Platform Rat) (hP : P.A = Arith.rounded rnd) (c : DecCall Rat β) (d : Dec Rat) (n : Nat) (mem : Int → β)
    (hz : d.Zero P n) (F : List Nat) (hF : Gives c F) (hs : SilentFrame (Arith.rounded rnd) d.dt d.sr P.sh32 F false) :
    ∃ d1 : Dec Rat, lc3Decode P c (some d) mem = some (0, some d1, pcmStore c.stride c.base (List.replicate (ns d.dt d.srPcm) (c.conv 0)) mem) ∧
      d1.dt = d.dt ∧ d1.sr = d.sr ∧ d1.srPcm = d.srPcm ∧ d1.Zero P 0 := by
  obtain ⟨d1, xs, k1, k2, k3, k4, k5, k6, k7, k8⟩ := decode_silent h P hP c d mem hz.inv F hF false hs (Or.inr rfl)
  have hx := k8 hz.ltpf hz.xd
  have hgood : FrameGood P d.dt d.sr F := by
    refine ⟨hs.low, hs.high, ⟨false, 0⟩, ?_⟩
    obtain ⟨side, s, k, -⟩ := hs.decode ⟨false, 0⟩
    exact ⟨side, s, by rw [hP]; exact k⟩
  obtain ⟨f1, f2⟩ := hF.frame_eq
  obtain ⟨d2, mem2, g, side, s, b1, b2, b3, b4⟩ := goodCall_burst P c d mem hz.inv hF.ok F f1 f2 hgood
  rw [k1, Option.some.injEq, Prod.mk.injEq, Prod.mk.injEq, Option.some.injEq] at b3
  obtain ⟨-, rfl, -⟩ := b3
  have h0 : rnd 0 = 0 := h.zero
  obtain ⟨side', s', q1, q2, q3, q4⟩ := hs.decode c.junk.ltpf
  rw [hP, q1] at b1
  injection b1 with b1
  rw [Prod.mk.injEq] at b1
  obtain ⟨rfl, rfl⟩ := b1
  unfold goodSpectrum at b2
  rw [hP, tnsSynthesize_none _ _ _ q2, Option.bind_some] at b2
  have hpad : AllZ (Arith.rounded rnd) (padSpectrum (Arith.rounded rnd) d.dt d.sr s'.x) := by
    unfold padSpectrum
    exact AllZ.append (AllZ.take (fun v hv => (q4 v hv).trans h0.symm) _) (allZ_replicate _ _)
  have hg := snsSynthesize_z (zeroOk_rounded h0) P.M _ _ _ _ _ hpad (allZ_replicate _ _) g b2
  refine ⟨d1, ?_, k2, k3, k4, b4.inv, by rw [b4.count], ?_, k7, g, by rw [k2, k4]; exact b4.kept, fun v hv => (hg v hv).trans h0⟩
  · rw [k1, List.eq_replicate_iff.2 ⟨k5, hx⟩, List.map_replicate]
  · cases hh : d1.sr.hr with
    | true => exact Or.inl rfl
    | false => exact Or.inr (k6 hh)

/-- A frame lost. -/
theorem lost_silent (h0 : rnd 0 = 0) (P : Platform Rat) (hP : P.A = Arith.rounded rnd) (c : DecCall Rat β) (d : Dec Rat) (n : Nat) (mem : Int → β)
    (hz : d.Zero P n) (hn : n + 2 < 2 ^ 31) (hc : CallOk c) (hl : c.inp = none) :
    ∃ d1 : Dec Rat, lc3Decode P c (some d) mem = some (1, some d1, pcmStore c.stride c.base (List.replicate (ns d.dt d.srPcm) (c.conv 0)) mem) ∧
      d1.dt = d.dt ∧ d1.sr = d.sr ∧ d1.srPcm = d.srPcm ∧ d1.Zero P (n + 1) := by
  obtain ⟨hd, hcnt, hltpf, ⟨m, m1, m2⟩, ⟨g, g1, g2⟩⟩ := hz
  have hA := zeroOk_rounded h0
  obtain ⟨n1, n2, n3, n4, n5⟩ := dec_dims d.dt d.sr d.srPcm hd.rate
  have hxd := hd.xd
  have hxg := hd.xg
  have hxs := hd.xsLe
  have hlen := hd.len
  obtain ⟨d1, xd, g', p, t, e, b1, b2, b3, b4, b5, b6, b7, b8, b9, b10⟩ := synthLost_spec P c.junk d hd (by omega)
  rw [g1] at b2
  obtain rfl := Option.some.inj b2
  rw [m1] at b1
  obtain rfl := Option.some.inj b1
  have hp : ∀ v ∈ p.2, v = 0 := by
    unfold plcSynthesize at b3
    split at b3
    · cases b3
    obtain ⟨k, -, b3⟩ := Option.map_eq_some_iff.1 b3
    subst b3
    obtain ⟨-, l2, l3⟩ := plcLoop_eq P.A (P.A.mul d.plc.alpha (P.A.ofRat (plcFactor d.plc.count))) d.plc.seed (g.take (ne d.dt d.sr))
    intro v hv
    obtain ⟨i, hi, rfl⟩ := List.mem_iff_getElem.mp hv
    dsimp only at hi ⊢
    rw [l2] at hi
    have h3 := l3 i _ (List.getElem?_eq_getElem hi)
    rw [List.getElem?_eq_getElem (by rw [l2]; exact hi)] at h3
    rw [Option.some.inj h3, g2 _ (List.mem_of_mem_take (List.getElem_mem hi))]
    have hm : ∀ a : Rat, P.A.mul a 0 = 0 := by intro a; rw [hP]; show rnd (a * 0) = 0; rw [mul_zero, h0]
    have hsub : P.A.sub (P.A.ofRat 0) 0 = 0 := by rw [hP]; show rnd (rnd 0 - 0) = 0; rw [h0, sub_zero, h0]
    rw [hsub, ite_self, hm]
  have hpz : AllZ (Arith.rounded rnd) (p.2 ++ List.replicate (ns d.dt d.srPcm - ne d.dt d.sr) ((Arith.rounded rnd).ofRat 0)) :=
    AllZ.append (fun v hv => (hp v hv).trans h0.symm) (allZ_replicate _ _)
  unfold invTransform at b6
  rw [hP] at b6
  obtain ⟨r1, r2⟩ := mdctInverse_z hA P.sqrt d.dt d.srPcm d.sr hd.cfgPcm _ _ m _ (by rw [List.length_replicate]; exact n3) (allZ_replicate _ _)
    (by rw [List.length_append, List.length_replicate, b5]; omega) hpz (win_length m1).1 (by rw [List.length_replicate]) (allZ_replicate _ _) t e b6
  have ht := r2 fun v hv => (m2 v hv).trans h0.symm
  have hi : DecInv P.A d1 := b8.inv hd b9 (by rw [b10, b4]; have := hd.count; omega) (fun k h1 h2 => by
    have := hd.high k h1 h2
    rw [win_at g1, if_pos h2]; exact this)
  obtain ⟨d2, c1, c2, c3, c4, c5, c6⟩ := synthLtpf_spec P d1 hi none c.nbytes (fun l h => by cases h) (fun _ => hc.lost hl)
  obtain ⟨k1, k2⟩ := synthLtpf_off P d1 d2 none c.nbytes (fun l h => by cases h) c1
  have sc : SameConfig d d2 := b8.same.trans c3
  have hlen2 := c2.len
  have hxs2 := c2.xsLe
  obtain ⟨xs, w1, w2⟩ := win_some d2.x d2.xsOff (ns d2.dt d2.srPcm) (by omega)
  have hx : d2.x = d1.x := by
    cases hh : d.sr.hr with
    | true => rw [c6 (by rw [b8.same.sr]; exact hh)]
    | false =>
      refine k2 ?_
      rw [b9]
      rcases hltpf with hltpf | hltpf
      · rw [hh] at hltpf; cases hltpf
      · exact hltpf
  have hxs' : xs = t := by
    rw [hx, c3.xs, c3.dt, c3.srPcm, b8.same.xs, b8.same.dt, b8.same.srPcm, b8.t] at w1
    exact (Option.some.inj w1).symm
  subst hxs'
  refine ⟨complete d2, ?_, sc.dt, sc.sr, sc.srPcm, complete_inv c2, ?_, ?_, ⟨e, ?_, fun v hv => (r1 v hv).trans h0⟩, ⟨g, ?_, g2⟩⟩
  · unfold lc3Decode
    dsimp only
    rw [if_neg (by rw [hl]; rintro ⟨h, -⟩; cases h)]
    unfold decProcess decInput
    rw [hl]
    dsimp only
    rw [Option.bind_some]
    unfold synthesize
    dsimp only
    rw [b7, Option.bind_some, c1, Option.bind_some, w1]
    have hlx : xs.length = ns d.dt d.srPcm := (win_length b8.t).1
    rw [← hlx, ← List.map_replicate, ← List.eq_replicate_iff.2 ⟨rfl, fun v hv => (ht v hv).trans h0⟩]
    rfl
  · show d2.plc.count ≤ _
    rw [c4, b10, b4]; push_cast; omega
  · cases hh : d.sr.hr with
    | true => exact Or.inl (sc.sr ▸ hh)
    | false => exact Or.inr (k1 (by rw [b8.same.sr]; exact hh))
  · show win d2.x d2.xdOff (nd d2.dt d2.srPcm) = some e
    rw [hx, sc.xd, sc.dt, sc.srPcm]; exact b8.e
  · show win d2.x d2.xgOff (ns d2.dt d2.srPcm) = some g
    rw [hx, sc.xg, sc.dt, sc.srPcm]; exact b8.g

/-- The memory of the outputs after calls that give null samples. -/
def silentOutput (n : Nat) (calls : List (DecCall Rat β)) (mem : Int → β) : Int → β :=
  calls.foldl (fun mem c => pcmStore c.stride c.base (List.replicate n (c.conv 0)) mem) mem

/-- The value returned by `lc3_decode`: 1 when the frame is lost. -/
def lostReturn (c : DecCall Rat β) : Int := if c.inp.isNone then 1 else 0

/-- A decoder just setup, that receives silent frames, some of them lost. -/
theorem silent_decoder (h : RoundF rnd) (P : Platform Rat) (hP : P.A = Arith.rounded rnd) (hr : Bool) (dtUs srHz srPcmHz : Int) (d0 : Dec Rat)
    (hs : decSetup P.A hr dtUs srHz srPcmHz true = some (some d0)) (mem0 : Int → β) (calls : List (DecCall Rat β)) :
    (∀ c ∈ calls, (CallOk c ∧ c.inp = none) ∨ ∃ F, Gives c F ∧ SilentFrame (Arith.rounded rnd) d0.dt d0.sr P.sh32 F false) →
    calls.length + 1 < 2 ^ 31 →
    ∃ d, decRun P calls (some d0) mem0 = some (calls.map lostReturn, some d, silentOutput (ns d0.dt d0.srPcm) calls mem0) ∧
      d.dt = d0.dt ∧ d.sr = d0.sr ∧ d.srPcm = d0.srPcm ∧ d.Zero P calls.length := by
  induction calls using List.reverseRecOn with
  | nil =>
    intro _ _
    exact ⟨d0, rfl, rfl, rfl, rfl, decSetup_zero h.zero P hP hr dtUs srHz srPcmHz true d0 hs⟩
  | append_singleton l c ih =>
    intro hc hn
    rw [List.length_append, List.length_singleton] at hn
    obtain ⟨d, g1, g2, g3, g4, g5⟩ := ih (fun c h => hc c (List.mem_append_left _ h)) (by omega)
    have step : ∀ (r : Int) (d1 : Dec Rat), lostReturn c = r →
        lc3Decode P c (some d) (silentOutput (ns d0.dt d0.srPcm) l mem0) = some (r, some d1,
          pcmStore c.stride c.base (List.replicate (ns d.dt d.srPcm) (c.conv 0)) (silentOutput (ns d0.dt d0.srPcm) l mem0)) →
        decRun P (l ++ [c]) (some d0) mem0 = some ((l ++ [c]).map lostReturn, some d1, silentOutput (ns d0.dt d0.srPcm) (l ++ [c]) mem0) := by
      intro r d1 hr k1
      rw [decRun_append, g1, Option.bind_some]
      unfold decRun decRun
      dsimp only
      rw [k1, g2, g4]
      unfold silentOutput
      rw [List.foldl_append, List.map_append, List.map_singleton, hr]
      rfl
    rw [List.length_append, List.length_singleton]
    rcases hc c (by simp) with ⟨f1, f2⟩ | ⟨F, f1, f2⟩
    · obtain ⟨d1, k1, k2, k3, k4, k5⟩ := lost_silent h.zero P hP c d l.length (silentOutput (ns d0.dt d0.srPcm) l mem0) g5 (by omega) f1 f2
      exact ⟨d1, step 1 d1 (by unfold lostReturn; rw [f2]; rfl) k1, k2.trans g2, k3.trans g3, k4.trans g4, k5⟩
    · obtain ⟨d1, k1, k2, k3, k4, k5⟩ := received_silent h P hP c d l.length (silentOutput (ns d0.dt d0.srPcm) l mem0) g5 F f1 (by rw [g2, g3]; exact f2)
      refine ⟨d1, step 0 d1 ?_ k1, k2.trans g2, k3.trans g3, k4.trans g4, k5.inv, ?_, k5.ltpf, k5.xd, k5.xg⟩
      · obtain ⟨r, hr, -⟩ := Option.map_eq_some_iff.1 f1.frame_eq.1
        unfold lostReturn
        rw [hr]; rfl
      · have := k5.count
        push_cast at this ⊢
        omega

/-- **C91.** In single precision (`RoundF`), an encoder just setup receives null samples only, for any number of frames of any valid sizes, with the long term
post-filter or not. A decoder of the configuration, just setup, receives frames of this stream, in any number, some of them possibly skipped, repeated
or reordered, or lost and concealed (below 2^31 calls: the counter of losses is an `int`): every call is defined and returns 0, or 1 for a loss, and all
the samples output are null, exactly. -/
theorem C91_stream (h : RoundF rnd) (P : EncPlatform Rat) (hP : P.A = Arith.rounded rnd) (hA : CandidatesOk P.A) (hG : GainSane rnd P.G)
    (hr : Bool) (dtUs srHz srPcmHz : Int) (e0 : Enc Rat) (hs : encSetup P.A hr dtUs srHz srPcmHz true = some (some e0)) (ops : List (EncOp Rat α))
    (hops : ∀ c, .encode c ∈ ops → c.Ok (ns e0.dt e0.srPcm) ∧ c.Null (ns e0.dt e0.srPcm))
    (P' : Platform Rat) (hP' : P'.A = P.A) (dtUs' srHz' srPcmHz' : Int) (d0 : Dec Rat) (hd : decSetup P'.A hr dtUs' srHz' srPcmHz' true = some (some d0))
    (hdt : d0.dt = e0.dt) (hsr : d0.sr = e0.sr) (mem : Int → β) :
    ∃ rets e, encRun P ops (some e0) = some (rets, some e) ∧
      ∀ calls : List (DecCall Rat β), calls.length + 1 < 2 ^ 31 →
        (∀ c' ∈ calls, (CallOk c' ∧ c'.inp = none) ∨
          ∃ c out, (EncOp.encode c, some ((0 : Int), out)) ∈ ops.zip rets ∧ Gives c' (out.take c.nbytes.toNat)) →
        ∃ d, decRun P' calls (some d0) mem =
          some (calls.map fun c' => if c'.inp.isNone then 1 else 0, some d, silentOutput (ns d0.dt d0.srPcm) calls mem) := by
  obtain ⟨rets, e, g1, -, g2⟩ := C91_encoder h P hP hA hG hr dtUs srHz srPcmHz e0 hs ops hops
  refine ⟨rets, e, g1, fun calls hn hc => ?_⟩
  obtain ⟨d, k, -⟩ := silent_decoder h P' (hP'.trans hP) hr dtUs' srHz' srPcmHz' d0 hd mem calls (by
    intro c' hc'
    rcases hc c' hc' with hc' | ⟨c, out, h1, h2⟩
    · exact Or.inl hc'
    · exact Or.inr ⟨_, h2, by rw [hdt, hsr]; exact g2 c out h1 _⟩) hn
  exact ⟨d, k⟩

/-! ### The mathematical functions -/

/-- The functions of `floatMath` meet the hypotheses, with the logarithm of `1e-10f`. -/
theorem gainSane_floatMath (hs : rnd (rnd (1 / 100000)) = rnd (1 / 100000))
    (hd : -100000000 ≤ floatMath.db (rnd (1 / 10000000000)) ∧ floatMath.db (rnd (1 / 10000000000)) ≤ -1000000) : GainSane rnd floatMath where
  sqrt := by decide +kernel
  min b hb := by show (if (0 : Rat) ≤ b then 0 else b) = 0; rw [if_pos hb]
  ldexp e := zero_mul _
  round x := by
    show |((if x < 0 then -(Rat.floor (1/2 - x)) else Rat.floor (x + 1/2) : Int) : Rat) - x| ≤ 1 / 2
    have fl1 : ∀ y : Rat, (Rat.floor y : Rat) ≤ y := fun y => Rat.floor_le y
    have fl2 : ∀ y : Rat, y < (Rat.floor y : Rat) + 1 := fun y => by exact_mod_cast Rat.lt_floor_add_one y
    rw [abs_le]
    split
    · have := fl1 (1/2 - x)
      have := fl2 (1/2 - x)
      push_cast
      constructor <;> linarith
    · have := fl1 (x + 1/2)
      have := fl2 (x + 1/2)
      constructor <;> linarith
  small := hs
  db := hd

/-- The functions in binary32, with the rounding of the code. -/
theorem gainSane_f32 : GainSane rne24 floatMath ∧ GainSane fl floatMath ∧ GainSane id floatMath :=
  ⟨gainSane_floatMath (by decide +kernel) (by decide +kernel), gainSane_floatMath (by decide +kernel) (by decide +kernel),
   gainSane_floatMath rfl (by decide +kernel)⟩

/-! The hypotheses are met: `k` frames of 2.5 ms at 8 kHz, of 20 bytes, for any `k`; a decoder receives any of them, and losses. -/
example (k : Nat) (P' : Platform Rat) (hP' : P'.A = Arith.exact) (mem : Int → Int) :
    ∃ (e0 e : Enc Rat) (d0 : Dec Rat) (outs : List (List Nat)), encSetup exEncPlat.A false 2500 8000 0 true = some (some e0) ∧
      encRun exEncPlat (List.replicate k (.encode exZeroCall)) (some e0) = some (outs.map fun o => some (0, o), some e) ∧ outs.length = k ∧
      decSetup P'.A false 2500 8000 0 true = some (some d0) ∧
      ∀ calls : List (DecCall Rat Int), calls.length < 2000000000 → (∀ c ∈ calls, (CallOk c ∧ c.inp = none) ∨ ∃ o ∈ outs, Gives c (o.take 20)) →
        ∃ d, decRun P' calls (some d0) mem = some (calls.map fun c => if c.inp.isNone then 1 else 0, some d, silentOutput 20 calls mem) := by
  obtain ⟨e0, h0, q1, q2, q3⟩ : ∃ e0, encSetup exEncPlat.A false 2500 8000 0 true = some (some e0) ∧ e0.dt = .m2_5 ∧ e0.sr = .k8 ∧ e0.srPcm = .k8 :=
    ⟨_, rfl, rfl, rfl, rfl⟩
  obtain ⟨d0, h1, r1, r2, r3⟩ : ∃ d0, decSetup P'.A false 2500 8000 0 true = some (some d0) ∧ d0.dt = .m2_5 ∧ d0.sr = .k8 ∧ d0.srPcm = .k8 :=
    ⟨_, rfl, rfl, rfl, rfl⟩
  have hops : ∀ c, EncOp.encode c ∈ List.replicate k (EncOp.encode exZeroCall) → c.Ok (ns e0.dt e0.srPcm) ∧ c.Null (ns e0.dt e0.srPcm) := by
    intro c hc
    have := List.eq_of_mem_replicate hc
    injection this with this
    subst this
    exact ⟨⟨fun i _ => ⟨0, 0, rfl, by decide, by decide⟩, by decide⟩, fun i _ => rfl⟩
  obtain ⟨rets, e, g1, g2, -⟩ := C91_encoder roundF_id exEncPlat rfl exEncCandidates gainSane_f32.2.2 false 2500 8000 0 e0 h0 _ hops
  obtain ⟨rets', e', g1', g3⟩ := C91_stream roundF_id exEncPlat rfl exEncCandidates gainSane_f32.2.2 false 2500 8000 0 e0 h0 _ hops P' hP' 2500 8000 0 d0 h1
    (r1.trans q1.symm) (r2.trans q2.symm) mem
  rw [g1, Option.some.injEq, Prod.mk.injEq] at g1'
  obtain ⟨rfl, -⟩ := g1'
  rw [List.map_replicate, q1, q2, show encReturn .m2_5 .k8 (.encode exZeroCall) = some 0 by decide] at g2
  obtain ⟨l1, l2⟩ := List.eq_replicate_iff.1 g2
  rw [List.length_map] at l1
  have hr : rets = (rets.map fun r => (r.map Prod.snd).getD []).map fun o => some (0, o) := by
    rw [List.map_map]
    conv => lhs; rw [← List.map_id rets]
    refine List.map_congr_left fun r hr => ?_
    have h2 := l2 _ (List.mem_map_of_mem hr)
    obtain ⟨⟨a, b⟩, rfl, h3⟩ := Option.map_eq_some_iff.1 h2
    dsimp only at h3
    subst h3
    rfl
  refine ⟨e0, e, d0, rets.map fun r => (r.map Prod.snd).getD [], h0, ?_, by rw [List.length_map, l1], h1, ?_⟩
  · rw [← hr]; exact g1
  · intro calls hn hc
    have := g3 calls (by omega) (by
      intro c hc'
      rcases hc c hc' with hc' | ⟨o, ho, hc'⟩
      · exact Or.inl hc'
      · refine Or.inr ⟨exZeroCall, o, ?_, hc'⟩
        have hm : some ((0 : Int), o) ∈ rets := by rw [hr]; exact List.mem_map_of_mem ho
        obtain ⟨i, hi, he⟩ := List.mem_iff_getElem.mp hm
        refine List.mem_iff_getElem.mpr ⟨i, by rw [List.length_zip, List.length_replicate]; omega, ?_⟩
        rw [List.getElem_zip, he, List.getElem_replicate])
    rw [r1, r3] at this
    exact this

end LC3
