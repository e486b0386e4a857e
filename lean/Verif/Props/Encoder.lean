import Verif.Lemmas.Encoder
import Verif.Props.Decoder

/-!
Properties of the encoder seen through `lc3_setup_encoder`, `lc3_encoder_disable_ltpf` and `lc3_encode`, on any sequence of calls: the
values returned and the effects (C09), the possible undefined behaviours (C59), the absence of influence of uninitialised memory and
of the previous content of the output (C60).
-/

namespace LC3

variable {R : Type} {α : Type} [Inhabited R]

/-! ### The processing of a call -/

/-- A call where the samples can be converted, to 16 bits among others, and with room in the output: `n` is the number of samples. -/
structure EncCall.Ok (c : EncCall R α) (n : Nat) : Prop where
  pcm : ∀ i : Nat, i < n → ∃ s v, c.conv (c.pcm (c.base + i * c.stride)) = some (s, v) ∧ -32768 ≤ s ∧ s ≤ 32767
  out : c.nbytes ≤ c.out.length

/-- The samples of a call. -/
def EncCall.samples (c : EncCall R α) (n : Nat) : Option (List (Int × R)) := (pcmLoad c.stride c.pcm c.base n).mapM c.conv

theorem samples_some (c : EncCall R α) (n : Nat) (h : c.Ok n) :
    ∃ v, c.samples n = some v ∧ v.length = n ∧ ∀ p ∈ v, -32768 ≤ p.1 ∧ p.1 ≤ 32767 := by
  obtain ⟨l1, l2⟩ := pcmLoad_spec c.stride c.pcm n c.base
  obtain ⟨v, h1, h2, h3⟩ := mapM_prop c.conv (fun p => -32768 ≤ p.1 ∧ p.1 ≤ 32767) (pcmLoad c.stride c.pcm c.base n) (by
    intro a ha
    obtain ⟨i, hi, rfl⟩ := List.mem_iff_getElem.mp ha
    rw [l2 i hi]
    obtain ⟨s, v, e, hb⟩ := h.pcm i (by omega)
    exact ⟨_, e, hb⟩)
  exact ⟨v, h1, by omega, h3⟩

/-- The analysis and the writing of a frame, on samples already loaded. -/
def encCore (P : EncPlatform R) (u : EncJunk R) (n : Nat) (data : List Nat) (e : Enc R) : Option (List Nat × Enc R) :=
  (encAnalyze P u n e).bind fun a =>
  (encodeFrame P.A a.2.dt a.2.sr data a.1 (a.2.xs.take (ne a.2.dt a.2.sr))).bind fun f => some (f, a.2)

theorem encProcess_core (P : EncPlatform R) (c : EncCall R α) (e : Enc R) (v : List (Int × R)) (hv : c.samples (ns e.dt e.srPcm) = some v)
    (ho : c.nbytes ≤ c.out.length) :
    encProcess P c e = (encCore P c.junk c.nbytes.toNat (c.out.take c.nbytes.toNat) (encLoad v e)).map fun r =>
      (r.1 ++ c.out.drop c.nbytes.toNat, r.2) := by
  unfold encProcess encCore
  unfold EncCall.samples at hv
  rw [hv, Option.bind_some]
  cases encAnalyze P c.junk c.nbytes.toNat (encLoad v e) with
  | none => rfl
  | some a =>
    rw [Option.bind_some, Option.bind_some, if_neg (by omega)]
    cases encodeFrame P.A a.2.dt a.2.sr (c.out.take c.nbytes.toNat) a.1 (a.2.xs.take (ne a.2.dt a.2.sr)) with
    | none => rfl
    | some f => rfl

theorem load_inv (e : Enc R) (he : EncInv e) (v : List (Int × R)) (hv : v.length = ns e.dt e.srPcm)
    (h16 : ∀ p ∈ v, -32768 ≤ p.1 ∧ p.1 ≤ 32767) : EncInv (encLoad v e) := by
  obtain ⟨h1, h2, h3, h4, h5, h6, h7, h8, h9, h10⟩ := he
  refine ⟨h1, h2, h3, h4, h5, h6, ?_, ?_, ?_, h10⟩
  · unfold encLoad
    dsimp only
    rw [List.length_append, List.length_take, List.length_map]; omega
  · intro x hx
    unfold encLoad at hx
    dsimp only at hx
    rcases List.mem_append.mp hx with hx | hx
    · exact h8 x (List.mem_of_mem_take hx)
    · obtain ⟨p, hp, rfl⟩ := List.mem_map.mp hx
      exact h16 p hp
  · unfold encLoad
    dsimp only
    rw [List.length_map]; exact hv

theorem maxFrame_int (dt : Dt) (sr : Srate) (n : Int) (h : ¬ (n < minFrameBytes dt sr ∨ n > maxFrameBytes dt sr)) :
    0 ≤ n ∧ n.toNat ≤ 625 := by
  have := maxFrame_le dt sr
  omega

set_option maxHeartbeats 1000000 in
/-- The frame of the samples `e.xt`, `e.xs` already loaded. -/
theorem core_spec (P : EncPlatform R) (hA : CandidatesOk P.A) (e : Enc R) (he : EncInv e) (n : Nat) (hn : n ≤ 625) :
    ∃ (us : List Int) (s : Stages R), us.length = (1 + e.dt.idx) * 32 ∧ (∀ v ∈ us, -2147450880 ≤ v ∧ v ≤ 2147450880) ∧ s.Ok e n ∧
      s.Run P e n ∧
      (∀ u data, data.length = n → (encCore P u n data e = none ↔ encPitch P u e = none ∨
        ∃ pitch, (encPitch P u e).map Prod.fst = some pitch ∧
          specAnalyze P.A P.G e.dt e.sr n pitch s.tns e.spec (s.x.take (ne e.dt e.sr)) = none)) ∧
      (∀ u data f e', data.length = n → encCore P u n data e = some (f, e') →
        f.length = n ∧ Bytes f ∧ EncInv e' ∧ e'.dt = e.dt ∧ e'.sr = e.sr ∧ e'.srPcm = e.srPcm ∧ e'.bypass = e.bypass ∧
        e'.xt = encShift e e.xt ∧ e'.xd = e.xs.drop (ns e.dt e.srPcm - nd e.dt e.srPcm) ∧
        ∀ u' data', data'.length = n → encCore P u' n data' e = some (f, e')) := by
  obtain ⟨us, p1, p2, p3, p4⟩ := encPitch_spec P e he
  obtain ⟨s, s1, s3, s2⟩ := analyze_stages P hA e he n (by omega)
  have hlen : (s.x.take (ne e.dt e.sr)).length = ne e.dt e.sr := by
    obtain ⟨d4, d5, d6, -, -⟩ := dec_dims e.dt e.sr e.srPcm he.rate
    rw [List.length_take, s1.x]; omega
  have hdims := dec_dims e.dt e.sr e.srPcm he.rate
  -- a call without undefined behaviour
  have good : ∀ u p l t st y sp, encPitch P u e = some (p, l, t) →
      specAnalyze P.A P.G e.dt e.sr n p s.tns e.spec (s.x.take (ne e.dt e.sr)) = some (st, y, sp) →
      ∃ f, f.length = n ∧ Bytes f ∧ y.length = ne e.dt e.sr ∧ ∀ u' data', data'.length = n →
        encCore P u' n data' e = some (f, { e with attdet := s.att.2, ltpf := t, spec := st, xt := encShift e e.xt, xd := s.xd
                                                   xs := y ++ s.x.drop (ne e.dt e.sr) }) := by
    intro u p l t st y sp hp hs
    obtain ⟨g1, g2, -⟩ := C47_decision P.A P.G e.dt e.sr n p s.tns e.spec st _ y hlen sp hs
    have g3 := specAnalyze_coded P.A P.G e.dt e.sr n p s.tns e.spec st _ y sp hs
    obtain ⟨-, q2, q3, -⟩ := p4 u u p l t hp
    obtain ⟨f, f1, f2, f3⟩ := encodeFrame_total P.A e.dt e.sr n (s.side e.bypass (p, l) sp) ⟨s1.bw, g1, s1.tns, s1.sns, fun h => by
      have := q2 h
      unfold Stages.side
      dsimp only
      split
      · exact this
      · exact this⟩ y g2 g3
    refine ⟨f, f1, f2, g2, ?_⟩
    intro u' data' hd'
    obtain ⟨-, -, -, l', r1, r2⟩ := p4 u u' p l t hp
    unfold encCore
    rw [s2 u', r1, Option.bind_some]
    dsimp only
    rw [hs, Option.bind_some, Option.bind_some]
    dsimp only
    rw [List.take_append_of_le_length (by omega), List.take_of_length_le (by omega)]
    have : encodeFrame P.A e.dt e.sr data' (s.side e.bypass (p, l') sp) y = some f := by
      rw [← f3 data' hd']
      cases hpp : p with
      | true => rw [r2 hpp]
      | false => exact encodeFrame_ltpf P.A e.dt e.sr data' (s.side e.bypass (false, l) sp) _ y rfl
    rw [this, Option.bind_some]
  refine ⟨us, s, p1, p2, s1, s3, ?_, ?_⟩
  · intro u data hd
    cases hp : encPitch P u e with
    | none =>
      unfold encCore
      rw [s2 u, hp]
      simp
    | some q =>
      obtain ⟨p, l, t⟩ := q
      cases hs : specAnalyze P.A P.G e.dt e.sr n p s.tns e.spec (s.x.take (ne e.dt e.sr)) with
      | none =>
        constructor
        · intro _
          exact Or.inr ⟨p, rfl, hs⟩
        · intro _
          unfold encCore
          rw [s2 u, hp, Option.bind_some]
          dsimp only
          rw [hs]
          rfl
      | some w =>
        obtain ⟨st, y, sp⟩ := w
        obtain ⟨f, f1, f2, -, f3⟩ := good u p l t st y sp hp hs
        rw [f3 u data hd]
        constructor
        · intro h; cases h
        · rintro (h | ⟨pitch, h1, h2⟩)
          · cases h
          · rw [Option.map_some] at h1
            have h1 := Option.some.inj h1
            dsimp only at h1
            rw [← h1, hs] at h2
            cases h2
  · intro u data f e' hd h
    cases hp : encPitch P u e with
    | none =>
      unfold encCore at h
      rw [s2 u, hp] at h
      cases h
    | some q =>
      obtain ⟨p, l, t⟩ := q
      cases hs : specAnalyze P.A P.G e.dt e.sr n p s.tns e.spec (s.x.take (ne e.dt e.sr)) with
      | none =>
        unfold encCore at h
        rw [s2 u, hp, Option.bind_some] at h
        dsimp only at h
        rw [hs] at h
        cases h
      | some w =>
        obtain ⟨st, y, sp⟩ := w
        obtain ⟨f', f1, f2, f3, f4⟩ := good u p l t st y sp hp hs
        rw [f4 u data hd] at h
        have h := Option.some.inj h
        rw [Prod.mk.injEq] at h
        obtain ⟨rfl, rfl⟩ := h
        obtain ⟨q1, -⟩ := p4 u u p l t hp
        obtain ⟨d1, d2, d3⟩ := enc_dims e.dt e.srPcm
        refine ⟨f1, f2, ⟨he.cfg, he.cfgPcm, he.rate, he.mode, s1.att, q1, ?_, ?_, ?_, ?_⟩, rfl, rfl, rfl, rfl, rfl, s1.xd, f4⟩
        · dsimp only [encShift]
          rw [List.length_append, List.length_take, List.length_drop, List.length_drop, he.xt]; omega
        · intro x hx
          dsimp only [encShift] at hx
          rcases List.mem_append.mp hx with hx | hx
          · exact he.v16 x (List.mem_of_mem_drop (List.mem_of_mem_take hx))
          · exact he.v16 x (List.mem_of_mem_drop hx)
        · dsimp only
          rw [List.length_append, List.length_drop, s1.x, f3]; omega
        · dsimp only
          rw [s1.xd, List.length_drop, he.xs]; omega

/-! ### C09: the values returned and the effects -/

/-- **C09**, encoder: a call without encoder, or with a size out of the limits, returns -1 and has no effect. -/
theorem C09_encode_rejected (P : EncPlatform R) (c : EncCall R α) :
    lc3Encode P c none = some (-1, c.out, none) ∧
    ∀ e : Enc R, c.nbytes < minFrameBytes e.dt e.sr ∨ c.nbytes > maxFrameBytes e.dt e.sr →
      lc3Encode P c (some e) = some (-1, c.out, some e) := by
  refine ⟨rfl, fun e h => ?_⟩
  unfold lc3Encode
  dsimp only
  rw [if_pos h]

/-- The calls `ops` lead an encoder, just setup, to the state `e`. -/
structure EncPlayed (P : EncPlatform R) (hr : Bool) (dtUs srHz srPcmHz : Int) (ops : List (EncOp R α))
    (rets : List (Option (Int × List Nat))) (e : Enc R) : Prop where
  ok : ∀ c, .encode c ∈ ops → c.Ok (ns e.dt e.srPcm)
  run : ∃ e0, encSetup P.A hr dtUs srHz srPcmHz true = some (some e0) ∧ encRun P ops (some e0) = some (rets, some e)

/-- The encoder after a setup. -/
theorem encSetup_inv (P : EncPlatform R) (hr : Bool) (dtUs srHz srPcmHz : Int) (m : Bool) (e : Enc R)
    (h : encSetup P.A hr dtUs srHz srPcmHz m = some (some e)) :
    EncInv e ∧ e.bypass = false ∧ resolveDt dtUs hr = some e.dt ∧ resolveSrate srHz hr = some e.sr ∧
      resolveSrate (Spec.pcmRate srHz srPcmHz) hr = some e.srPcm := by
  obtain ⟨s1, s2⟩ := C06_setup_encoder 0 hr dtUs srHz srPcmHz m
  unfold encSetup at h
  by_cases hok : Spec.setupOk hr dtUs srHz srPcmHz m
  · obtain ⟨L, size, a1, a2, a3, a4, a5, a6, a7, a8, a9, a10, a11, a12⟩ := s2 hok
    rw [a1, Option.map_some, Option.map_some] at h
    have h := Option.some.inj (Option.some.inj h)
    obtain ⟨z, hz⟩ : ∃ z, z = L.zeroed.toNat := ⟨_, rfl⟩
    rw [← hz] at h
    have hzl : z = L.xdOff + nd L.dt L.srPcm := by rw [hz, a10, ← a9]; rfl
    obtain ⟨-, p1, p2, p3⟩ := hok
    obtain ⟨c1, c2⟩ := resolve_config a3 a4
    obtain ⟨c3, c4⟩ := resolve_config a3 a5
    subst h
    refine ⟨⟨c1, c3, (idx_le_iff a4 a5).2 p3, by rw [c2, c4], ?_, LtpfA.init_ok _, ?_, ?_, ?_, ?_⟩, rfl, a3, a4, a5⟩
    · have : (0 : Int) ≤ maxEnergy := by decide
      exact ⟨⟨Int.le_refl 0, this⟩, ⟨Int.le_refl 0, this⟩, ⟨Int.le_refl 0, by dsimp only; omega⟩⟩
    · dsimp only
      rw [List.length_replicate, a6]
    · intro x hx
      rw [List.eq_of_mem_replicate hx]; exact ⟨by decide, by decide⟩
    · dsimp only
      rw [List.length_replicate]; omega
    · dsimp only
      rw [List.length_replicate]; omega
  · rw [s1 hok] at h
    cases h

/-- A call that is accepted. -/
theorem encode_step (P : EncPlatform R) (hA : CandidatesOk P.A) (e : Enc R) (he : EncInv e) (c : EncCall R α)
    (hc : c.Ok (ns e.dt e.srPcm)) (hn : ¬ (c.nbytes < minFrameBytes e.dt e.sr ∨ c.nbytes > maxFrameBytes e.dt e.sr)) :
    ∃ (v : List (Int × R)) (s : Stages R), c.samples (ns e.dt e.srPcm) = some v ∧ EncInv (encLoad v e) ∧
      s.Ok (encLoad v e) c.nbytes.toNat ∧ s.Run P (encLoad v e) c.nbytes.toNat ∧
      (lc3Encode P c (some e) = none ↔ encPitch P c.junk (encLoad v e) = none ∨
        ∃ pitch, (encPitch P c.junk (encLoad v e)).map Prod.fst = some pitch ∧
          specAnalyze P.A P.G e.dt e.sr c.nbytes.toNat pitch s.tns e.spec (s.x.take (ne e.dt e.sr)) = none) ∧
      (∀ r out e', lc3Encode P c (some e) = some (r, out, e') → ∃ f e1, r = 0 ∧ e' = some e1 ∧ out = f ++ c.out.drop c.nbytes.toNat ∧
        f.length = c.nbytes.toNat ∧ Bytes f ∧ EncInv e1 ∧ e1.dt = e.dt ∧ e1.sr = e.sr ∧ e1.srPcm = e.srPcm ∧ e1.bypass = e.bypass ∧
        ∀ c' : EncCall R α, c'.samples (ns e.dt e.srPcm) = c.samples (ns e.dt e.srPcm) → c'.nbytes = c.nbytes → c'.nbytes ≤ c'.out.length →
          lc3Encode P c' (some e) = some (0, f ++ c'.out.drop c.nbytes.toNat, some e1)) := by
  obtain ⟨n0, n1⟩ := maxFrame_int e.dt e.sr c.nbytes hn
  obtain ⟨v, v1, v2, v3⟩ := samples_some c _ hc
  have hl := load_inv e he v v2 v3
  obtain ⟨us, s, u1, u2, u3, u6, u4, u5⟩ := core_spec P hA (encLoad v e) hl c.nbytes.toNat n1
  have hdata : (c.out.take c.nbytes.toNat).length = c.nbytes.toNat := by
    have := hc.out
    rw [List.length_take]; omega
  have hcall : ∀ c' : EncCall R α, c'.samples (ns e.dt e.srPcm) = some v → c'.nbytes = c.nbytes → c'.nbytes ≤ c'.out.length →
      lc3Encode P c' (some e) = (encCore P c'.junk c.nbytes.toNat (c'.out.take c.nbytes.toNat) (encLoad v e)).map fun r =>
        (0, r.1 ++ c'.out.drop c.nbytes.toNat, some r.2) := by
    intro c' h1 h2 h3
    unfold lc3Encode
    dsimp only
    rw [h2, if_neg hn, encProcess_core P c' e v h1 h3, h2, Option.map_map]
    rfl
  refine ⟨v, s, v1, hl, u3, u6, ?_, ?_⟩
  · rw [hcall c v1 rfl hc.out, Option.map_eq_none_iff]
    exact u4 c.junk _ hdata
  · intro r out e' h
    rw [hcall c v1 rfl hc.out] at h
    obtain ⟨⟨f, e1⟩, h1, h2⟩ := Option.map_eq_some_iff.1 h
    dsimp only at h2
    rw [Prod.mk.injEq, Prod.mk.injEq] at h2
    obtain ⟨rfl, rfl, rfl⟩ := h2
    obtain ⟨g1, g2, g3, g4, g5, g6, g7, -, -, g8⟩ := u5 c.junk _ f e1 hdata h1
    refine ⟨f, e1, rfl, rfl, rfl, g1, g2, g3, g4, g5, g6, g7, ?_⟩
    intro c' k1 k2 k3
    rw [hcall c' (by rw [k1]; exact v1) k2 k3, g8 c'.junk _ (by rw [List.length_take]; omega)]
    rfl

theorem EncPlayed.inv {P : EncPlatform R} (hA : CandidatesOk P.A) {hr : Bool} {dtUs srHz srPcmHz : Int} {ops : List (EncOp R α)}
    {rets : List (Option (Int × List Nat))} {e : Enc R} (h : EncPlayed P hr dtUs srHz srPcmHz ops rets e) :
    EncInv e ∧ resolveDt dtUs hr = some e.dt ∧ resolveSrate srHz hr = some e.sr ∧
      resolveSrate (Spec.pcmRate srHz srPcmHz) hr = some e.srPcm ∧ rets.length = ops.length ∧
      (e.bypass = true ↔ EncOp.disableLtpf ∈ ops) := by
  obtain ⟨hok, e0, h0, h1⟩ := h
  obtain ⟨i0, b0, r1, r2, r3⟩ := encSetup_inv P hr dtUs srHz srPcmHz true e0 h0
  have key : ∀ (ops : List (EncOp R α)) (e0 e : Enc R) (rets : List (Option (Int × List Nat))), EncInv e0 →
      (∀ c, .encode c ∈ ops → c.Ok (ns e0.dt e0.srPcm)) → encRun P ops (some e0) = some (rets, some e) →
      EncInv e ∧ e.dt = e0.dt ∧ e.sr = e0.sr ∧ e.srPcm = e0.srPcm ∧ rets.length = ops.length ∧
        (e.bypass = true ↔ e0.bypass = true ∨ EncOp.disableLtpf ∈ ops) := by
    intro ops
    induction ops with
    | nil =>
      intro e0 e rets hi _ h
      unfold encRun at h
      have h := Option.some.inj h
      rw [Prod.mk.injEq] at h
      have h2 := Option.some.inj h.2
      subst h2
      rw [← h.1]
      exact ⟨hi, rfl, rfl, rfl, rfl, by simp⟩
    | cons o l ih =>
      intro e0 e rets hi hc h
      unfold encRun at h
      obtain ⟨⟨r, e1⟩, g1, g2⟩ := Option.bind_eq_some_iff.1 h
      obtain ⟨⟨rs, e2⟩, g3, g4⟩ := Option.map_eq_some_iff.1 g2
      rw [Prod.mk.injEq] at g4
      obtain ⟨rfl, rfl⟩ := g4
      dsimp only at g3
      cases o with
      | disableLtpf =>
        unfold encStep at g1
        have g1 := Option.some.inj g1
        rw [Prod.mk.injEq] at g1
        obtain ⟨-, rfl⟩ := g1
        obtain ⟨a1, a2, a3, a4, a5, a6⟩ := ih { e0 with bypass := true } e rs
          ⟨hi.cfg, hi.cfgPcm, hi.rate, hi.mode, hi.att, hi.ltpf, hi.xt, hi.v16, hi.xs, hi.xd⟩ (fun c h => hc c (by simp [h])) g3
        refine ⟨a1, a2, a3, a4, by simp [a5], ?_⟩
        rw [a6]; simp
      | encode c =>
        unfold encStep at g1
        obtain ⟨⟨r', out, e'⟩, g5, g6⟩ := Option.map_eq_some_iff.1 g1
        dsimp only at g6
        rw [Prod.mk.injEq] at g6
        obtain ⟨rfl, rfl⟩ := g6
        by_cases hn : c.nbytes < minFrameBytes e0.dt e0.sr ∨ c.nbytes > maxFrameBytes e0.dt e0.sr
        · rw [(C09_encode_rejected P c).2 e0 hn] at g5
          have g5 := Option.some.inj g5
          rw [Prod.mk.injEq, Prod.mk.injEq] at g5
          obtain ⟨-, -, rfl⟩ := g5
          obtain ⟨a1, a2, a3, a4, a5, a6⟩ := ih e0 e rs hi (fun c h => hc c (by simp [h])) g3
          exact ⟨a1, a2, a3, a4, by simp [a5], by rw [a6]; simp⟩
        · obtain ⟨v, s, -, -, -, -, -, hs⟩ := encode_step P hA e0 hi c (hc c (by simp)) hn
          obtain ⟨f, e1, rfl, rfl, -, -, -, b1, b2, b3, b4, b5, -⟩ := hs _ _ _ g5
          obtain ⟨a1, a2, a3, a4, a5, a6⟩ := ih e1 e rs b1 (fun c h => by rw [b2, b4]; exact hc c (by simp [h])) g3
          exact ⟨a1, by rw [a2, b2], by rw [a3, b3], by rw [a4, b4], by simp [a5], by rw [a6, b5]; simp⟩
  have hcfg : ∀ (ops : List (EncOp R α)) (e0 e : Enc R) (rets : List (Option (Int × List Nat))),
      encRun P ops (some e0) = some (rets, some e) → e.dt = e0.dt ∧ e.srPcm = e0.srPcm := by
    intro ops
    induction ops with
    | nil =>
      intro e0 e rets h
      unfold encRun at h
      have h := Option.some.inj h
      rw [Prod.mk.injEq] at h
      have h2 := Option.some.inj h.2
      rw [h2]; exact ⟨rfl, rfl⟩
    | cons o l ih =>
      intro e0 e rets h
      unfold encRun at h
      obtain ⟨⟨r, e1⟩, g1, g2⟩ := Option.bind_eq_some_iff.1 h
      obtain ⟨⟨rs, e2⟩, g3, g4⟩ := Option.map_eq_some_iff.1 g2
      rw [Prod.mk.injEq] at g4
      obtain ⟨rfl, rfl⟩ := g4
      dsimp only at g3
      obtain ⟨e1', he1, hd⟩ : ∃ e1', e1 = some e1' ∧ e1'.dt = e0.dt ∧ e1'.srPcm = e0.srPcm := by
        cases o with
        | disableLtpf =>
          unfold encStep at g1
          have g1 := Option.some.inj g1
          rw [Prod.mk.injEq] at g1
          exact ⟨_, g1.2.symm, rfl, rfl⟩
        | encode c =>
          unfold encStep at g1
          obtain ⟨⟨r', out, e'⟩, g5, g6⟩ := Option.map_eq_some_iff.1 g1
          dsimp only at g6
          rw [Prod.mk.injEq] at g6
          obtain ⟨-, rfl⟩ := g6
          unfold lc3Encode at g5
          dsimp only at g5
          split at g5
          · have g5 := Option.some.inj g5
            rw [Prod.mk.injEq, Prod.mk.injEq] at g5
            exact ⟨e0, g5.2.2.symm, rfl, rfl⟩
          · obtain ⟨w, w1, w2⟩ := Option.map_eq_some_iff.1 g5
            rw [Prod.mk.injEq, Prod.mk.injEq] at w2
            refine ⟨w.2, w2.2.2.symm, ?_⟩
            unfold encProcess at w1
            obtain ⟨v, -, w1⟩ := Option.bind_eq_some_iff.1 w1
            obtain ⟨a, k1, w1⟩ := Option.bind_eq_some_iff.1 w1
            have hw : w.2 = a.2 := by
              split at w1
              · cases w1
              · obtain ⟨f, -, w1⟩ := Option.bind_eq_some_iff.1 w1
                rw [← Option.some.inj w1]
            rw [hw]
            unfold encAnalyze at k1
            obtain ⟨_, -, k1⟩ := Option.bind_eq_some_iff.1 k1
            obtain ⟨_, -, k1⟩ := Option.bind_eq_some_iff.1 k1
            obtain ⟨_, -, k1⟩ := Option.bind_eq_some_iff.1 k1
            obtain ⟨_, -, k1⟩ := Option.bind_eq_some_iff.1 k1
            obtain ⟨_, -, k1⟩ := Option.bind_eq_some_iff.1 k1
            obtain ⟨_, -, k1⟩ := Option.bind_eq_some_iff.1 k1
            obtain ⟨_, -, k1⟩ := Option.bind_eq_some_iff.1 k1
            obtain ⟨_, -, k1⟩ := Option.bind_eq_some_iff.1 k1
            rw [← Option.some.inj k1]
            exact ⟨rfl, rfl⟩
      subst he1
      obtain ⟨i1, i2⟩ := ih e1' e rs g3
      exact ⟨by rw [i1, hd.1], by rw [i2, hd.2]⟩
  obtain ⟨c1, c2⟩ := hcfg ops e0 e rets h1
  rw [c1, c2] at hok
  obtain ⟨a1, a2, a3, a4, a5, a6⟩ := key ops e0 e rets i0 hok h1
  rw [b0] at a6
  exact ⟨a1, by rw [a2]; exact r1, by rw [a3]; exact r2, by rw [a4]; exact r3, a5, by rw [a6]; simp⟩

/-- **C09**, encoder: on an encoder that has been setup, whatever the calls before, a call returns -1 exactly when the size is out of the
limits, else 0; then it writes `nbytes` bytes exactly, and keeps the configuration. (When the call is defined: see C59.) -/
theorem C09_encode_accepted (P : EncPlatform R) (hA : CandidatesOk P.A) (hr : Bool) (dtUs srHz srPcmHz : Int) (ops : List (EncOp R α))
    (rets : List (Option (Int × List Nat))) (e : Enc R) (h : EncPlayed P hr dtUs srHz srPcmHz ops rets e) (c : EncCall R α)
    (hc : c.Ok (ns e.dt e.srPcm)) (r : Int) (out : List Nat) (e' : Option (Enc R)) (hd : lc3Encode P c (some e) = some (r, out, e')) :
    (r = -1 ↔ c.nbytes < minFrameBytes e.dt e.sr ∨ c.nbytes > maxFrameBytes e.dt e.sr) ∧ (r = -1 ∨ r = 0) ∧
    (r = 0 → out.length = c.out.length ∧ out.drop c.nbytes.toNat = c.out.drop c.nbytes.toNat ∧ Bytes (out.take c.nbytes.toNat) ∧
      ∃ e1, e' = some e1 ∧ e1.dt = e.dt ∧ e1.sr = e.sr ∧ e1.srPcm = e.srPcm ∧ e1.bypass = e.bypass) := by
  obtain ⟨hi, -⟩ := h.inv hA
  by_cases hn : c.nbytes < minFrameBytes e.dt e.sr ∨ c.nbytes > maxFrameBytes e.dt e.sr
  · rw [(C09_encode_rejected P c).2 e hn] at hd
    have hd := Option.some.inj hd
    rw [Prod.mk.injEq] at hd
    refine ⟨⟨fun _ => hn, fun _ => hd.1.symm⟩, Or.inl hd.1.symm, fun h => ?_⟩
    rw [← hd.1] at h
    cases h
  · obtain ⟨v, s, -, -, -, -, -, hs⟩ := encode_step P hA e hi c hc hn
    obtain ⟨f, e1, rfl, rfl, rfl, l1, l2, -, b2, b3, b4, b5, -⟩ := hs _ _ _ hd
    have ho := hc.out
    refine ⟨⟨fun h => (by cases h), fun h => absurd h hn⟩, Or.inr rfl, fun _ => ⟨?_, ?_, ?_, e1, rfl, b2, b3, b4, b5⟩⟩
    · rw [List.length_append, l1, List.length_drop]; omega
    · rw [List.drop_append_of_le_length (by omega), List.drop_of_length_le (by omega), List.nil_append]
    · rw [List.take_append_of_le_length (by omega), List.take_of_length_le (by omega)]; exact l2

/-! ### C59: the undefined behaviours -/

/-- **C59**, what holds: for an encoder that has been setup, and any sequence of calls, consider the next call, on the samples `v`. The
attack detector, the transform (whatever the content of its local buffer), the energies, the bandwidth detector, the noise shaping, the
temporal noise shaping and the writing of the frame are defined: no access out of a buffer, no overflow. The call is undefined exactly when
one of the two following computations is:
 * the resampling of the analysis of the pitch (see C39), never executed once `lc3_encoder_disable_ltpf` has been called;
 * the decision of the quantisation (see C48).

Missing: the absence of overflow of these two computations, which does not hold in general. -/
theorem C59_encode_partial (P : EncPlatform R) (hA : CandidatesOk P.A) (hr : Bool) (dtUs srHz srPcmHz : Int) (ops : List (EncOp R α))
    (rets : List (Option (Int × List Nat))) (e : Enc R) (h : EncPlayed P hr dtUs srHz srPcmHz ops rets e) (c : EncCall R α)
    (hc : c.Ok (ns e.dt e.srPcm)) (hn : ¬ (c.nbytes < minFrameBytes e.dt e.sr ∨ c.nbytes > maxFrameBytes e.dt e.sr)) :
    ∃ (v : List (Int × R)) (s : Stages R), c.samples (ns e.dt e.srPcm) = some v ∧ s.Run P (encLoad v e) c.nbytes.toNat ∧
      (lc3Encode P c (some e) = none ↔
        (EncOp.disableLtpf ∉ ops ∧
          resample (resampler e.srPcm) (e.xt.take (nt e.srPcm) ++ v.map Prod.fst) (nt e.srPcm) ((1 + e.dt.idx) * 32) 0 e.ltpf.hp50 = none) ∨
        ∃ pitch, (EncOp.disableLtpf ∈ ops → pitch = false) ∧
          (EncOp.disableLtpf ∉ ops → ∃ o s', ltpfAnalyse P.A P.sqrt e.dt e.srPcm e.ltpf (e.xt.take (nt e.srPcm) ++ v.map Prod.fst)
            (nt e.srPcm) = some (o, s') ∧ pitch = o.present) ∧
          specAnalyze P.A P.G e.dt e.sr c.nbytes.toNat pitch s.tns e.spec (s.x.take (ne e.dt e.sr)) = none) := by
  obtain ⟨hi, -, -, -, -, hb⟩ := h.inv hA
  obtain ⟨v, s, h1, h2, -, h3, h4, -⟩ := encode_step P hA e hi c hc hn
  refine ⟨v, s, h1, h3, h4.trans ?_⟩
  obtain ⟨us, -, -, w2, w3, w4⟩ := ltpfAnalyse_resample P.A P.sqrt e.dt e.srPcm e.ltpf hi.ltpf (encLoad v e).xt (nt e.srPcm) h2.v16 (Nat.le_refl _)
    (by rw [h2.xt]; exact Nat.le_refl _)
  have hx : (encLoad v e).xt = e.xt.take (nt e.srPcm) ++ v.map Prod.fst := rfl
  have hnone : ltpfAnalyse P.A P.sqrt e.dt e.srPcm e.ltpf (e.xt.take (nt e.srPcm) ++ v.map Prod.fst) (nt e.srPcm) = none ↔
      resample (resampler e.srPcm) (e.xt.take (nt e.srPcm) ++ v.map Prod.fst) (nt e.srPcm) ((1 + e.dt.idx) * 32) 0 e.ltpf.hp50 = none := by
    rw [← hx, w2]
    constructor
    · intro h
      cases hu : hpRun us e.ltpf.hp50 with
      | none => rfl
      | some q =>
        obtain ⟨o, s', g, -⟩ := w4 q.1 q.2 hu
        rw [h] at g
        cases g
    · exact w3
  by_cases hm : EncOp.disableLtpf ∈ ops
  · have hbt := hb.2 hm
    have hp : encPitch P c.junk (encLoad v e) = some (false, c.junk.ltpf, e.ltpf) := by
      unfold encPitch
      rw [if_pos (show (encLoad v e).bypass = true from hbt)]
      rfl
    rw [hp]
    simp [hm]
  · have hbf : e.bypass = false := by
      cases hb' : e.bypass with
      | false => rfl
      | true => exact absurd (hb.1 hb') hm
    have hp : encPitch P c.junk (encLoad v e) =
        (ltpfAnalyse P.A P.sqrt e.dt e.srPcm e.ltpf (e.xt.take (nt e.srPcm) ++ v.map Prod.fst) (nt e.srPcm)).bind fun r =>
          some (r.1.present, ⟨r.1.active, match r.1.index with | some p => p.toNat | none => c.junk.ltpf.pitchIndex⟩, r.2) := by
      unfold encPitch
      rw [if_neg (show ¬ (encLoad v e).bypass = true by rw [show (encLoad v e).bypass = e.bypass from rfl, hbf]; simp)]
      rfl
    rw [hp, ← hnone]
    cases ltpfAnalyse P.A P.sqrt e.dt e.srPcm e.ltpf (e.xt.take (nt e.srPcm) ++ v.map Prod.fst) (nt e.srPcm) with
    | none => simp [hm]
    | some q =>
      rw [Option.bind_some, Option.map_some]
      constructor
      · rintro (h | ⟨pitch, h1, h2⟩)
        · cases h
        · exact Or.inr ⟨pitch, fun h => absurd h hm, fun _ => ⟨q.1, q.2, rfl, (Option.some.inj h1).symm⟩, h2⟩
      · rintro (⟨-, h⟩ | ⟨pitch, -, h1, h2⟩)
        · cases h
        · obtain ⟨o, s', g1, g2⟩ := h1 hm
          have g1 := Option.some.inj g1
          rw [g2] at h2
          rw [g1]
          exact Or.inr ⟨_, rfl, h2⟩

/-! ### C60: the frame depends only on the samples -/

/-- Two calls with the same parameters and samples; the content of the output and of the uninitialised memory are any. -/
def SameInput (n : Nat) : EncOp R α → EncOp R α → Prop
  | .encode c, .encode c' => c'.samples n = c.samples n ∧ c'.nbytes = c.nbytes ∧ c.Ok n ∧ c'.Ok n
  | .disableLtpf, .disableLtpf => True
  | _, _ => False

/-- Same value returned, and same frame. -/
def SameOutput : EncOp R α → Option (Int × List Nat) → Option (Int × List Nat) → Prop
  | .encode c, some (r, out), some (r', out') => r' = r ∧ (r = 0 → out'.take c.nbytes.toNat = out.take c.nbytes.toNat)
  | .disableLtpf, none, none => True
  | _, _, _ => False

/-- **C60.** The frames, the values returned and the state of the encoder depend on the configuration and on the samples given only:
neither on the previous content of the output buffers, nor on the content of the uninitialised memory. -/
theorem C60_deterministic (P : EncPlatform R) (hA : CandidatesOk P.A) (hr : Bool) (dtUs srHz srPcmHz : Int) (e0 : Enc R)
    (h0 : encSetup P.A hr dtUs srHz srPcmHz true = some (some e0)) (ops ops' : List (EncOp R α))
    (hs : List.Forall₂ (SameInput (ns e0.dt e0.srPcm)) ops ops') (rets : List (Option (Int × List Nat))) (e : Option (Enc R))
    (hrun : encRun P ops (some e0) = some (rets, e)) :
    ∃ rets', encRun P ops' (some e0) = some (rets', e) ∧ rets.length = ops.length ∧ rets'.length = ops.length ∧
      ∀ (k : Nat) (o : EncOp R α), ops[k]? = some o → ∃ r r', rets[k]? = some r ∧ rets'[k]? = some r' ∧ SameOutput o r r' := by
  obtain ⟨i0, -⟩ := encSetup_inv P hr dtUs srHz srPcmHz true e0 h0
  clear h0
  obtain ⟨n, hn0⟩ : ∃ n, n = ns e0.dt e0.srPcm := ⟨_, rfl⟩
  rw [← hn0] at hs
  induction hs generalizing e0 rets with
  | nil =>
    unfold encRun at hrun ⊢
    have hrun := Option.some.inj hrun
    rw [Prod.mk.injEq] at hrun
    refine ⟨[], by rw [hrun.2], by rw [← hrun.1]; rfl, rfl, fun k o h => ?_⟩
    rw [List.getElem?_nil] at h
    cases h
  | @cons o o' l l' ho hl ih =>
    unfold encRun at hrun
    obtain ⟨⟨r, e1⟩, g1, g2⟩ := Option.bind_eq_some_iff.1 hrun
    obtain ⟨⟨rs, e2⟩, g3, g4⟩ := Option.map_eq_some_iff.1 g2
    rw [Prod.mk.injEq] at g4
    obtain ⟨rfl, rfl⟩ := g4
    dsimp only at g3
    obtain ⟨r', e1', hstep, hout, he1, hi1, hd1, hd2⟩ : ∃ r' e1', encStep P o' (some e0) = some (r', some e1') ∧ SameOutput o r r' ∧
        e1 = some e1' ∧ EncInv e1' ∧ e1'.dt = e0.dt ∧ e1'.srPcm = e0.srPcm := by
      cases o with
      | disableLtpf =>
        cases o' with
        | encode c' => exact ho.elim
        | disableLtpf =>
          unfold encStep at g1 ⊢
          have g1 := Option.some.inj g1
          rw [Prod.mk.injEq] at g1
          obtain ⟨rfl, rfl⟩ := g1
          exact ⟨none, _, rfl, trivial, rfl, ⟨i0.cfg, i0.cfgPcm, i0.rate, i0.mode, i0.att, i0.ltpf, i0.xt, i0.v16, i0.xs, i0.xd⟩, rfl, rfl⟩
      | encode c =>
        cases o' with
        | disableLtpf => exact ho.elim
        | encode c' =>
          obtain ⟨k1, k2, k3, k4⟩ := ho
          unfold encStep at g1
          obtain ⟨⟨rv, out, e'⟩, g5, g6⟩ := Option.map_eq_some_iff.1 g1
          dsimp only at g6
          rw [Prod.mk.injEq] at g6
          obtain ⟨rfl, rfl⟩ := g6
          by_cases hn : c.nbytes < minFrameBytes e0.dt e0.sr ∨ c.nbytes > maxFrameBytes e0.dt e0.sr
          · rw [(C09_encode_rejected P c).2 e0 hn] at g5
            have g5 := Option.some.inj g5
            rw [Prod.mk.injEq, Prod.mk.injEq] at g5
            obtain ⟨rfl, -, rfl⟩ := g5
            refine ⟨some (-1, c'.out), e0, ?_, ⟨rfl, fun h => (by cases h)⟩, rfl, i0, rfl, rfl⟩
            unfold encStep
            dsimp only
            rw [(C09_encode_rejected P c').2 e0 (by rw [k2]; exact hn)]
            rfl
          · obtain ⟨v, s, -, -, -, -, -, hs⟩ := encode_step P hA e0 i0 c (hn0 ▸ k3) hn
            obtain ⟨f, e1, rfl, rfl, rfl, l1, -, b1, b2, -, b4, -, b6⟩ := hs _ _ _ g5
            refine ⟨some (0, f ++ c'.out.drop c.nbytes.toNat), e1, ?_, ⟨rfl, fun _ => ?_⟩, rfl, b1, b2, b4⟩
            · unfold encStep
              dsimp only
              rw [b6 c' (hn0 ▸ k1) k2 k4.out]
              rfl
            · rw [List.take_append_of_le_length (by omega), List.take_append_of_le_length (by omega)]
    subst he1
    obtain ⟨rs', q1, q2, q3, q4⟩ := ih e1' rs g3 hi1 (by rw [hd1, hd2]; exact hn0)
    refine ⟨r' :: rs', ?_, by simp [q2], by simp [q3], ?_⟩
    · unfold encRun
      rw [hstep, Option.bind_some]
      dsimp only
      rw [q1]
      rfl
    · intro k o h
      cases k with
      | zero =>
        rw [List.getElem?_cons_zero] at h
        have h := Option.some.inj h
        subst h
        exact ⟨r, r', rfl, rfl, hout⟩
      | succ k =>
        rw [List.getElem?_cons_succ] at h
        exact q4 k o h

/-! ### Concrete case -/

/-- A platform with exact operations, whose mathematical functions are not the ones of the codec. -/
def exEncPlat : EncPlatform Rat :=
  { A := Arith.exact, M := SnsMath.test, sqrt := fun x => if x = 0 then 0 else (x + 1) / 2, sh32 := id, G := floatMath }

/-- A call on samples of 16 bits, of one channel out of two. -/
def exEncCall (nbytes : Int) (out : List Nat) (junk : EncJunk Rat) : EncCall Rat Int :=
  ⟨fun i => if i % 7 < 3 then 100 * i % 256 else -7, fun p => some (p, (p : Rat)), 1, 2, nbytes, out, junk⟩

/-- Two frames at 8 kHz, the post-filter disabled in between, then a frame too small. -/
def exEncOps (v : Nat) (junk : EncJunk Rat) : List (EncOp Rat Int) :=
  [.encode (exEncCall 20 (List.replicate 22 v) junk), .disableLtpf, .encode (exEncCall 24 (List.replicate 24 v) junk),
   .encode (exEncCall 19 (List.replicate 20 v) junk)]

theorem exEncCall_ok (nbytes : Int) (out : List Nat) (junk : EncJunk Rat) (n : Nat) (h : nbytes ≤ out.length) :
    (exEncCall nbytes out junk).Ok n := by
  refine ⟨fun i hi => ⟨_, _, rfl, ?_⟩, h⟩
  dsimp only [exEncCall]
  split <;> omega

theorem exEncCandidates : CandidatesOk exEncPlat.A := candidatesOk_rounds _ _ exact_rounds

set_option maxRecDepth 100000 in
/-- Two frames of the required sizes are encoded, and the last call is rejected. -/
theorem exEncRun_outputs : (encRun exEncPlat (exEncOps 7 ⟨⟨true, 7⟩, fun _ => 3⟩) (encSetup exEncPlat.A false 2500 8000 0 true).join).map
    (fun r => (r.1, r.2.isSome)) =
    some ([some (0, [203, 140, 147, 229, 130, 98, 159, 135, 153, 177, 130, 244, 127, 190, 36, 225, 191, 217, 20, 40, 7, 7]), none,
      some (0, [215, 45, 181, 142, 209, 162, 58, 149, 120, 69, 89, 15, 23, 76, 214, 31, 80, 254, 58, 84, 63, 225, 20, 9]),
      some (-1, List.replicate 20 7)], true) := by decide +kernel

/-- The hypotheses of C09 and C59 are met. -/
theorem exEncPlayed : ∃ rets e, EncPlayed exEncPlat false 2500 8000 0 (exEncOps 7 ⟨⟨true, 7⟩, fun _ => 3⟩) rets e ∧
    rets.getLast? = some (some (-1, List.replicate 20 7)) := by
  obtain ⟨⟨rets, e⟩, h1, h2⟩ := Option.map_eq_some_iff.1 exEncRun_outputs
  obtain ⟨e0, h0⟩ : ∃ e0, encSetup exEncPlat.A false 2500 8000 0 true = some (some e0) := ⟨_, rfl⟩
  rw [h0] at h1
  rw [Prod.mk.injEq] at h2
  dsimp only at h2
  obtain ⟨e1, rfl⟩ := Option.isSome_iff_exists.1 h2.2
  refine ⟨rets, e1, ⟨?_, e0, h0, h1⟩, by rw [h2.1]; rfl⟩
  intro c hc
  unfold exEncOps at hc
  simp only [List.mem_cons, EncOp.encode.injEq, reduceCtorEq, false_or, List.not_mem_nil, or_false] at hc
  rcases hc with rfl | rfl | rfl <;> exact exEncCall_ok _ _ _ _ (by decide)

/-- The same frames, whatever the content of the memory: the hypotheses of C60 are met. -/
example (v : Nat) (junk : EncJunk Rat) : ∃ e0 rets e rets', encSetup exEncPlat.A false 2500 8000 0 true = some (some e0) ∧
    encRun exEncPlat (exEncOps 7 ⟨⟨true, 7⟩, fun _ => 3⟩) (some e0) = some (rets, e) ∧
    encRun exEncPlat (exEncOps v junk) (some e0) = some (rets', e) ∧
    (∃ out, rets'[0]? = some (some (0, out)) ∧
      out.take 20 = [203, 140, 147, 229, 130, 98, 159, 135, 153, 177, 130, 244, 127, 190, 36, 225, 191, 217, 20, 40]) := by
  obtain ⟨⟨rets, e⟩, h1, h2⟩ := Option.map_eq_some_iff.1 exEncRun_outputs
  obtain ⟨e0, h0⟩ : ∃ e0, encSetup exEncPlat.A false 2500 8000 0 true = some (some e0) := ⟨_, rfl⟩
  rw [h0] at h1
  rw [Prod.mk.injEq] at h2
  dsimp only at h2
  have hs : List.Forall₂ (SameInput (ns e0.dt e0.srPcm)) (exEncOps 7 ⟨⟨true, 7⟩, fun _ => 3⟩) (exEncOps v junk) := by
    unfold exEncOps
    refine .cons ⟨rfl, rfl, ?_, ?_⟩ (.cons trivial (.cons ⟨rfl, rfl, ?_, ?_⟩ (.cons ⟨rfl, rfl, ?_, ?_⟩ .nil))) <;>
      exact exEncCall_ok _ _ _ _ (by simp)
  obtain ⟨rets', q1, -, -, q2⟩ := C60_deterministic exEncPlat exEncCandidates false 2500 8000 0 e0 h0 _ _ hs rets e h1
  refine ⟨e0, rets, e, rets', h0, h1, q1, ?_⟩
  obtain ⟨r, r', q3, q4, q5⟩ := q2 0 _ rfl
  rw [h2.1, List.getElem?_cons_zero] at q3
  have q3 := Option.some.inj q3
  subst q3
  cases r' with
  | none => exact q5.elim
  | some p => exact ⟨p.2, by rw [q4, ← q5.1], q5.2 rfl⟩

end LC3
