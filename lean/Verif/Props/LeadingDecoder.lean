import Verif.Props.Resume
import Verif.Props.LeadingSilence

/-!
C95: the frames of silence received before a signal have no effect on its decoding.
-/

namespace LC3

variable {α β : Type} {rnd : Rat → Rat}

/-- A decoder that has received silence only. -/
structure Dec.Blank (P : Platform Rat) (d : Dec Rat) : Prop where
  inv : DecInv P.A d
  x : ∀ v ∈ d.x, v = 0
  off : d.sr.hr = false → d.ltpf.active = false
  lx : d.sr.hr = false → ∀ v ∈ d.ltpf.x, v = 0
  lc : d.sr.hr = false → d.ltpf.c.drop (2 * ltpfWidth d.srPcm) = (LtpfS.init P.A).c.drop (2 * ltpfWidth d.srPcm)

theorem null_lists_eq {l l' : List Rat} (h : ∀ v ∈ l, v = 0) (h' : ∀ v ∈ l', v = 0) (hl : l'.length = l.length) : l' = l := by
  rw [List.eq_replicate_of_mem h, List.eq_replicate_of_mem h', hl]

/-- A decoder just setup. -/
theorem decSetup_blank (h0 : rnd 0 = 0) (P : Platform Rat) (hP : P.A = Arith.rounded rnd) (hr : Bool) (dtUs srHz srPcmHz : Int) (m : Bool) (d : Dec Rat)
    (h : decSetup P.A hr dtUs srHz srPcmHz m = some (some d)) : d.Blank P ∧ d.plc = plcReset P.A := by
  obtain ⟨hi, -⟩ := decSetup_inv P hr dtUs srHz srPcmHz m d h
  unfold decSetup at h
  obtain ⟨o, -, h⟩ := Option.map_eq_some_iff.1 h
  obtain ⟨l, -, h⟩ := Option.map_eq_some_iff.1 h
  subst h
  refine ⟨⟨hi, ?_, fun _ => rfl, fun _ => ?_, fun _ => rfl⟩, rfl⟩
  · intro v hv
    rw [List.eq_of_mem_replicate hv, hP]
    exact h0
  · intro v hv
    rw [List.eq_of_mem_replicate hv, hP]
    show rnd ((0 : Int) : Rat) = 0
    rw [Int.cast_zero]; exact h0

/-- Two of them have the same history. -/
theorem Dec.Blank.same {P : Platform Rat} {d d' : Dec Rat} (h : d.Blank P) (h' : d'.Blank P) (h1 : d'.dt = d.dt) (h2 : d'.sr = d.sr) (h3 : d'.srPcm = d.srPcm) :
    d.Rotated d' ∧ (d'.plc = d.plc → d.SameLoss d') := by
  have a := h.inv.len
  have a' := h'.inv.len
  rw [h1, h3] at a'
  have hx : d'.x = d.x := null_lists_eq h.x h'.x (by omega)
  refine ⟨⟨h1, h2, h3, ?_, ?_, fun k _ _ => by rw [hx]⟩, fun hp => ⟨hp, fun k _ => by rw [hx]⟩⟩
  · intro hh
    have hh' : d'.sr.hr = false := by rw [h2]; exact hh
    refine ⟨by rw [h.off hh, h'.off hh'], null_lists_eq (h.lx hh) (h'.lx hh') ?_, ?_, ?_⟩
    · rw [(h.inv.ltpf hh).x, (h'.inv.ltpf hh').x]
    · have := h'.lc hh'
      rw [h3] at this
      rw [this, h.lc hh]
    · intro ha
      rw [h.off hh] at ha; cases ha
  · intro hh i _ _
    have m := h.inv.xd
    have z : ∀ k, k < ns d.dt d.srPcm + nh d.dt d.srPcm → d.x[k]? = some 0 := by
      intro k hk
      rw [List.eq_replicate_of_mem h.x, List.getElem?_replicate, if_pos (by omega)]
    have n4 := (dec_dims d.dt d.sr d.srPcm h.inv.rate).2.2.2.1
    rw [hx, z _ (Nat.mod_lt _ (by omega)), z _ (Nat.mod_lt _ (by omega))]

/-- A silent frame received. -/
theorem blank_step (h : RoundF rnd) (P : Platform Rat) (hP : P.A = Arith.rounded rnd) (c : DecCall Rat β) (d : Dec Rat) (mem : Int → β) (hb : d.Blank P)
    (F : List Nat) (hF : Gives c F) (hs : SilentFrame (Arith.rounded rnd) d.dt d.sr P.sh32 F false) :
    ∃ (e : Dec Rat) (m : Int → β), lc3Decode P c (some d) mem = some (0, some e, m) ∧ e.dt = d.dt ∧ e.sr = d.sr ∧ e.srPcm = d.srPcm ∧ e.Blank P ∧
      e.plc = plcSuspend P.A d.plc := by
  have h0 : rnd 0 = 0 := h.zero
  have hz := zeroOk_rounded h0
  have hd := hb.inv
  obtain ⟨f1, f2⟩ := hF.frame_eq
  have hgood : FrameGood P d.dt d.sr F := by
    refine ⟨hs.low, hs.high, ⟨false, 0⟩, ?_⟩
    obtain ⟨side, s, k, -⟩ := hs.decode ⟨false, 0⟩
    exact ⟨side, s, by rw [hP]; exact k⟩
  obtain ⟨f, xs, xd, g, t, y, side, s, a1, a2, a3, a4, a5, a6, a7, a8, a9, a10, a11, a12⟩ := goodCall_full P c d mem hd hF.ok F f1 f2 hgood
  obtain ⟨_, z1, i1, keeps⟩ := lc3Decode_keeps P c hF.ok d hd mem _ _ _ a2
  cases z1
  obtain ⟨side', s', k1, k2, k3, k4⟩ := hs.decode c.junk.ltpf
  rw [hP, k1] at a1
  injection a1 with a1
  rw [Prod.mk.injEq] at a1
  obtain ⟨rfl, rfl⟩ := a1
  have hno : FrameNoLtpf P d.dt d.sr F := by
    intro j side s hj hpr
    obtain ⟨side', s', k1, k2, k3, k4⟩ := hs.decode j
    rw [hP, k1] at hj
    injection hj with hj
    rw [Prod.mk.injEq] at hj
    rw [← hj.1, k3] at hpr
    cases hpr
  unfold goodSpectrum at a6
  rw [hP, tnsSynthesize_none _ _ _ k2, Option.bind_some] at a6
  have hpad : AllZ (Arith.rounded rnd) (padSpectrum (Arith.rounded rnd) d.dt d.sr s'.x) := by
    unfold padSpectrum
    exact AllZ.append (AllZ.take (fun v hv => (k4 v hv).trans h0.symm) _) (allZ_replicate _ _)
  have hg := snsSynthesize_z hz P.M _ _ _ _ _ hpad (allZ_replicate _ _) g a6
  unfold invTransform at a8
  rw [hP] at a8
  obtain ⟨-, -, d6, -, -⟩ := dec_dims d.dt d.sr d.srPcm hd.rate
  have hxd : ∀ v ∈ xd, v = 0 := by
    intro v hv
    unfold win at a5
    split at a5
    · cases a5
      exact hb.x v (List.mem_of_mem_drop (List.mem_of_mem_take hv))
    · cases a5
  obtain ⟨r1, r2⟩ := mdctInverse_z hz P.sqrt d.dt d.srPcm d.sr hd.cfgPcm _ g xd _ (by rw [List.length_replicate]; exact d6) (allZ_replicate _ _) (by omega) hg
    (win_length a5).1 (by rw [List.length_replicate]) (allZ_replicate _ _) t y a8
  have lz : ∀ l : List Rat, AllZ (Arith.rounded rnd) l → ∀ v ∈ l, v = 0 := fun l hl v hv => (hl v hv).trans h0
  have zt := lz t (r2 fun v hv => (hxd v hv).trans h0.symm)
  have zy := lz y r1
  have zg := lz g hg
  have hoff : d.sr.hr = true ∨ d.ltpf.active = false := by
    cases hh : d.sr.hr with
    | true => exact Or.inl rfl
    | false => exact Or.inr (hb.off hh)
  obtain ⟨b1, b2⟩ := a12 (Or.inr hno)
  obtain ⟨b3, b4, b5⟩ := b2 hoff
  refine ⟨complete f, _, a2, keeps.dt, keeps.sr, keeps.srPcm, ⟨i1, ?_, ?_, ?_, ?_⟩, ?_⟩
  · intro v hv
    have hv : v ∈ f.x := hv
    obtain ⟨k, hk, hkv⟩ := List.mem_iff_getElem.1 hv
    have hkv : f.x[k]? = some v := by rw [List.getElem?_eq_getElem hk, hkv]
    have c1 := hd.xd
    have c2 := hd.xg
    have c3 := a3.len
    have c4 := hd.xsLe
    rw [a4.dt, a4.srPcm] at c3
    have inw : ∀ {off n : Nat} {l : List Rat}, win f.x off n = some l → (∀ v ∈ l, v = 0) → off ≤ k → k < off + n → v = 0 := by
      intro off n l hw hl h1 h2
      have := win_at hw (k - off)
      rw [if_pos (by omega), show off + (k - off) = k by omega, hkv] at this
      exact hl v (List.mem_of_getElem? this)
    by_cases q1 : k < d.xdOff
    · by_cases q2 : k < d.xsOff ∨ d.xsOff + ns d.dt d.srPcm ≤ k
      · rw [b4 k q1 q2] at hkv
        exact hb.x v (List.mem_of_getElem? hkv)
      · exact inw b3 zt (by rw [a4.xs]; omega) (by rw [a4.xs]; omega)
    · by_cases q2 : k < d.xgOff
      · exact inw a9 zy (by rw [a4.xd]; omega) (by rw [a4.xd]; omega)
      · exact inw a10 zg (by rw [a4.xg]; omega) (by rw [a4.xg]; omega)
  · rw [keeps.sr]; exact b1
  · rw [keeps.sr]
    intro hh v hv
    have hv : v ∈ f.ltpf.x := hv
    rw [b5 hh] at hv
    rcases List.mem_append.1 hv with hv | hv
    · exact zt v (List.mem_of_mem_drop hv)
    · exact hb.lx hh v (List.mem_of_mem_drop hv)
  · rw [keeps.sr, keeps.srPcm]
    intro hh
    rw [keeps.c hh, hb.lc hh]
  · show f.plc = _
    rw [a11]

/-- A loss. -/
theorem blank_lost (h0 : rnd 0 = 0) (P : Platform Rat) (hP : P.A = Arith.rounded rnd) (c : DecCall Rat β) (d : Dec Rat) (mem : Int → β) (hb : d.Blank P)
    (hcnt : d.plc.count + 1 < 2 ^ 31) (hc : CallOk c) (hl : c.inp = none) :
    ∃ (e : Dec Rat) (m : Int → β), lc3Decode P c (some d) mem = some (1, some e, m) ∧ e.dt = d.dt ∧ e.sr = d.sr ∧ e.srPcm = d.srPcm ∧ e.Blank P ∧
      e.plc.count = d.plc.count + 1 := by
  have hA := zeroOk_rounded h0
  have hd := hb.inv
  obtain ⟨n1, n2, n3, n4, n5⟩ := dec_dims d.dt d.sr d.srPcm hd.rate
  obtain ⟨d1, xd, g, p, t, y, b1, b2, b3, b4, b5, b6, b7, b8, b9, b10⟩ := synthLost_spec P c.junk d hd hcnt
  have hw : ∀ {off n : Nat} {l : List Rat}, win d.x off n = some l → ∀ v ∈ l, v = 0 := by
    intro off n l hw v hv
    unfold win at hw
    split at hw
    · cases hw
      exact hb.x v (List.mem_of_mem_drop (List.mem_of_mem_take hv))
    · cases hw
  have hp : ∀ v ∈ p.2, v = 0 := by
    unfold plcSynthesize at b3
    split at b3
    · cases b3
    obtain ⟨k, -, b3⟩ := Option.map_eq_some_iff.1 b3
    subst b3
    obtain ⟨-, l2, l3⟩ := plcLoop_eq P.A (P.A.mul d.plc.alpha (P.A.ofRat (plcFactor d.plc.count))) d.plc.seed (g.take (ne d.dt d.sr))
    intro v hv
    obtain ⟨i, hi, rfl⟩ := List.mem_iff_getElem.mp hv
    dsimp only at hi ⊢
    rw [l2] at hi
    have h3 := l3 i _ (List.getElem?_eq_getElem hi)
    rw [List.getElem?_eq_getElem (by rw [l2]; exact hi)] at h3
    rw [Option.some.inj h3, hw b2 _ (List.mem_of_mem_take (List.getElem_mem hi))]
    have hm : ∀ a : Rat, P.A.mul a 0 = 0 := by intro a; rw [hP]; show rnd (a * 0) = 0; rw [mul_zero, h0]
    have hsub : P.A.sub (P.A.ofRat 0) 0 = 0 := by rw [hP]; show rnd (rnd 0 - 0) = 0; rw [h0, sub_zero, h0]
    rw [hsub, ite_self, hm]
  have hpz : AllZ (Arith.rounded rnd) (p.2 ++ List.replicate (ns d.dt d.srPcm - ne d.dt d.sr) ((Arith.rounded rnd).ofRat 0)) :=
    AllZ.append (fun v hv => (hp v hv).trans h0.symm) (allZ_replicate _ _)
  unfold invTransform at b6
  rw [hP] at b6
  obtain ⟨r1, r2⟩ := mdctInverse_z hA P.sqrt d.dt d.srPcm d.sr hd.cfgPcm _ _ xd _ (by rw [List.length_replicate]; exact n3) (allZ_replicate _ _)
    (by rw [List.length_append, List.length_replicate, b5]; omega) hpz (win_length b1).1 (by rw [List.length_replicate]) (allZ_replicate _ _) t y b6
  have zt := r2 fun v hv => (hw b1 v hv).trans h0.symm
  have hi : DecInv P.A d1 := b8.inv hd b9 (by rw [b10, b4]; have := hd.count; omega) (fun k h1 h2 => by
    have := hd.high k h1 h2
    rw [win_at b2, if_pos h2]; exact this)
  obtain ⟨f, c1, c2, c3, c4, c5, c6⟩ := synthLtpf_spec P d1 hi none c.nbytes (fun l h => by cases h) (fun _ => hc.lost hl)
  obtain ⟨k1, k2⟩ := synthLtpf_off P d1 f none c.nbytes (fun l h => by cases h) c1
  have sc : SameConfig d f := b8.same.trans c3
  have hlen2 := c2.len
  have hxs2 := c2.xsLe
  obtain ⟨xs, w1, w2⟩ := win_some f.x f.xsOff (ns f.dt f.srPcm) (by omega)
  have hx : f.x = d1.x := by
    cases hh : d.sr.hr with
    | true => rw [c6 (by rw [b8.same.sr]; exact hh)]
    | false =>
      refine k2 ?_
      rw [b9]
      exact hb.off hh
  refine ⟨complete f, pcmStore c.stride c.base (xs.map c.conv) mem, ?_, sc.dt, sc.sr, sc.srPcm, ⟨complete_inv c2, ?_, ?_, ?_, ?_⟩, ?_⟩
  · unfold lc3Decode
    dsimp only
    rw [if_neg (by rw [hl]; rintro ⟨h, -⟩; cases h)]
    unfold decProcess decInput
    rw [hl]
    dsimp only
    rw [Option.bind_some]
    unfold synthesize
    dsimp only
    rw [b7, Option.bind_some, c1, Option.bind_some, w1]
    rfl
  · intro v hv
    have hv : v ∈ d1.x := by rw [← hx]; exact hv
    obtain ⟨k, hk, hkv⟩ := List.mem_iff_getElem.1 hv
    have hkv : d1.x[k]? = some v := by rw [List.getElem?_eq_getElem hk, hkv]
    have e1 := hd.xd
    have e2 := hd.xg
    have e3 := hi.len
    have e4 := hd.xsLe
    rw [b8.same.dt, b8.same.srPcm] at e3
    have inw : ∀ {off n : Nat} {l : List Rat}, win d1.x off n = some l → (∀ v ∈ l, v = 0) → off ≤ k → k < off + n → v = 0 := by
      intro off n l hw hl h1 h2
      have := win_at hw (k - off)
      rw [if_pos (by omega), show off + (k - off) = k by omega, hkv] at this
      exact hl v (List.mem_of_getElem? this)
    by_cases q1 : k < d.xdOff
    · by_cases q2 : k < d.xsOff ∨ d.xsOff + ns d.dt d.srPcm ≤ k
      · rw [b8.out k q1 q2] at hkv
        exact hb.x v (List.mem_of_getElem? hkv)
      · exact inw b8.t (fun v hv => (zt v hv).trans h0) (by omega) (by omega)
    · by_cases q2 : k < d.xgOff
      · exact inw b8.e (fun v hv => (r1 v hv).trans h0) (by omega) (by omega)
      · exact inw b8.g (hw b2) (by omega) (by omega)
  · intro hh
    have hh : f.sr.hr = false := hh
    rw [sc.sr] at hh
    exact k1 (by rw [b8.same.sr]; exact hh)
  · intro hh v hv
    have hh : f.sr.hr = false := hh
    have hv : v ∈ f.ltpf.x := hv
    rw [sc.sr] at hh
    have st := (synthLtpf_state P d1 f hi none c.nbytes c1 (by rw [b8.same.sr]; exact hh)).2.2 t (by rw [b8.same.xs, b8.same.dt, b8.same.srPcm]; exact b8.t)
    rw [st, b9] at hv
    rcases List.mem_append.1 hv with hv | hv
    · exact (zt v (List.mem_of_mem_drop hv)).trans h0
    · exact hb.lx hh v (List.mem_of_mem_drop hv)
  · intro hh
    have hh : f.sr.hr = false := hh
    rw [sc.sr] at hh
    show f.ltpf.c.drop (2 * ltpfWidth f.srPcm) = _
    have st := (synthLtpf_state P d1 f hi none c.nbytes c1 (by rw [b8.same.sr]; exact hh)).1
    rw [b8.same.srPcm, b9] at st
    show f.ltpf.c.drop (2 * ltpfWidth f.srPcm) = (LtpfS.init P.A).c.drop (2 * ltpfWidth f.srPcm)
    rw [sc.srPcm, st, hb.lc hh]
  · show f.plc.count = _
    rw [c4, b10, b4]

theorem blank_run (h : RoundF rnd) (P : Platform Rat) (hP : P.A = Arith.rounded rnd) (dt : Dt) (sr srPcm : Srate) (sil : List (DecCall Rat β)) :
    (∀ c ∈ sil, (CallOk c ∧ c.inp = none) ∨ ∃ F, Gives c F ∧ SilentFrame (Arith.rounded rnd) dt sr P.sh32 F false) →
    ∀ (n : Nat) (d : Dec Rat) (mem : Int → β), d.Blank P → d.dt = dt → d.sr = sr → d.srPcm = srPcm → d.plc.count ≤ n + 1 → n + sil.length + 1 < 2 ^ 31 →
    ∃ (e : Dec Rat) (m : Int → β), decRun P sil (some d) mem = some (sil.map lostReturn, some e, m) ∧ e.dt = dt ∧ e.sr = sr ∧
      e.srPcm = srPcm ∧ e.Blank P ∧ (d.plc = plcReset P.A → (∀ c ∈ sil, c.inp ≠ none) → e.plc = plcReset P.A) := by
  induction sil with
  | nil => intro _ n d mem hb h1 h2 h3 _ _; exact ⟨d, mem, rfl, h1, h2, h3, hb, fun h _ => h⟩
  | cons c l ih =>
    intro hc n d mem hb h1 h2 h3 hn hlen
    rw [List.length_cons] at hlen
    have hcl := fun c h => hc c (List.mem_cons_of_mem _ h)
    rcases hc c (List.mem_cons_self ..) with ⟨g1, g2⟩ | ⟨F, g1, g2⟩
    · obtain ⟨e, m, k1, k2, k3, k4, k5, k6⟩ := blank_lost h.zero P hP c d mem hb (by omega) g1 g2
      obtain ⟨z, w, q1, q2, q3, q4, q5, q6⟩ := ih hcl (n + 1) e m k5 (k2.trans h1) (k3.trans h2) (k4.trans h3) (by rw [k6]; push_cast; omega) (by omega)
      refine ⟨z, w, ?_, q2, q3, q4, q5, fun _ hs => absurd g2 (hs c (List.mem_cons_self ..))⟩
      unfold decRun
      rw [k1, Option.bind_some, q1, List.map_cons, show lostReturn c = 1 by unfold lostReturn; rw [g2]; rfl]
      rfl
    · obtain ⟨e, m, k1, k2, k3, k4, k5, k6⟩ := blank_step h P hP c d mem hb F g1 (by rw [h1, h2]; exact g2)
      have hcnt : e.plc.count = 1 := by rw [k6]; rfl
      obtain ⟨z, w, q1, q2, q3, q4, q5, q6⟩ := ih hcl (n + 1) e m k5 (k2.trans h1) (k3.trans h2) (k4.trans h3) (by rw [hcnt]; push_cast; omega) (by omega)
      refine ⟨z, w, ?_, q2, q3, q4, q5, fun hp hs => q6 (by rw [k6, hp]; rfl) fun c h => hs c (List.mem_cons_of_mem _ h)⟩
      unfold decRun
      have hlr : lostReturn c = 0 := by
        obtain ⟨r, hr, -⟩ := Option.map_eq_some_iff.1 g1.frame_eq.1
        unfold lostReturn
        rw [hr]; rfl
      rw [k1, Option.bind_some, q1, List.map_cons, hlr]
      rfl

/-- **C95.** In single precision (`RoundF`), an encoder just setup receives null samples, for any number of frames of any valid sizes. A decoder of the
configuration, just setup, receives frames of this stream, in any number, some of them lost (below 2^31 calls). From there it is a decoder just setup: the next
calls, with the post-filter or not, give the same values returned and the same samples; they may have frames lost or corrupted, if none of the silence was
lost. -/
theorem C95_decoder (h : RoundF rnd) (P : EncPlatform Rat) (hP : P.A = Arith.rounded rnd) (hA : CandidatesOk P.A) (hG : GainSane rnd P.G)
    (hr : Bool) (dtUs srHz srPcmHz : Int) (e0 : Enc Rat) (hs : encSetup P.A hr dtUs srHz srPcmHz true = some (some e0)) (ops : List (EncOp Rat α))
    (hops : ∀ c, .encode c ∈ ops → c.Ok (ns e0.dt e0.srPcm) ∧ c.Null (ns e0.dt e0.srPcm))
    (P' : Platform Rat) (hP' : P'.A = P.A) (dtUs' srHz' srPcmHz' : Int) (d0 : Dec Rat) (hd : decSetup P'.A hr dtUs' srHz' srPcmHz' true = some (some d0))
    (hdt : d0.dt = e0.dt) (hsr : d0.sr = e0.sr) (mem : Int → β) :
    ∃ rets e, encRun P ops (some e0) = some (rets, some e) ∧
      ∀ sil : List (DecCall Rat β), sil.length + 1 < 2 ^ 31 → (∀ c' ∈ sil, (CallOk c' ∧ c'.inp = none) ∨ ∃ c out, (EncOp.encode c, some ((0 : Int), out)) ∈ ops.zip rets ∧ Gives c' (out.take c.nbytes.toNat)) →
        ∃ d m, decRun P' sil (some d0) mem = some (sil.map fun c' => if c'.inp.isNone then 1 else 0, some d, m) ∧
          ∀ next : List (DecCall Rat β), (∀ c ∈ next, CallOk c) →
            ((∀ c ∈ sil, c.inp ≠ none) ∨ ∀ c ∈ next, ∃ F, c.frame = some F ∧ ¬ Refused P' d F) → ∀ mem0 : Int → β,
            (decRun P' next (some d) mem0).map (fun r => (r.1, r.2.2)) = (decRun P' next (some d0) mem0).map (fun r => (r.1, r.2.2)) := by
  obtain ⟨rets, e, g1, -, g2⟩ := C91_encoder h P hP hA hG hr dtUs srHz srPcmHz e0 hs ops hops
  refine ⟨rets, e, g1, fun sil hn hc => ?_⟩
  obtain ⟨hb, hp⟩ := decSetup_blank h.zero P' (hP'.trans hP) hr dtUs' srHz' srPcmHz' true d0 hd
  obtain ⟨d, m, k1, k2, k3, k4, k5, k6⟩ := blank_run h P' (hP'.trans hP) d0.dt d0.sr d0.srPcm sil (by
    intro c' hc'
    rcases hc c' hc' with hc' | ⟨c, out, h1, h2⟩
    · exact Or.inl hc'
    · exact Or.inr ⟨_, h2, by rw [hdt, hsr]; exact g2 c out h1 _⟩) 0 d0 mem hb rfl rfl rfl (by rw [hp]; exact Int.le_refl 1) (by omega)
  refine ⟨d, m, k1, fun next hok hl mem0 => ?_⟩
  obtain ⟨q1, q2⟩ := k5.same hb k2.symm k3.symm k4.symm
  exact rotated_run P' next d d0 mem0 hok k5.inv hb.inv q1 (hl.imp (fun hl => q2 (by rw [hp, k6 hp hl])) id)

/-! The hypotheses are met: `k` frames of 2.5 ms at 8 kHz, of 20 bytes, for any `k`; a decoder receives any of them, and
losses, then any calls. -/
example (k : Nat) (P' : Platform Rat) (hP' : P'.A = Arith.exact) (mem : Int → Int) :
    ∃ (e0 e : Enc Rat) (d0 : Dec Rat) (outs : List (List Nat)), encSetup exEncPlat.A false 2500 8000 0 true = some (some e0) ∧
      encRun exEncPlat (List.replicate k (.encode exZeroCall)) (some e0) = some (outs.map fun o => some (0, o), some e) ∧ outs.length = k ∧
      decSetup P'.A false 2500 8000 0 true = some (some d0) ∧
      ∀ sil : List (DecCall Rat Int), sil.length < 2000000000 → (∀ c ∈ sil, (CallOk c ∧ c.inp = none) ∨ ∃ o ∈ outs, Gives c (o.take 20)) →
        ∃ d m, decRun P' sil (some d0) mem = some (sil.map fun c' => if c'.inp.isNone then 1 else 0, some d, m) ∧
          ∀ next : List (DecCall Rat Int), (∀ c ∈ next, CallOk c) →
            ((∀ c ∈ sil, c.inp ≠ none) ∨ ∀ c ∈ next, ∃ F, c.frame = some F ∧ ¬ Refused P' d F) → ∀ mem0 : Int → Int,
            (decRun P' next (some d) mem0).map (fun r => (r.1, r.2.2)) = (decRun P' next (some d0) mem0).map (fun r => (r.1, r.2.2)) := by
  obtain ⟨e0, h0, q1, q2, q3⟩ : ∃ e0, encSetup exEncPlat.A false 2500 8000 0 true = some (some e0) ∧ e0.dt = .m2_5 ∧ e0.sr = .k8 ∧ e0.srPcm = .k8 :=
    ⟨_, rfl, rfl, rfl, rfl⟩
  obtain ⟨d0, h1, r1, r2, r3⟩ : ∃ d0, decSetup P'.A false 2500 8000 0 true = some (some d0) ∧ d0.dt = .m2_5 ∧ d0.sr = .k8 ∧ d0.srPcm = .k8 :=
    ⟨_, rfl, rfl, rfl, rfl⟩
  have hops : ∀ c, EncOp.encode c ∈ List.replicate k (EncOp.encode exZeroCall) → c.Ok (ns e0.dt e0.srPcm) ∧ c.Null (ns e0.dt e0.srPcm) := by
    intro c hc
    have := List.eq_of_mem_replicate hc
    injection this with this
    subst this
    exact ⟨⟨fun i _ => ⟨0, 0, rfl, by decide, by decide⟩, by decide⟩, fun i _ => rfl⟩
  obtain ⟨rets, e, g1, g2, -⟩ := C91_encoder roundF_id exEncPlat rfl exEncCandidates gainSane_f32.2.2 false 2500 8000 0 e0 h0 _ hops
  obtain ⟨rets', e', g1', g3⟩ := C95_decoder roundF_id exEncPlat rfl exEncCandidates gainSane_f32.2.2 false 2500 8000 0 e0 h0 _ hops P' hP' 2500 8000 0 d0 h1
    (r1.trans q1.symm) (r2.trans q2.symm) mem
  rw [g1, Option.some.injEq, Prod.mk.injEq] at g1'
  obtain ⟨rfl, -⟩ := g1'
  rw [List.map_replicate, q1, q2, show encReturn .m2_5 .k8 (.encode exZeroCall) = some 0 by decide] at g2
  obtain ⟨l1, l2⟩ := List.eq_replicate_iff.1 g2
  rw [List.length_map] at l1
  have hr : rets = (rets.map fun r => (r.map Prod.snd).getD []).map fun o => some (0, o) := by
    rw [List.map_map]
    conv => lhs; rw [← List.map_id rets]
    refine List.map_congr_left fun r hr => ?_
    have h2 := l2 _ (List.mem_map_of_mem hr)
    obtain ⟨⟨a, b⟩, rfl, h3⟩ := Option.map_eq_some_iff.1 h2
    dsimp only at h3
    subst h3
    rfl
  refine ⟨e0, e, d0, rets.map fun r => (r.map Prod.snd).getD [], h0, ?_, by rw [List.length_map, l1], h1, ?_⟩
  · rw [← hr]; exact g1
  · intro sil hn hc
    exact g3 sil (by omega) (by
      intro c hc'
      rcases hc c hc' with hc' | ⟨o, ho, hc'⟩
      · exact Or.inl hc'
      refine Or.inr ⟨exZeroCall, o, ?_, hc'⟩
      have hm : some ((0 : Int), o) ∈ rets := by rw [hr]; exact List.mem_map_of_mem ho
      obtain ⟨i, hi, he⟩ := List.mem_iff_getElem.mp hm
      refine List.mem_iff_getElem.mpr ⟨i, by rw [List.length_zip, List.length_replicate]; omega, ?_⟩
      rw [List.getElem_zip, he, List.getElem_replicate])

end LC3
