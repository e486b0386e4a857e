import Verif.Props.Decoder
import Verif.Lemmas.MdctCongr

/-!
Properties of the decoder about its memory: what it does not depend on. The uninitialised memory has no effect (C57), and two decoders,
whatever they have received, give the same samples from the second common frame, without post-filter (C58).
-/

namespace LC3

variable {R : Type}

/-! ### C57: uninitialised memory -/

/-- The state before a synthesis counts only out of the output window. -/
theorem SynthOut.rebase {A : Arith R} {d d' d2 : Dec R} {t e g : List R} (hd : DecInv A d) (h : SynthOut d' d2 t e g) (sc : SameConfig d d')
    (hlen : d'.x.length = d.x.length)
    (hx : ∀ k, k < d.xsOff ∨ d.xsOff + ns d.dt d.srPcm ≤ k → d'.x[k]? = d.x[k]?) : SynthOut d d2 t e g := by
  obtain ⟨s1, s2, s3, s4, s5, s6, s7⟩ := sc
  refine ⟨SameConfig.trans ⟨s1, s2, s3, s4, s5, s6, s7⟩ h.same, by rw [h.len, hlen], ?_, ?_, ?_, ?_⟩
  · have := h.t; rw [s5, s1, s3] at this; exact this
  · have := h.e; rw [s6, s1, s3] at this; exact this
  · have := h.g; rw [s7, s1, s3] at this; exact this
  · intro k h1 h2
    rw [h.out k (by rw [s6]; exact h1) (by rw [s5, s1, s3]; exact h2), hx k h2]

theorem win_agree {x y : List R} {off n : Nat} {w v : List R} (h : ∀ k, off ≤ k → k < off + n → x[k]? = y[k]?) (hx : win x off n = some w)
    (hy : win y off n = some v) : w = v := by
  apply List.ext_getElem?
  intro k
  rw [win_at hx, win_at hy]
  split
  · exact h _ (by omega) (by omega)
  · rfl

/-- The concealment does not depend on what the output window holds, nor on the local buffers. -/
theorem synthLost_junk (P : Platform R) (u u' : Junk R) (d d' : Dec R) (hd : DecInv P.A d) (hd' : DecInv P.A d') (sc : SameConfig d d')
    (hl : d'.ltpf = d.ltpf) (hp : d'.plc = d.plc)
    (hx : ∀ k, k < d.xsOff ∨ d.xsOff + ns d.dt d.srPcm ≤ k → d'.x[k]? = d.x[k]?) : synthLost P u d = synthLost P u' d' := by
  have hxs := hd.xsLe
  have hxd := hd.xd
  have hxg := hd.xg
  have hlen : d'.x.length = d.x.length := by rw [hd.len, hd'.len, sc.dt, sc.srPcm]
  by_cases hc : d.plc.count + 1 < 2 ^ 31
  · obtain ⟨e, xd, g, p, t, y, b1, b2, b3, b4, b5, b6, b7, b8, b9, b10⟩ := synthLost_spec P u d hd hc
    obtain ⟨e', xd', g', p', t', y', c1, c2, c3, c4, c5, c6, c7, c8, c9, c10⟩ := synthLost_spec P u' d' hd' (by rw [hp]; exact hc)
    rw [sc.xd, sc.dt, sc.srPcm] at c1
    rw [sc.xg, sc.dt, sc.srPcm] at c2
    have exd : xd' = xd := win_agree (fun k h1 h2 => hx k (by omega)) c1 b1
    have eg : g' = g := win_agree (fun k h1 h2 => hx k (by omega)) c2 b2
    subst exd eg
    rw [sc.dt, sc.sr, hp, b3] at c3
    injection c3 with c3
    subst c3
    rw [sc.dt, sc.sr, sc.srPcm, b6] at c6
    injection c6 with c6
    injection c6 with c6 c6'
    subst c6 c6'
    rw [b7, c7]
    congr 1
    exact b8.unique hd (c8.rebase hd sc hlen hx) (by rw [b9, c9, hl]) (by rw [b10, c10])
  · have hn : ∀ (u : Junk R) (d : Dec R), DecInv P.A d → ¬ d.plc.count + 1 < 2 ^ 31 → synthLost P u d = none := by
      intro u d hd hc
      unfold synthLost
      cases win d.x d.xgOff (ns d.dt d.srPcm) with
      | none => rfl
      | some g =>
        rw [Option.bind_some]
        have : plcSynthesize P.A (ne d.dt d.sr) d.plc g = none := by
          unfold plcSynthesize
          split
          · rfl
          · rw [i32_none _ (by omega)]; rfl
        rw [this]; rfl
    rw [hn u d hd hc, hn u' d' hd' (by rw [hp]; exact hc)]

/-- The synthesis does not depend on the local buffers. -/
theorem synthGood_junk (P : Platform R) (u u' : Junk R) (d : Dec R) (hd : DecInv P.A d) (a b : SideData) (n : Nat)
    (ha : a.Valid d.dt d.sr n) (hb : b.Valid d.dt d.sr n) (hbw : a.bw = b.bw) (ht : a.tns = b.tns) (hs : a.sns = b.sns) :
    synthGood P u d a = synthGood P u' d b := by
  have hxs := hd.xsLe
  have hlen := hd.len
  obtain ⟨n1, n2, n3, n4, n5⟩ := dec_dims d.dt d.sr d.srPcm hd.rate
  obtain ⟨xf, hxf, -⟩ := win_some d.x d.xsOff (ns d.dt d.sr) (by omega)
  obtain ⟨e, xd, g, t, y, b1, b2, b3, b4, b5, b6, b7, b8⟩ := synthGood_spec P u d hd a n ha xf hxf
  obtain ⟨e', xd', g', t', y', c1, c2, c3, c4, c5, c6, c7, c8⟩ := synthGood_spec P u' d hd b n hb xf hxf
  rw [b1] at c1
  injection c1 with c1
  subst c1
  have : goodSpectrum P d.dt d.sr d.srPcm a xf = goodSpectrum P d.dt d.sr d.srPcm b xf := by
    unfold goodSpectrum
    rw [hbw, ht, hs]
  rw [this, c2] at b2
  injection b2 with b2
  subst b2
  rw [b3] at c3
  injection c3 with c3
  injection c3 with c3 c3'
  subst c3 c3'
  rw [b4, c4]
  congr 1
  exact b5.unique hd c5 (by rw [b6, c6]) (by rw [b7, c7])

/-- The input of a call, for two contents of the uninitialised memory. -/
theorem decInput_junk {α : Type} (P : Platform R) (c : DecCall R α) (u' : Junk R) (d : Dec R) (hd : DecInv P.A d) (hc : CallOk c) :
    ∃ o d1 o' d1', decInput P c d = some (o, d1) ∧ decInput P { c with junk := u' } d = some (o', d1') ∧ DecInv P.A d1 ∧ DecInv P.A d1' ∧
      SameConfig d1 d1' ∧ d1'.ltpf = d1.ltpf ∧ d1'.plc = d1.plc ∧
      (∀ k, k < d1.xsOff ∨ d1.xsOff + ns d1.dt d1.srPcm ≤ k → d1'.x[k]? = d1.x[k]?) ∧
      (o = none ∧ o' = none ∨ ∃ a b n, o = some a ∧ o' = some b ∧ d1' = d1 ∧ a.Valid d1.dt d1.sr n ∧ b.Valid d1.dt d1.sr n ∧
        a.bw = b.bw ∧ a.tns = b.tns ∧ a.sns = b.sns ∧ pitchData (some a) = pitchData (some b)) := by
  have hc' : CallOk { c with junk := u' } := ⟨hc.region, hc.lost⟩
  obtain ⟨o, d1, a1, a2, a3, a4, a5, a6, a7, a8⟩ := decInput_spec P c d hd hc
  obtain ⟨o', d1', b1, b2, b3, b4, b5, b6, b7, b8⟩ := decInput_spec P { c with junk := u' } d hd hc'
  have hsame : SameConfig d1 d1' := by
    refine ⟨?_, ?_, ?_, ?_, ?_, ?_, ?_⟩
    · rw [a3.dt, b3.dt]
    · rw [a3.sr, b3.sr]
    · rw [a3.srPcm, b3.srPcm]
    · rw [a3.xh, b3.xh]
    · rw [a3.xs, b3.xs]
    · rw [a3.xd, b3.xd]
    · rw [a3.xg, b3.xg]
  refine ⟨o, d1, o', d1', a1, b1, a2, b2, hsame, by rw [a4, b4], by rw [a5, b5], ?_, ?_⟩
  · intro k hk
    rw [a3.xs, a3.dt, a3.srPcm] at hk
    rw [a6 k hk, b6 k hk]
  · cases ho : o with
    | none =>
      left
      exact ⟨rfl, b7.2 (a7.1 ho)⟩
    | some a =>
      right
      cases ho' : o' with
      | none =>
        have := a7.2 (b7.1 ho')
        rw [ho] at this; cases this
      | some b =>
        obtain ⟨F, s, f1, f2, f3, f4⟩ := a8 a ho
        obtain ⟨F', s', f1', f2', f3', f4'⟩ := b8 b ho'
        have hF : F' = F := by
          have : c.frame = some F' := f1'
          rw [f1] at this
          injection this with this
          exact this.symm
        subst hF
        have hj := decodeFrame_junk P.A d.dt d.sr P.sh32 c.junk.ltpf u'.ltpf F'
        have f2'' : (decodeFrame P.A d.dt d.sr P.sh32 u'.ltpf F').1 = .ok (b, s') := f2'
        rw [f2, f2''] at hj
        obtain ⟨j1, j2, j3, j4, j5⟩ := hj
        subst j1
        have hd1 : d1' = d1 := by
          -- the inputs write the same spectrum
          obtain ⟨r, hr, hr'⟩ := Option.map_eq_some_iff.1 f1
          unfold decInput at a1 b1
          dsimp only at b1
          rw [hr] at a1 b1
          dsimp only at a1 b1
          have hn := (hc.region r hr).2
          rw [if_neg (by omega)] at a1 b1
          rw [hr'] at a1 b1
          unfold decDecode at a1 b1
          rw [f2] at a1
          rw [f2''] at b1
          dsimp only at a1 b1
          obtain ⟨x, p1, p2⟩ := Option.map_eq_some_iff.1 a1
          rw [p1] at b1
          injection b1 with b1
          injection b1 with b0 b1
          injection p2 with p0 p2
          rw [← b1, ← p2]
        refine ⟨a, b, F'.length, rfl, rfl, hd1, ?_, ?_, j2, j3, j4, j5⟩
        · rw [a3.dt, a3.sr]; exact f4
        · rw [a3.dt, a3.sr]; exact f4'

theorem decProcess_junk {α : Type} (P : Platform R) (c : DecCall R α) (u' : Junk R) (d : Dec R) (mem : Int → α) (hd : DecInv P.A d)
    (hc : CallOk c) : decProcess P { c with junk := u' } d mem = decProcess P c d mem := by
  obtain ⟨o, d1, o', d1', a1, a2, a3, a4, a5, a6, a7, a8, a9⟩ := decInput_junk P c u' d hd hc
  have hs : synthesize P u' d1' o' c.nbytes = synthesize P c.junk d1 o c.nbytes ∧ (o' = none ↔ o = none) := by
    unfold synthesize
    rcases a9 with ⟨h1, h2⟩ | ⟨a, b, n, h1, h2, h3, h4, h5, h6, h7, h8, h9⟩
    · subst h1 h2
      dsimp only
      rw [synthLost_junk P c.junk u' d1 d1' a3 a4 a5 a6 a7 a8]
      exact ⟨rfl, Iff.rfl⟩
    · subst h1 h2 h3
      dsimp only
      rw [synthGood_junk P c.junk u' d1' a3 a b n h4 h5 h6 h7 h8]
      constructor
      · congr 1
        funext d2
        have h9' : (some b : Option SideData).bind (fun s => if s.pitchPresent then some s.ltpf else none) =
          (some a : Option SideData).bind (fun s => if s.pitchPresent then some s.ltpf else none) := h9.symm
        unfold synthLtpf
        rw [h9']
      · exact ⟨fun h => (by cases h), fun h => (by cases h)⟩
  unfold decProcess
  rw [a1, a2, Option.bind_some, Option.bind_some]
  dsimp only
  rw [hs.1]
  have : (if o' = none then (1 : Int) else 0) = if o = none then 1 else 0 := by
    by_cases h : o = none
    · rw [if_pos h, if_pos (hs.2.2 h)]
    · rw [if_neg h, if_neg (fun h' => h (hs.2.1 h'))]
  rw [this]

/-- A call, for two contents of the uninitialised memory. -/
theorem lc3Decode_junk {α : Type} (P : Platform R) (c : DecCall R α) (u' : Junk R) (d : Dec R) (mem : Int → α) (hd : DecInv P.A d)
    (hc : CallOk c) : lc3Decode P { c with junk := u' } (some d) mem = lc3Decode P c (some d) mem := by
  unfold lc3Decode
  dsimp only
  rw [decProcess_junk P c u' d mem hd hc]

theorem decRun_junk {α : Type} (P : Platform R) (calls : List (DecCall R α)) : ∀ (us : List (Junk R)), us.length = calls.length →
    (∀ c ∈ calls, CallOk c) → ∀ (d : Dec R) (mem : Int → α), DecInv P.A d →
    decRun P (List.zipWith (fun c u => { c with junk := u }) calls us) (some d) mem = decRun P calls (some d) mem := by
  induction calls with
  | nil => intro us _ _ d mem _; rfl
  | cons c l ih =>
    intro us hl hok d mem hd
    cases us with
    | nil => simp at hl
    | cons u us =>
      rw [List.zipWith_cons_cons]
      unfold decRun
      rw [lc3Decode_junk P c u d mem hd (hok c (List.mem_cons_self ..))]
      have hok' : ∀ c ∈ l, CallOk c := fun x hx => hok x (List.mem_cons_of_mem _ hx)
      have hl' : us.length = l.length := by simpa using hl
      rcases lc3Decode_step P c d mem hd (hok c (List.mem_cons_self ..)) with ⟨-, -, s⟩ | ⟨-, -, -, s⟩ | ⟨-, ret, d2, xs, s, s2, -⟩
      · rw [s, Option.bind_some, Option.bind_some, ih us hl' hok' d mem hd]
      · rw [s]; rfl
      · rw [s, Option.bind_some, Option.bind_some]
        dsimp only
        rw [ih us hl' hok' (complete d2) _ (complete_inv s2)]

/-- **C57.** The values returned, the samples and the state of the decoder, after any sequence of calls, do not depend on the content of
the memory that the calls use without initialising it. -/
theorem C57_uninitialised {α : Type} (P : Platform R) (hr : Bool) (dtUs srHz srPcmHz : Int) (m : Bool) (d0 : Dec R)
    (h0 : decSetup P.A hr dtUs srHz srPcmHz m = some (some d0)) (calls : List (DecCall R α)) (hok : ∀ c ∈ calls, CallOk c)
    (us : List (Junk R)) (hu : us.length = calls.length) (mem : Int → α) :
    decRun P (List.zipWith (fun c u => { c with junk := u }) calls us) (some d0) mem = decRun P calls (some d0) mem :=
  decRun_junk P calls us hu hok d0 mem (decSetup_inv P hr dtUs srHz srPcmHz m d0 h0).1

/-! ### C58: resynchronisation -/

/-- The delayed samples depend only on the spectrum. -/
theorem invTransform_delay (P : Platform R) (dt : Dt) (sr srPcm : Srate) (hc : Config dt srPcm) (hn : ns dt srPcm ≤ maxNs) (g xd xd' t e t' e' : List R)
    (hg : g.length = ns dt srPcm) (hd : xd.length = nd dt srPcm) (hd' : xd'.length = nd dt srPcm)
    (h : invTransform P dt sr srPcm g xd = some (t, e)) (h' : invTransform P dt sr srPcm g xd' = some (t', e')) : e = e' := by
  obtain ⟨t1, t2, e1, a1, a2, -⟩ := mdctInverse_congr P.A P.sqrt dt srPcm sr hc (List.replicate maxNs (P.A.ofRat 0))
    (List.replicate maxNs (P.A.ofRat 0)) (some g) (some g) xd xd' (List.replicate (ns dt srPcm) (P.A.ofRat 0))
    (List.replicate (ns dt srPcm) (P.A.ofRat 0)) (by rw [List.length_replicate]; exact hn) (by rw [List.length_replicate]; exact hn)
    (fun l hl => by injection hl with hl; rw [← hl, hg]) (fun l hl => by injection hl with hl; rw [← hl, hg]) hd hd'
    (List.length_replicate ..) (List.length_replicate ..) (fun _ _ => rfl)
  unfold invTransform at h h'
  rw [a1] at h
  rw [a2] at h'
  injection h with h
  injection h' with h'
  injection h with h1 h2
  injection h' with h1' h2'
  rw [← h2, ← h2']

/-- A frame is accepted by `decode`. -/
def FrameGood (P : Platform R) (dt : Dt) (sr : Srate) (F : List Nat) : Prop :=
  20 ≤ F.length ∧ F.length ≤ maxFrameBytes dt sr ∧ ∃ j side s, (decodeFrame P.A dt sr P.sh32 j F).1 = .ok (side, s)

/-- A frame does not activate the post-filter. -/
def FrameNoLtpf (P : Platform R) (dt : Dt) (sr : Srate) (F : List Nat) : Prop :=
  ∀ j side s, (decodeFrame P.A dt sr P.sh32 j F).1 = .ok (side, s) → side.pitchPresent = true → side.ltpf.active = false

theorem goodSpectrum_length (P : Platform R) {d d' : Dec R} {t e g : List R} (h : SynthOut d d' t e g) : g.length = ns d.dt d.srPcm ∧
    t.length = ns d.dt d.srPcm ∧ e.length = nd d.dt d.srPcm :=
  ⟨(win_length h.g).1, (win_length h.t).1, (win_length h.e).1⟩

/-- A call with a frame accepted: `g` depends on the frame only. -/
theorem goodCall {α : Type} (P : Platform R) (c : DecCall R α) (d : Dec R) (mem : Int → α) (hd : DecInv P.A d) (hc : CallOk c) (F : List Nat)
    (hF : c.frame = some F) (hl : (F.length : Int) = c.nbytes) (hg : FrameGood P d.dt d.sr F) :
    ∃ (d2 : Dec R) (xs xd g t e : List R) (side : SideData) (s : SpecData R),
      (decodeFrame P.A d.dt d.sr P.sh32 c.junk.ltpf F).1 = .ok (side, s) ∧
      lc3Decode P c (some d) mem = some (0, some (complete d2), pcmStore c.stride c.base (xs.map c.conv) mem) ∧
      DecInv P.A d2 ∧ SameConfig d d2 ∧ win d.x d.xdOff (nd d.dt d.srPcm) = some xd ∧
      goodSpectrum P d.dt d.sr d.srPcm side (padSpectrum P.A d.dt d.sr s.x) = some g ∧ g.length = ns d.dt d.srPcm ∧
      invTransform P d.dt d.sr d.srPcm g xd = some (t, e) ∧ win d2.x d2.xdOff (nd d.dt d.srPcm) = some e ∧
      xs.length = ns d.dt d.srPcm ∧
      (d.sr.hr = true → xs = t) ∧
      (FrameNoLtpf P d.dt d.sr F → (d.sr.hr = false → d2.ltpf.active = false) ∧ (d.ltpf.active = false → xs = t)) := by
  obtain ⟨o, d1, a1, a2, a3, a4, a5, a6, a7, a8⟩ := decInput_spec P c d hd hc
  obtain ⟨hg1, hg2, j0, side0, s0, hg3⟩ := hg
  have hnr : ¬ Refused P d F := by
    intro h
    rw [h j0] at hg3; cases hg3
  cases ho : o with
  | none => exact absurd (a7.1 ho F hF) hnr
  | some side =>
    obtain ⟨F', s, f1, f2, f3, f4⟩ := a8 side ho
    rw [hF] at f1
    injection f1 with f1
    subst f1
    rw [← a3.dt, ← a3.sr] at f4
    rw [← a3.dt, ← a3.sr] at f3
    obtain ⟨d', xd, g, t, e, b1, b2, b3, b4, b5, b6, b7, b8⟩ := synthGood_spec P c.junk d1 a2 side F.length f4 _ f3
    have hi : DecInv P.A d' := b5.inv a2 b6 (by rw [b7]; exact Int.le_refl 1) b8
    have hmax := maxFrame_le d.dt d.sr
    obtain ⟨d2, c1, c2, c3, c4, c5, c6⟩ := synthLtpf_spec P d' hi (some side) c.nbytes (fun l h => by
        unfold pitchData at h
        rw [Option.bind_some] at h
        split at h
        · rename_i hp
          injection h with h
          rw [← h]; exact f4.ltpf hp
        · cases h) (by intro _; unfold sizeLimit; omega)
    have hlen := c2.len
    have hxs := c2.xsLe
    obtain ⟨xs, w1, w2⟩ := win_some d2.x d2.xsOff (ns d2.dt d2.srPcm) (by omega)
    obtain ⟨hgl, htl, hel⟩ := goodSpectrum_length P b5
    have sc : SameConfig d d2 := (a3.trans b5.same).trans c3
    have hxs1 := a2.xsLe
    have hxd1 := a2.xd
    have hxd0 := hd.xd
    have hxg0 := hd.xg
    have hout : d2.x = d'.x → xs = t := by
      intro hx
      rw [hx, c3.xs, c3.dt, c3.srPcm, b5.same.xs, b5.same.dt, b5.same.srPcm, b5.t] at w1
      injection w1 with w1
      exact w1.symm
    rw [a3.dt, a3.srPcm] at hgl
    rw [a3.dt, a3.srPcm] at b1
    rw [a3.dt, a3.sr, a3.srPcm] at b2
    rw [a3.dt, a3.sr, a3.srPcm] at b3
    refine ⟨d2, xs, xd, g, t, e, side, s, f2, ?_, c2, sc, ?_, b2, hgl, b3, ?_, ?_, ?_, ?_⟩
    · unfold lc3Decode
      dsimp only
      rw [if_neg (by rintro ⟨-, h⟩; omega)]
      unfold decProcess
      rw [a1, Option.bind_some]
      dsimp only
      rw [ho]
      unfold synthesize
      dsimp only
      rw [b4, Option.bind_some, c1, Option.bind_some, w1]
      rfl
    · obtain ⟨xd', q1, -⟩ := win_some d.x d.xdOff (nd d.dt d.srPcm) (by have := hd.len; omega)
      rw [q1]
      congr 1
      rw [a3.xd] at b1
      exact win_agree (fun k h1 h2 => (a6 k (by have := hd.xsLe; omega)).symm) q1 b1
    · have he := b5.e
      rw [a3.dt, a3.srPcm, a3.xd] at he
      have hlen2 := c2.len
      have hxd2 := c2.xd
      rw [sc.xd]
      rw [sc.dt, sc.srPcm] at hlen2
      obtain ⟨v, q1, -⟩ := win_some d2.x d.xdOff (nd d.dt d.srPcm) (by omega)
      rw [q1]
      congr 1
      refine win_agree (fun k h1 h2 => ?_) q1 he
      apply c5
      rw [b5.same.xd, a3.xd]; exact h1
    · rw [w2, sc.dt, sc.srPcm]
    · intro h
      apply hout
      rw [c6 (by rw [b5.same.sr, a3.sr]; exact h)]
    · intro h
      obtain ⟨k1, k2⟩ := synthLtpf_off P d' d2 (some side) c.nbytes (fun l hl => by
        unfold pitchData at hl
        rw [Option.bind_some] at hl
        split at hl
        · rename_i hp
          injection hl with hl
          rw [← hl]; exact h _ side s f2 hp
        · cases hl) c1
      refine ⟨fun h' => k1 (by rw [b5.same.sr, a3.sr]; exact h'), fun h' => ?_⟩
      exact hout (k2 (by rw [b6, a4]; exact h'))

/-- The spectrum of a frame. -/
theorem goodSpectrum_frame (P : Platform R) (dt : Dt) (sr srPcm : Srate) (j j' : LtpfData) (F : List Nat) (a b : SideData) (s s' : SpecData R)
    (h : (decodeFrame P.A dt sr P.sh32 j F).1 = .ok (a, s)) (h' : (decodeFrame P.A dt sr P.sh32 j' F).1 = .ok (b, s')) :
    goodSpectrum P dt sr srPcm a (padSpectrum P.A dt sr s.x) = goodSpectrum P dt sr srPcm b (padSpectrum P.A dt sr s'.x) := by
  have hj := decodeFrame_junk P.A dt sr P.sh32 j j' F
  rw [h, h'] at hj
  obtain ⟨j1, j2, j3, j4, -⟩ := hj
  subst j1
  unfold goodSpectrum
  rw [j2, j3, j4]

/-- A call with the frame `F`. -/
structure Gives {α : Type} (c : DecCall R α) (F : List Nat) : Prop where
  ok : CallOk c
  frame : ∃ r, c.inp = some r ∧ r.take F.length = F ∧ c.nbytes = F.length

theorem Gives.frame_eq {α : Type} {c : DecCall R α} {F : List Nat} (h : Gives c F) : c.frame = some F ∧ (F.length : Int) = c.nbytes := by
  obtain ⟨r, h1, h2, h3⟩ := h.frame
  unfold DecCall.frame
  rw [h1, h3, Option.map_some, Int.toNat_natCast, h2]
  exact ⟨rfl, rfl⟩

/-- **C58.** Two decoders of the same configuration have received anything, in any number. They then receive the same frames `F1` and `F2`,
accepted, without post-filter (always the case in high resolution). The samples of `F2` are the same. -/
theorem C58_resync {α β : Type} (P : Platform R) (hr : Bool) (dtUs srHz srPcmHz : Int)
    (calls : List (DecCall R α)) (rets : List Int) (d : Dec R) (mem : Int → α) (h : Played P hr dtUs srHz srPcmHz calls rets d mem)
    (calls' : List (DecCall R β)) (rets' : List Int) (d' : Dec R) (mem' : Int → β) (h' : Played P hr dtUs srHz srPcmHz calls' rets' d' mem')
    (F1 F2 : List Nat) (h1 : FrameGood P d.dt d.sr F1) (h2 : FrameGood P d.dt d.sr F2)
    (hno : hr = true ∨ FrameNoLtpf P d.dt d.sr F1 ∧ FrameNoLtpf P d.dt d.sr F2)
    (c1 c2 : DecCall R α) (c1' c2' : DecCall R β) (g1 : Gives c1 F1) (g2 : Gives c2 F2) (g1' : Gives c1' F1) (g2' : Gives c2' F2) :
    ∃ (xs : List R) (e1 e2 e1' e2' : Dec R) (m : Int → α) (m' : Int → β), xs.length = ns d.dt d.srPcm ∧
      lc3Decode P c1 (some d) mem = some (0, some e1, m) ∧
      lc3Decode P c2 (some e1) m = some (0, some e2, pcmStore c2.stride c2.base (xs.map c2.conv) m) ∧
      lc3Decode P c1' (some d') mem' = some (0, some e1', m') ∧
      lc3Decode P c2' (some e1') m' = some (0, some e2', pcmStore c2'.stride c2'.base (xs.map c2'.conv) m') := by
  obtain ⟨i1, r1, r2, r3, -⟩ := h.inv
  obtain ⟨i1', r1', r2', r3', -⟩ := h'.inv
  have edt : d'.dt = d.dt := by rw [r1] at r1'; injection r1' with r1'; exact r1'.symm
  have esr : d'.sr = d.sr := by rw [r2] at r2'; injection r2' with r2'; exact r2'.symm
  have epcm : d'.srPcm = d.srPcm := by rw [r3] at r3'; injection r3' with r3'; exact r3'.symm
  obtain ⟨c, -⟩ := resolve_config r1 r3
  obtain ⟨-, ehr⟩ := resolve_config r1 r2
  have hns := (dec_dims d.dt d.sr d.srPcm i1.rate).2.2.1
  -- the first frame
  obtain ⟨e1, xs1, xd, g, t, e, side, s, f1, f2, f3, f4, f5, f6, f7, f8, f9, f10, f11, f12⟩ :=
    goodCall P c1 d mem i1 g1.ok F1 g1.frame_eq.1 g1.frame_eq.2 h1
  obtain ⟨e1', xs1', xd', g', t', e', side', s', f1', f2', f3', f4', f5', f6', f7', f8', f9', f10', f11', f12'⟩ :=
    goodCall P c1' d' mem' i1' g1'.ok F1 g1'.frame_eq.1 g1'.frame_eq.2 (by rw [edt, esr]; exact h1)
  rw [edt, esr] at f1'
  rw [edt, esr, epcm] at f6'
  rw [edt, esr, epcm] at f8'
  rw [edt, epcm] at f5' f9'
  have eg := goodSpectrum_frame P d.dt d.sr d.srPcm _ _ F1 side side' s s' f1 f1'
  rw [f6, f6'] at eg
  injection eg with eg
  subst eg
  have ee := invTransform_delay P d.dt d.sr d.srPcm c hns g xd xd' t e t' e' f7 (win_length f5).1 (win_length f5').1 f8 f8'
  subst ee
  -- the second frame
  obtain ⟨e2, xs2, yd, k, u, v, side2, s2, q1, q2, q3, q4, q5, q6, q7, q8, q9, q10, q11, q12⟩ :=
    goodCall P c2 (complete e1) (pcmStore c1.stride c1.base (xs1.map c1.conv) mem) (complete_inv f3) g2.ok F2 g2.frame_eq.1 g2.frame_eq.2 (by
      show FrameGood P e1.dt e1.sr F2
      rw [f4.dt, f4.sr]; exact h2)
  obtain ⟨e2', xs2', yd', k', u', v', side2', s2', q1', q2', q3', q4', q5', q6', q7', q8', q9', q10', q11', q12'⟩ :=
    goodCall P c2' (complete e1') (pcmStore c1'.stride c1'.base (xs1'.map c1'.conv) mem') (complete_inv f3') g2'.ok F2 g2'.frame_eq.1
      g2'.frame_eq.2 (by
        show FrameGood P e1'.dt e1'.sr F2
        rw [f4'.dt, f4'.sr, edt, esr]; exact h2)
  have k1 : (complete e1).dt = d.dt := f4.dt
  have k2 : (complete e1).sr = d.sr := f4.sr
  have k3 : (complete e1).srPcm = d.srPcm := f4.srPcm
  have k1' : (complete e1').dt = d.dt := by rw [← edt]; exact f4'.dt
  have k2' : (complete e1').sr = d.sr := by rw [← esr]; exact f4'.sr
  have k3' : (complete e1').srPcm = d.srPcm := by rw [← epcm]; exact f4'.srPcm
  rw [k1, k2] at q1 q12
  rw [k1', k2'] at q1' q12'
  rw [k1, k3] at q5 q10
  rw [k1', k3'] at q5'
  rw [k1, k2, k3] at q6
  rw [k1', k2', k3'] at q6'
  rw [k1, k2, k3] at q8
  rw [k1', k2', k3'] at q8'
  rw [k2] at q11
  rw [k2'] at q11'
  have ek := goodSpectrum_frame P d.dt d.sr d.srPcm _ _ F2 side2 side2' s2 s2' q1 q1'
  rw [q6, q6'] at ek
  injection ek with ek
  subst ek
  have ed : yd = e := by
    have : win e1.x e1.xdOff (nd d.dt d.srPcm) = some yd := q5
    rw [f9] at this
    injection this with this
    exact this.symm
  have ed' : yd' = e := by
    have : win e1'.x e1'.xdOff (nd d.dt d.srPcm) = some yd' := q5'
    rw [f9'] at this
    injection this with this
    exact this.symm
  subst ed
  subst ed'
  rw [q8] at q8'
  injection q8' with q8'
  injection q8' with eu ev
  subst eu ev
  have ex : xs2 = u ∧ xs2' = u := by
    cases hh : d.sr.hr with
    | true => exact ⟨q11 hh, q11' hh⟩
    | false =>
      rcases hno with hno | ⟨n1, n2⟩
      · rw [ehr, hno] at hh; cases hh
      · have w := (f12 n1).1 hh
        have w' := (f12' (by rw [edt, esr]; exact n1)).1 (by rw [esr]; exact hh)
        exact ⟨(q12 n2).2 w, (q12' n2).2 w'⟩
  obtain ⟨ex, ex'⟩ := ex
  subst ex
  subst ex'
  exact ⟨_, _, _, _, _, _, _, q10, f2, q2, f2', q2'⟩

/-! ### Concrete cases -/

/-- A machine with exact numbers. -/
def exPlat : Platform Rat := ⟨Arith.exact, ⟨id, fun _ => 1, id, 0⟩, id, id⟩

/-- A frame of 40 bytes at 8 kHz, 10 ms, with a TNS filter and no pitch. -/
def exGood : List Nat :=
  [71, 62, 25, 26, 115, 197, 86, 0, 0, 0, 0, 0, 0, 0, 0, 0, 0, 0, 0, 0, 0, 0, 0, 0, 0, 0, 0, 0, 0, 0, 2, 234, 123, 127, 163, 213, 241, 254,
    196, 133]

/-- A call that gives, or not, the frame in a memory of 50 bytes; the output is interleaved. -/
def exCall (F : Option (List Nat)) (nbytes : Int) : DecCall Rat Rat :=
  ⟨F.map fun l => l ++ List.replicate 10 0xff, nbytes, id, 1, 2, ⟨⟨true, 7⟩, fun _ => 5, fun _ => 3⟩⟩

theorem exCall_ok (F : Option (List Nat)) (nbytes : Int) (h : ∀ l, F = some l → Bytes l ∧ nbytes ≤ l.length)
    (h' : F = none → 0 ≤ nbytes ∧ nbytes ≤ 400) : CallOk (exCall F nbytes) := by
  refine ⟨fun r hr => ?_, fun hn => ?_⟩
  · obtain ⟨l, h1, h2⟩ := Option.map_eq_some_iff.1 hr
    obtain ⟨h3, h4⟩ := h l h1
    rw [← h2]
    refine ⟨fun b hb => ?_, ?_⟩
    · rcases List.mem_append.1 hb with hb | hb
      · exact h3 b hb
      · rw [List.eq_of_mem_replicate hb]; decide
    · show nbytes ≤ _
      rw [List.length_append]; push_cast; omega
  · have : F = none := Option.map_eq_none_iff.1 hn
    have := h' this
    show 0 ≤ nbytes ∧ nbytes ≤ sizeLimit
    unfold sizeLimit; omega

theorem exGood_bytes : Bytes exGood := by unfold Bytes exGood; decide

/-- Two histories: a loss, a call rejected and a frame; two frames. -/
def exHistory : List (DecCall Rat Rat) := [exCall none 40, exCall (some exGood) 10, exCall (some exGood) 40]
def exHistory' : List (DecCall Rat Rat) := [exCall (some exGood) 40, exCall (some exGood) 30]

theorem exHistory_ok : (∀ c ∈ exHistory, CallOk c) ∧ ∀ c ∈ exHistory', CallOk c := by
  have h : ∀ n : Int, n ≤ 40 → CallOk (exCall (some exGood) n) := fun n hn =>
    exCall_ok _ _ (fun l hl => by injection hl with hl; subst hl; exact ⟨exGood_bytes, hn⟩) (fun h => by cases h)
  constructor
  · intro c hc
    simp only [exHistory, List.mem_cons, List.not_mem_nil, or_false] at hc
    rcases hc with hc | hc | hc <;> subst hc
    · exact exCall_ok _ _ (fun l hl => by cases hl) (fun _ => by decide)
    · exact h 10 (by decide)
    · exact h 40 (by decide)
  · intro c hc
    simp only [exHistory', List.mem_cons, List.not_mem_nil, or_false] at hc
    rcases hc with hc | hc <;> subst hc
    · exact h 40 (by decide)
    · exact h 30 (by decide)

/-- The hypotheses of C08, C09, C57 and C58 are met: the two histories lead decoders at 8 kHz, with an output at 24 kHz, to some states. -/
theorem exPlayed : (∃ rets d mem, Played exPlat false 10000 8000 24000 exHistory rets d mem) ∧
    ∃ rets d mem, Played exPlat false 10000 8000 24000 exHistory' rets d mem := by
  obtain ⟨L, size, h, -⟩ := (C06_setup_decoder 0 false 10000 8000 24000 true).2 (by
    unfold Spec.setupOk Spec.supported Spec.pcmRate; decide)
  have h0 : ∃ d0, decSetup exPlat.A false 10000 8000 24000 true = some (some d0) := by
    unfold decSetup
    rw [h]; exact ⟨_, rfl⟩
  obtain ⟨d0, h0⟩ := h0
  obtain ⟨o1, o2⟩ := exHistory_ok
  obtain ⟨r, d, m, h1⟩ := C56_no_ub exPlat false 10000 8000 24000 true d0 h0 exHistory o1 (fun _ => 0) (by decide)
  obtain ⟨r', d', m', h1'⟩ := C56_no_ub exPlat false 10000 8000 24000 true d0 h0 exHistory' o2 (fun _ => 0) (by decide)
  exact ⟨⟨r, d, m, o1, d0, _, h0, h1⟩, ⟨r', d', m', o2, d0, _, h0, h1'⟩⟩

/-- The frame is accepted, and does not activate the post-filter. -/
theorem exGood_good : FrameGood exPlat .m10 .k8 exGood ∧ FrameNoLtpf exPlat .m10 .k8 exGood := by
  have h : (match (decodeFrame exPlat.A .m10 .k8 exPlat.sh32 ⟨true, 7⟩ exGood).1 with
      | .ok (side, _) => !side.pitchPresent
      | _ => false) = true := by decide +kernel
  cases hd : (decodeFrame exPlat.A .m10 .k8 exPlat.sh32 ⟨true, 7⟩ exGood).1 with
  | ub => rw [hd] at h; cases h
  | refused => rw [hd] at h; cases h
  | ok a =>
    obtain ⟨side, s⟩ := a
    rw [hd] at h
    have hp : side.pitchPresent = false := by simpa using h
    refine ⟨⟨by decide, by decide, _, side, s, hd⟩, ?_⟩
    intro j side' s' h1 h2
    have hj := decodeFrame_junk exPlat.A .m10 .k8 exPlat.sh32 ⟨true, 7⟩ j exGood
    rw [hd, h1] at hj
    have := hj.2.2.2.2
    unfold pitchData at this
    rw [Option.bind_some, Option.bind_some, hp, h2] at this
    cases this

/-- Non-vacuity of C58: the two decoders above receive the frame twice, and give the same samples. -/
example : ∃ (rets rets' : List Int) (d d' e1 e2 e1' e2' : Dec Rat) (mem mem' m m' : Int → Rat) (xs : List Rat),
    Played exPlat false 10000 8000 24000 exHistory rets d mem ∧ Played exPlat false 10000 8000 24000 exHistory' rets' d' mem' ∧
    xs.length = 240 ∧
    lc3Decode exPlat (exCall (some exGood) 40) (some d) mem = some (0, some e1, m) ∧
    lc3Decode exPlat (exCall (some exGood) 40) (some e1) m = some (0, some e2, pcmStore 2 1 (xs.map id) m) ∧
    lc3Decode exPlat (exCall (some exGood) 40) (some d') mem' = some (0, some e1', m') ∧
    lc3Decode exPlat (exCall (some exGood) 40) (some e1') m' = some (0, some e2', pcmStore 2 1 (xs.map id) m') := by
  obtain ⟨⟨r, d, m, h⟩, ⟨r', d', m', h'⟩⟩ := exPlayed
  obtain ⟨-, r1, r2, r3, -⟩ := h.inv
  have e1 : d.dt = .m10 := by injection r1 with r1; exact r1.symm
  have e2 : d.sr = .k8 := by injection r2 with r2; exact r2.symm
  have e3 : d.srPcm = .k24 := by injection r3 with r3; exact r3.symm
  have g : Gives (exCall (some exGood) 40) exGood :=
    ⟨exCall_ok _ _ (fun l hl => by injection hl with hl; subst hl; exact ⟨exGood_bytes, by decide⟩) (fun h => by cases h),
      ⟨_, rfl, List.take_left' rfl, rfl⟩⟩
  have g1 := exGood_good
  obtain ⟨xs, a1, a2, a3, a4, x, x', b0, b1, b2, b3, b4⟩ := C58_resync exPlat false 10000 8000 24000 _ _ d m h _ _ d' m' h' exGood exGood
    (by rw [e1, e2]; exact g1.1) (by rw [e1, e2]; exact g1.1) (Or.inr (by rw [e1, e2]; exact ⟨g1.2, g1.2⟩)) _ _ _ _ g g g g
  rw [e1, e3] at b0
  exact ⟨_, _, _, _, _, _, _, _, _, _, _, _, xs, h, h', b0, b1, b2, b3, b4⟩

end LC3
