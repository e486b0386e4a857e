import Verif.Model.Encoder
import Verif.Lemmas.Fill
import Verif.Lemmas.Decoder
import Verif.Lemmas.MdctForward
import Verif.Props.Attdet
import Verif.Props.Ltpf
import Verif.Props.Bands
import Verif.Props.ShapingScf
import Verif.Props.Tns
import Verif.Props.Gain
import Verif.Props.Frame

/-! The encoder: invariant of the instance, stages of the analysis, and writing of the frame. -/

namespace LC3

variable {R : Type}

/-- The instance between two calls. -/
structure EncInv (e : Enc R) : Prop where
  cfg : Config e.dt e.sr
  cfgPcm : Config e.dt e.srPcm
  rate : e.sr.idx ≤ e.srPcm.idx
  mode : e.sr.hr = e.srPcm.hr
  att : e.attdet.Ok
  ltpf : e.ltpf.Ok
  xt : e.xt.length = nt e.srPcm + ns e.dt e.srPcm
  v16 : All16 e.xt
  xs : e.xs.length = ns e.dt e.srPcm
  xd : e.xd.length = nd e.dt e.srPcm

theorem enc_dims (dt : Dt) (sr : Srate) : 6 ≤ nt sr ∧ nt sr ≤ ns dt sr ∧ nd dt sr ≤ ns dt sr := by
  cases dt <;> cases sr <;> decide

theorem bw_valid_of (A : Arith R) (dt : Dt) (sr : Srate) (e : List R) (bw : Nat) (h : bwdetRun A dt sr e = some bw) (hb : bw ≤ sr.idx) :
    BwValid sr bw := by
  unfold BwValid
  by_cases hr : sr.hr = true
  · rw [if_pos hr]
    unfold bwdetRun at h
    dsimp only at h
    rw [if_pos (Or.inr hr)] at h
    exact (Option.some.inj h).symm
  · rw [if_neg hr]; exact hb

theorem snsValid_to {d : SnsData} (h : SnsValid d) (h2 : d.shape ≠ 0 → d.idxB = 0 ∧ d.lsB = false) : d.Valid := by
  obtain ⟨a1, a2, a3, a4, a5, a6⟩ := h
  refine ⟨a1, a2, a3, a4, a5, ?_⟩
  split
  · exact a6
  · rename_i c; exact h2 c

/-- What the analysis obtains before the decision on the quantisation, without the pitch. -/
structure Stages (R : Type) where
  att : Bool × Attdet
  y : List R
  eb : List R
  xn : List R
  xd : List R
  nn : Bool
  bw : Nat
  sns : SnsData
  tns : TnsData
  x : List R

/-- The frame data. -/
def Stages.side (s : Stages R) (bypass : Bool) (pitch : Bool × LtpfData) (spec : SpecSide) : SideData :=
  { bw := s.bw, spec := spec, tns := s.tns, pitchPresent := pitch.1, sns := s.sns
    ltpf := if s.nn || bypass then { pitch.2 with active := false } else pitch.2 }

structure Stages.Ok (s : Stages R) (e : Enc R) (nbytes : Nat) : Prop where
  att : s.att.2.Ok
  xd : s.xd = e.xs.drop (ns e.dt e.srPcm - nd e.dt e.srPcm)
  bw : BwValid e.sr s.bw
  sns : s.sns.Valid
  tns : s.tns.Valid e.dt s.bw nbytes
  x : s.x.length = ns e.dt e.srPcm

/-- The stages of `analyze` that do not depend on the analysis of the pitch, src/lc3.c:296-320, are defined, with these results. -/
structure Stages.Run [Inhabited R] (P : EncPlatform R) (e : Enc R) (nbytes : Nat) (s : Stages R) : Prop where
  attack : attdetRun e.dt e.srPcm nbytes e.attdet e.xt (nt e.srPcm) = some s.att
  mdct : ∀ u : Nat → R, mdctForward P.A P.sqrt (mdctTables P.A) e.dt e.srPcm e.sr ((List.range maxNs).map u) e.xs e.xd e.xs = some (s.y, s.xd)
  energy : energyCompute P.A e.dt e.sr s.y = some (s.eb, s.nn)
  bandwidth : bwdetRun P.A e.dt e.sr s.eb = some s.bw
  shaping : snsAnalyzeFull P.A P.M e.dt e.sr nbytes s.eb s.att.1 s.y = some (s.sns, s.xn)
  tns : tnsAnalyze P.A e.dt s.bw s.nn nbytes s.xn = some (s.tns, s.x)

theorem analyze_stages [Inhabited R] (P : EncPlatform R) (hA : CandidatesOk P.A) (e : Enc R) (he : EncInv e) (nbytes : Nat)
    (hn : nbytes ≤ 2147483647) :
    ∃ s : Stages R, s.Ok e nbytes ∧ s.Run P e nbytes ∧ ∀ u, encAnalyze P u nbytes e =
      (encPitch P u e).bind fun pitch =>
      (specAnalyze P.A P.G e.dt e.sr nbytes pitch.1 s.tns e.spec (s.x.take (ne e.dt e.sr))).bind fun spec =>
      some (s.side e.bypass (pitch.1, pitch.2.1) spec.2.2,
        { e with attdet := s.att.2, ltpf := pitch.2.2, spec := spec.1, xt := encShift e e.xt, xd := s.xd
                 xs := spec.2.1 ++ s.x.drop (ne e.dt e.sr) }) := by
  obtain ⟨d1, d2, d3⟩ := enc_dims e.dt e.srPcm
  obtain ⟨d4, d5, d6, -, -⟩ := dec_dims e.dt e.sr e.srPcm he.rate
  obtain ⟨att, a1, a2⟩ : ∃ att, attdetRun e.dt e.srPcm nbytes e.attdet e.xt (nt e.srPcm) = some att ∧ att.2.Ok := by
    by_cases c : AttdetRuns e.dt e.srPcm nbytes
    · obtain ⟨b, s', h1, h2, -⟩ := C29_detects e.dt e.srPcm nbytes c (by omega) e.attdet he.att e.xt he.v16 (nt e.srPcm) d1 (by have := he.xt; omega)
      exact ⟨_, h1, h2⟩
    · exact ⟨_, C29_disabled e.dt e.srPcm nbytes (by omega) c _ _ _, he.att⟩
  have hbuf : ∀ u : EncJunk R, ((List.range maxNs).map u.buffer).length = maxNs := by intro u; simp
  obtain ⟨y, xd, m1, m2, m3, m4⟩ := C49_forward_safe P.A P.sqrt e.dt e.srPcm e.sr he.cfgPcm d4
    (List.replicate maxNs (P.A.ofRat 0)) e.xs e.xd e.xs (by rw [List.length_replicate]; exact d6) (by rw [he.xs]) (by rw [he.xd])
    (by rw [he.xs])
  have hm : ∀ u : EncJunk R, mdctForward P.A P.sqrt (mdctTables P.A) e.dt e.srPcm e.sr ((List.range maxNs).map u.buffer) e.xs e.xd e.xs =
      some (y, xd) := by
    intro u
    rw [← m1]
    exact mdctForward_congr P.A P.sqrt e.dt e.srPcm e.sr he.cfgPcm _ _ e.xs e.xd e.xs (by rw [hbuf]; exact d6)
      (by rw [List.length_replicate]; exact d6) (by rw [he.xs]) he.xd he.xs
  have hxd : xd = e.xs.drop (ns e.dt e.srPcm - nd e.dt e.srPcm) := by
    rw [List.take_of_length_le (by rw [m3, he.xd]), List.take_of_length_le (by rw [List.length_drop, he.xs]; omega)] at m4
    exact m4
  have hy : y.length = ns e.dt e.srPcm := by rw [m2, he.xs]
  obtain ⟨eb, nn, e1, e2⟩ := C51_safe P.A e.dt e.sr he.cfg y (by omega)
  obtain ⟨bw, b1, b2⟩ := C52_safe P.A e.dt e.sr eb e2
  have hbw := bw_valid_of P.A e.dt e.sr eb bw b1 b2
  obtain ⟨sns, xn, -, s1, s2, s3, s4, -, -, -⟩ := C54_analysis P.A P.M hA e.dt e.sr he.cfg nbytes eb (by omega) att.1 y (by omega)
  have h6 : bw ≤ 6 := by have : e.sr.idx ≤ 6 := by cases e.sr <;> decide
                         omega
  have h7 : e.dt = .m7_5 → bw ≤ 4 := by
    intro h
    have hc : e.sr.hr = false := by
      have := he.cfg
      unfold Config at this
      cases h' : e.sr.hr with
      | false => rfl
      | true => exact absurd ⟨h, h'⟩ this
    have : e.sr.idx ≤ 4 := by
      revert hc
      cases e.sr <;> decide
    omega
  obtain ⟨tns, x, t1, t2, t3, -, -⟩ := C28_analyze_defined P.A e.dt bw h6 h7 nn nbytes xn (by
    have := bw_stop e.dt e.sr bw hbw
    omega)
  refine ⟨⟨att, y, eb, xn, xd, nn, bw, sns, tns, x⟩, ⟨a2, hxd, hbw, snsValid_to s2 s3, t2, by dsimp only; omega⟩,
    ⟨a1, fun u => hm ⟨⟨false, 0⟩, u⟩, e1, b1, s1, t1⟩, ?_⟩
  intro u
  unfold encAnalyze
  rw [a1, Option.bind_some]
  refine congrArg _ (funext fun pitch => ?_)
  rw [hm u, Option.bind_some]
  dsimp only
  rw [e1, Option.bind_some]
  dsimp only
  rw [b1, Option.bind_some, s1, Option.bind_some]
  dsimp only
  rw [t1, Option.bind_some]
  rfl

/-- What the analysis of the pitch does. -/
theorem encPitch_spec (P : EncPlatform R) (e : Enc R) (he : EncInv e) :
    ∃ us : List Int, us.length = (1 + e.dt.idx) * 32 ∧ (∀ v ∈ us, -2147450880 ≤ v ∧ v ≤ 2147450880) ∧
      (∀ u, encPitch P u e = none ↔ e.bypass = false ∧ hpRun us e.ltpf.hp50 = none) ∧
      (∀ u u' p l s, encPitch P u e = some (p, l, s) → s.Ok ∧ (p = true → l.pitchIndex < 512) ∧ (e.bypass = true → p = false) ∧
        ∃ l', encPitch P u' e = some (p, l', s) ∧ (p = true → l' = l)) := by
  obtain ⟨d1, d2, d3⟩ := enc_dims e.dt e.srPcm
  obtain ⟨us, u1, u2, u3, u4⟩ := ltpfAnalyse_some P.A P.sqrt e.dt e.srPcm e.ltpf he.ltpf e.xt (nt e.srPcm) he.v16 (Nat.le_refl _)
    (by rw [he.xt])
  refine ⟨us, u1, fun v hv => by have := u2 v hv; omega, ?_, ?_⟩
  · intro u
    unfold encPitch
    cases hb : e.bypass with
    | true => rw [if_pos rfl]; simp
    | false =>
      rw [if_neg (by simp)]
      cases hp : hpRun us e.ltpf.hp50 with
      | none => rw [u3 hp]; simp
      | some q =>
        obtain ⟨o, s', h1, -⟩ := u4 q.1 q.2 hp
        rw [h1, Option.bind_some]
        simp
  · intro u u' p l s h
    unfold encPitch at h ⊢
    cases hb : e.bypass with
    | true =>
      rw [hb, if_pos rfl] at h
      have h := Option.some.inj h
      rw [Prod.mk.injEq, Prod.mk.injEq] at h
      obtain ⟨rfl, -, rfl⟩ := h
      rw [if_pos rfl]
      exact ⟨he.ltpf, fun h => (by cases h), fun _ => rfl, _, rfl, fun h => (by cases h)⟩
    | false =>
      rw [hb, if_neg (by simp)] at h
      rw [if_neg (by simp)]
      cases hp : hpRun us e.ltpf.hp50 with
      | none => rw [u3 hp] at h; cases h
      | some q =>
        obtain ⟨o, s', h1, h2, -, -, h3, h4⟩ := u4 q.1 q.2 hp
        rw [h1, Option.bind_some] at h
        rw [h1, Option.bind_some]
        dsimp only at h ⊢
        have h := Option.some.inj h
        rw [Prod.mk.injEq, Prod.mk.injEq] at h
        obtain ⟨rfl, rfl, rfl⟩ := h
        refine ⟨h2, ?_, fun h => (by cases h), _, rfl, ?_⟩
        · intro hp
          obtain ⟨i, i1, i2, -⟩ := h3 hp
          rw [i2]
          exact i1
        · intro hp
          obtain ⟨i, i1, i2, -⟩ := h3 hp
          rw [i2]

/-! ### The frame -/

/-- The coefficients coded are in the range of `uint32_t`. -/
theorem specAnalyze_coded (A : Arith R) (G : GainMath R) (dt : Dt) (sr : Srate) (nbytes : Nat) (pitch : Bool) (tns : TnsData)
    (st st' : SpecSt R) (x y : List R) (side : SpecSide)
    (h : specAnalyze A G dt sr nbytes pitch tns st x = some (st', y, side)) :
    ∀ p ∈ codedCoefs A sr side y, p.1 < 2 ^ 32 := by
  unfold specAnalyze at h
  dsimp only at h
  obtain ⟨est, hest, h⟩ := Option.bind_eq_some_iff.mp h
  obtain ⟨⟨q, n1⟩, hq, h⟩ := Option.bind_eq_some_iff.mp h
  split at h
  · cases h
  obtain ⟨m1, hm1, h⟩ := Option.bind_eq_some_iff.mp h
  obtain ⟨⟨q2, n2⟩, hq2, h⟩ := Option.bind_eq_some_iff.mp h
  split at h
  · cases h
  obtain ⟨m2, hm2, h⟩ := Option.bind_eq_some_iff.mp h
  split at h
  · cases h
  injection h with h
  rw [Prod.mk.injEq, Prod.mk.injEq] at h
  obtain ⟨-, hy, hside⟩ := h
  obtain ⟨em2, hm2⟩ := magnitudes_spec _ _ _ _ _ hm2
  have hn2 := computeNbits_n dt sr nbytes m2 (specBudget dt sr nbytes pitch tns)
  have e2 : side.nq = (computeNbits dt sr nbytes m2 (specBudget dt sr nbytes pitch tns)).n := by rw [← hside]
  subst hy
  intro p hp
  unfold codedCoefs at hp
  apply hm2
  rw [em2]
  refine List.mem_map_of_mem ?_
  have hle : side.nq ≤ n2.toNat := by
    have : m2.length ≤ n2.toNat := by
      rw [em2, List.length_map, List.length_map, List.length_take]; omega
    omega
  have : (q2.take side.nq).map (quantCoef A sr.hr) = ((q2.take n2.toNat).map (quantCoef A sr.hr)).take side.nq := by
    rw [← List.map_take, List.take_take, Nat.min_eq_left hle]
  rw [this] at hp
  exact List.mem_of_mem_take hp

/-- The operations of the frame, for any content of the memory. -/
theorem encodeBits_ops (A : Arith R) (dt : Dt) (sr : Srate) (data : List Nat) (side : SideData) (hbw : BwValid sr side.bw) (x : List R)
    (hx : x.length = ne dt sr) :
    ∃ nf ≤ 7, estimateNoise A dt side.bw sr.hr x side.spec.nq = some nf ∧ encodeBits A dt sr data side x =
      let b := putOps (setupWrite data) (opsSideData dt sr side ++ opsSpecHead dt sr data.length side.spec nf (codedCoefs A sr side.spec x))
      some (putOps b (opsSpecTail A sr side.spec x (getBitsLeft b))) := by
  unfold encodeBits
  rw [putSideData_ops]
  obtain ⟨nf, h1, h2, h3⟩ := specEncode_ops A dt sr side.bw data.length side.spec x hbw hx (putOps (setupWrite data) (opsSideData dt sr side))
  refine ⟨nf, h1, h2, ?_⟩
  rw [h3, putOps_append]

/-- The frame is written, whatever the previous content of the memory, that has no influence. -/
theorem encodeFrame_total (A : Arith R) (dt : Dt) (sr : Srate) (n : Nat) (side : SideData) (hv : side.Valid dt sr n) (x : List R)
    (hx : x.length = ne dt sr) (hc : ∀ p ∈ codedCoefs A sr side.spec x, p.1 < 2 ^ 32) :
    ∃ f, f.length = n ∧ Bytes f ∧ ∀ data, data.length = n → encodeFrame A dt sr data side x = some f := by
  obtain ⟨z, hz⟩ : ∃ z, z = List.replicate n 0 := ⟨_, rfl⟩
  have hzl : z.length = n := by rw [hz, List.length_replicate]
  have hzb : Bytes z := by
    intro v hv
    rw [hz] at hv
    rw [List.eq_of_mem_replicate hv]; decide
  obtain ⟨nf, h1, h2, h3⟩ := encodeBits_ops A dt sr z side hv.bw x hx
  dsimp only at h3
  rw [hzl] at h3
  obtain ⟨ops, hops⟩ : ∃ ops, ops = opsSideData dt sr side ++ opsSpecHead dt sr n side.spec nf (codedCoefs A sr side.spec x) := ⟨_, rfl⟩
  rw [← hops] at h3
  have hval : ∀ o ∈ ops, o.Valid := by
    intro o ho
    rw [hops] at ho
    rcases List.mem_append.mp ho with ho | ho
    · exact opsSideData_valid dt sr n side hv o ho
    · unfold opsSpecHead at ho
      rcases List.mem_cons.mp ho with rfl | ho
      · exact ⟨by omega, by omega, by omega⟩
      · exact opsQuantized_sound _ _ 30 (by omega) (by omega) _ _ _ _ (by decide) hc o ho
  obtain ⟨w1, w2⟩ := winv_ops ops (setupWrite z) (winv_setup z hzb) hval
  have htail := opsSpecTail_valid A sr side.spec x (getBitsLeft (putOps (setupWrite z) ops))
  obtain ⟨w3, w4⟩ := winv_ops _ _ w1 htail
  obtain ⟨f1, f2, -⟩ := flushBits_safe _ w3
  refine ⟨(flushBits (putOps (putOps (setupWrite z) ops) (opsSpecTail A sr side.spec x (getBitsLeft (putOps (setupWrite z) ops))))).buf.data, ?_, f2, ?_⟩
  · rw [f1, w4, w2]; exact hzl
  · intro data hd
    obtain ⟨nf', g1, g2, g3⟩ := encodeBits_ops A dt sr data side hv.bw x hx
    dsimp only at g3
    have : nf' = nf := by rw [h2] at g2; exact (Option.some.inj g2).symm
    subst this
    rw [hd, ← hops] at g3
    unfold encodeFrame
    rw [g3, Option.map_some]
    have sim := (setup_sim data z (by omega)).putOps ops
    rw [sim.left]
    have sim2 := sim.putOps (opsSpecTail A sr side.spec x (getBitsLeft (putOps (setupWrite z) ops)))
    have hn : (putOps (putOps (setupWrite data) ops) (opsSpecTail A sr side.spec x (getBitsLeft (putOps (setupWrite z) ops)))).accu.n ≤ 32 := by
      refine putOps_short _ _ (fun o ho => (htail o ho).short) (putOps_short _ _ (fun o ho => (hval o ho).short) ?_)
      exact Nat.zero_le _
    rw [sim2.flush hn]

/-- The data of the post-filter are not used without pitch. -/
theorem encodeFrame_ltpf (A : Arith R) (dt : Dt) (sr : Srate) (data : List Nat) (side : SideData) (l : LtpfData) (x : List R)
    (h : side.pitchPresent = false) :
    encodeFrame A dt sr data { side with ltpf := l } x = encodeFrame A dt sr data side x := by
  have : ∀ b, putSideData b dt sr { side with ltpf := l } = putSideData b dt sr side := by
    intro b
    rw [putSideData_ops, putSideData_ops]
    unfold opsSideData
    dsimp only
    rw [h, if_neg (by simp), if_neg (by simp)]
  unfold encodeFrame encodeBits
  rw [this]

end LC3
