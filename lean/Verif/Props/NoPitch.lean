import Verif.Props.Pause

/-!
C99: without pitch, `lc3_encoder_disable_ltpf` has no effect on the frames.
-/

namespace LC3

variable {R α : Type} [Inhabited R]

/-- The frame data of a call, of a size accepted, have no pitch. -/
def CallNoPitch (P : EncPlatform R) (c : EncCall R α) (e : Enc R) : Prop :=
  ¬ (c.nbytes < minFrameBytes e.dt e.sr ∨ c.nbytes > maxFrameBytes e.dt e.sr) →
  ∀ v side e1, c.samples (ns e.dt e.srPcm) = some v → encAnalyze P c.junk c.nbytes.toNat (encLoad v e) = some (side, e1) → side.pitchPresent = false

/-- No pitch is detected in the calls `l`, from the state `e`. -/
def NoPitch (P : EncPlatform R) : List (EncCall R α) → Enc R → Prop
  | [], _ => True
  | c :: l, e => CallNoPitch P c e ∧ ∀ r out e1, lc3Encode P c (some e) = some (r, out, some e1) → NoPitch P l e1

/-- Without pitch, the analysis is the one with the pitch analysis disabled; the data of the post-filter have no value. -/
theorem encAnalyze_nopitch (P : EncPlatform R) (u : EncJunk R) (n : Nat) (t : LtpfA R) (e : Enc R) (side : SideData) (e1 : Enc R)
    (h : encAnalyze P u n e = some (side, e1)) (hp : side.pitchPresent = false) :
    ∃ l, encAnalyze P u n { e with bypass := true, ltpf := t } = some ({ side with ltpf := l }, { e1 with bypass := true, ltpf := t }) := by
  unfold encAnalyze at h
  obtain ⟨att, h1, h⟩ := Option.bind_eq_some_iff.1 h
  obtain ⟨pitch, h2, h⟩ := Option.bind_eq_some_iff.1 h
  obtain ⟨xf, h3, h⟩ := Option.bind_eq_some_iff.1 h
  obtain ⟨eb, h4, h⟩ := Option.bind_eq_some_iff.1 h
  obtain ⟨bw, h5, h⟩ := Option.bind_eq_some_iff.1 h
  obtain ⟨sns, h6, h⟩ := Option.bind_eq_some_iff.1 h
  obtain ⟨tns, h7, h⟩ := Option.bind_eq_some_iff.1 h
  obtain ⟨spec, h8, h⟩ := Option.bind_eq_some_iff.1 h
  cases h
  have hp : pitch.1 = false := hp
  rw [hp] at h8
  unfold encAnalyze encPitch
  dsimp only
  rw [h1, Option.bind_some, if_pos rfl, Option.bind_some, h3, Option.bind_some, h4, Option.bind_some, h5, Option.bind_some, h6, Option.bind_some, h7,
    Option.bind_some, h8, Option.bind_some, hp]
  exact ⟨_, rfl⟩

theorem encodeFrame_nopitch (A : Arith R) (dt : Dt) (sr : Srate) (data : List Nat) (side : SideData) (hp : side.pitchPresent = false) (l : LtpfData)
    (x : List R) : encodeFrame A dt sr data { side with ltpf := l } x = encodeFrame A dt sr data side x := by
  unfold encodeFrame encodeBits putSideData
  dsimp only
  rw [hp]
  rfl

theorem encode_nopitch (P : EncPlatform R) (c : EncCall R α) (t : LtpfA R) (e : Enc R) (hp : CallNoPitch P c e) (r : Int) (out : List Nat)
    (e' : Option (Enc R)) (h : lc3Encode P c (some e) = some (r, out, e')) :
    ∃ e1, e' = some e1 ∧ lc3Encode P c (some { e with bypass := true, ltpf := t }) = some (r, out, some { e1 with bypass := true, ltpf := t }) := by
  unfold lc3Encode at h ⊢
  dsimp only at h ⊢
  split at h
  · rename_i hn
    cases h
    rw [if_pos hn]
    exact ⟨e, rfl, rfl⟩
  · rename_i hn
    rw [if_neg hn]
    obtain ⟨w, h', hw⟩ := Option.map_eq_some_iff.1 h
    clear h
    cases hw
    unfold encProcess at h'
    obtain ⟨v, h1, h⟩ := Option.bind_eq_some_iff.1 h'
    obtain ⟨⟨side, e1⟩, h2, h⟩ := Option.bind_eq_some_iff.1 h
    have hp := hp hn v side e1 h1 h2
    split at h
    · cases h
    rename_i ho
    obtain ⟨f, h3, h⟩ := Option.bind_eq_some_iff.1 h
    cases h
    obtain ⟨l, h4⟩ := encAnalyze_nopitch P c.junk c.nbytes.toNat t (encLoad v e) side e1 h2 hp
    refine ⟨e1, rfl, ?_⟩
    unfold encProcess
    rw [h1, Option.bind_some, show encLoad v { e with bypass := true, ltpf := t } = { encLoad v e with bypass := true, ltpf := t } from rfl, h4,
      Option.bind_some, if_neg ho]
    dsimp only at h3 ⊢
    rw [encodeFrame_nopitch _ _ _ _ _ hp, h3]
    rfl

/-- From any state, with any state of the pitch analysis. -/
theorem nopitch_run (P : EncPlatform R) (t : LtpfA R) : ∀ (l : List (EncCall R α)) (e : Enc R), NoPitch P l e → ∀ rets e',
    encRun P (encodes l) (some e) = some (rets, e') →
    ∃ e1, e' = some e1 ∧ encRun P (encodes l) (some { e with bypass := true, ltpf := t }) = some (rets, some { e1 with bypass := true, ltpf := t }) := by
  intro l
  induction l with
  | nil => intro e _ rets e' h; cases h; exact ⟨e, rfl, rfl⟩
  | cons c l ih =>
    intro e hp rets e' h
    rw [show encodes (c :: l) = .encode c :: encodes l from rfl] at h ⊢
    unfold encRun encStep at h ⊢
    dsimp only at h ⊢
    obtain ⟨a, ha, h⟩ := Option.bind_eq_some_iff.1 h
    obtain ⟨⟨r, out, e1⟩, hb, rfl⟩ := Option.map_eq_some_iff.1 ha
    obtain ⟨⟨rets', e2⟩, hw, h⟩ := Option.map_eq_some_iff.1 h
    cases h
    obtain ⟨e1, rfl, k⟩ := encode_nopitch P c t e hp.1 r out _ hb
    obtain ⟨e2, rfl, k'⟩ := ih e1 (hp.2 r out e1 hb) _ _ hw
    refine ⟨e2, rfl, ?_⟩
    rw [k, Option.map_some, Option.bind_some]
    dsimp only
    rw [k']
    rfl

/-- **C99**: after any calls `before`, the calls `l` are made with and without a call of `lc3_encoder_disable_ltpf` first. As long as no pitch is detected,
the values returned and the frames are the same, to the last bit. -/
theorem C99_disable (P : EncPlatform R) (e0 : Enc R) (before : List (EncOp R α)) (r0 : List (Option (Int × List Nat))) (e : Enc R)
    (hb : encRun P before (some e0) = some (r0, some e)) (l : List (EncCall R α)) (hp : NoPitch P l e) (rets : List (Option (Int × List Nat)))
    (e' : Option (Enc R)) (h : encRun P (before ++ encodes l) (some e0) = some (r0 ++ rets, e')) :
    ∃ e'', encRun P (before ++ .disableLtpf :: encodes l) (some e0) = some (r0 ++ none :: rets, e'') := by
  rw [encRun_append, hb, Option.bind_some] at h ⊢
  dsimp only at h ⊢
  obtain ⟨⟨r1, e1⟩, h1, h2⟩ := Option.map_eq_some_iff.1 h
  obtain ⟨h2, -⟩ := Prod.mk.inj h2
  obtain rfl : r1 = rets := List.append_cancel_left h2
  obtain ⟨e2, rfl, k⟩ := nopitch_run P e.ltpf l e hp _ _ h1
  refine ⟨some { e2 with bypass := true, ltpf := e.ltpf }, ?_⟩
  unfold encRun encStep
  dsimp only [Option.map_some, Option.bind_some]
  rw [show ({ e with bypass := true } : Enc R) = { e with bypass := true, ltpf := e.ltpf } from rfl, k]
  rfl

/-! ### A case -/

/-- The pitch of the second call. -/
def pauseSecond : Option Bool :=
  (lc3Encode squarePlatform pauseSquare (some (pauseEnc ⟨0, 0⟩))).bind fun r => r.2.2.bind fun e => (pauseSquare.samples (ns e.dt e.srPcm)).bind fun v =>
  (encAnalyze squarePlatform pauseSquare.junk 20 (encLoad v e)).map fun a => a.1.pitchPresent

set_option maxRecDepth 100000 in
theorem pause_pitch : ((pauseSquare.samples 20).bind fun v => (encAnalyze squarePlatform pauseSquare.junk 20 (encLoad v (pauseEnc ⟨0, 0⟩))).map fun a =>
    a.1.pitchPresent) = some false ∧ pauseSecond = some false := by
  constructor <;> decide +kernel

/-! The hypotheses are met by the two first frames of a square wave; in the third one (`pause_frames`) there is a pitch. -/
example : NoPitch squarePlatform [pauseSquare, pauseSquare] (pauseEnc ⟨0, 0⟩) := by
  obtain ⟨h1, h2⟩ := pause_pitch
  refine ⟨?_, fun r out e1 hd => ⟨?_, fun _ _ _ _ => trivial⟩⟩
  · intro _ v side e1 hv ha
    rw [show pauseSquare.samples 20 = some v from hv, Option.bind_some, show encAnalyze squarePlatform pauseSquare.junk 20 (encLoad v (pauseEnc ⟨0, 0⟩)) =
      some (side, e1) from ha] at h1
    exact Option.some.inj h1
  · intro _ v side e2 hv ha
    unfold pauseSecond at h2
    rw [hd, Option.bind_some] at h2
    dsimp only at h2
    rw [Option.bind_some, hv, Option.bind_some, show encAnalyze squarePlatform pauseSquare.junk 20 (encLoad v e1) = some (side, e2) from ha] at h2
    exact Option.some.inj h2

end LC3
