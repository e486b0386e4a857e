import Verif.Model.Decoder
import Verif.Model.Gain
import Verif.Model.Attdet
import Verif.Model.Bands

/-!
Model of the encoder, `src/lc3.c`: the instance, the analysis of a frame and `lc3_encode`.

Simplifications: the three buffers of the instance, windows of `x` in the code, are three lists: `xt` the `nt` samples of 16 bits before
the frame, followed by those of the frame; `xs` the samples of the frame, then its spectrum; `xd` the delayed samples. C06 shows that these
windows are disjoint, and fill the memory of the instance.
-/

namespace LC3

/-- The arithmetic and the functions of the mathematical library, for the encoder. -/
structure EncPlatform (R : Type) extends Platform R where
  G : GainMath R

/-- The content of the memory that a call uses without initialising it: the field `ltpf` of `side`, src/lc3.c:454, and the local buffer of
`lc3_mdct_forward`, src/mdct.c:437. -/
structure EncJunk (R : Type) where
  ltpf : LtpfData
  buffer : Nat → R

/-- `struct lc3_encoder`, include/lc3_private.h:115-127. -/
structure Enc (R : Type) where
  bypass : Bool
  dt : Dt
  sr : Srate
  srPcm : Srate
  attdet : Attdet
  ltpf : LtpfA R
  spec : SpecSt R
  xt : List Int
  xs : List R
  xd : List R

/-- `lc3_hr_setup_encoder`, src/lc3.c:389-419: `mem` has the size of `lc3_hr_encoder_size`. The outcome `none` is undefined, and
`some none` the return of `NULL`. -/
def encSetup {R : Type} (A : Arith R) (hr : Bool) (dtUs srHz srPcmHz : Int) (memOk : Bool) : Option (Option (Enc R)) :=
  (setupEncoder hr dtUs srHz srPcmHz memOk).map fun o => o.map fun l =>
    { bypass := false, dt := l.dt, sr := l.sr, srPcm := l.srPcm, attdet := ⟨0, 0, 0⟩, ltpf := LtpfA.init A, spec := ⟨A.ofRat 0, 0⟩
      xt := List.replicate (l.xtOff + ns l.dt l.srPcm) 0
      xs := List.replicate (l.xdOff - l.xsOff) (A.ofRat 0)
      xd := List.replicate (l.zeroed.toNat - l.xdOff) (A.ofRat 0) }

/-- `load_s16`, `load_s24`, `load_s24_3le` and `load_float`, src/lc3.c:190-277: `v` are the samples converted, in the two formats. -/
def encLoad {R : Type} (v : List (Int × R)) (e : Enc R) : Enc R :=
  { e with xt := e.xt.take (nt e.srPcm) ++ v.map Prod.fst, xs := v.map Prod.snd }

/-- `lc3_ltpf_analyse` called by `analyze`, src/lc3.c:305-306: `pitch_present`, the data and the state. Without analysis, or without pitch,
the index of `side->ltpf` is not set. -/
def encPitch {R : Type} (P : EncPlatform R) (u : EncJunk R) (e : Enc R) : Option (Bool × LtpfData × LtpfA R) :=
  if e.bypass then some (false, u.ltpf, e.ltpf) else
  (ltpfAnalyse P.A P.sqrt e.dt e.srPcm e.ltpf e.xt (nt e.srPcm)).bind fun r =>
  some (r.1.present, ⟨r.1.active, match r.1.index with | some p => p.toNat | none => u.ltpf.pitchIndex⟩, r.2)

/-- `memmove` of src/lc3.c:308. -/
def encShift {R : Type} (e : Enc R) (xt : List Int) : List Int :=
  (xt.drop (ns e.dt e.srPcm)).take (nt e.srPcm) ++ xt.drop (nt e.srPcm)

/-- `analyze`, src/lc3.c:285-328: the frame data and the encoder. -/
def encAnalyze {R : Type} [Inhabited R] (P : EncPlatform R) (u : EncJunk R) (nbytes : Nat) (e : Enc R) : Option (SideData × Enc R) :=
  (attdetRun e.dt e.srPcm nbytes e.attdet e.xt (nt e.srPcm)).bind fun att =>
  (encPitch P u e).bind fun pitch =>
  (mdctForward P.A P.sqrt (mdctTables P.A) e.dt e.srPcm e.sr ((List.range maxNs).map u.buffer) e.xs e.xd e.xs).bind fun xf =>
  (energyCompute P.A e.dt e.sr xf.1).bind fun eb =>
  (bwdetRun P.A e.dt e.sr eb.1).bind fun bw =>
  (snsAnalyzeFull P.A P.M e.dt e.sr nbytes eb.1 att.1 xf.1).bind fun sns =>
  (tnsAnalyze P.A e.dt bw eb.2 nbytes sns.2).bind fun tns =>
  (specAnalyze P.A P.G e.dt e.sr nbytes pitch.1 tns.1 e.spec (tns.2.take (ne e.dt e.sr))).bind fun spec =>
  some ({ bw := bw, spec := spec.2.2, tns := tns.1, pitchPresent := pitch.1, sns := sns.1
          ltpf := if eb.2 || e.bypass then { pitch.2.1 with active := false } else pitch.2.1 },
        { e with attdet := att.2, ltpf := pitch.2.2, spec := spec.1, xt := encShift e e.xt, xd := xf.2
                 xs := spec.2.1 ++ tns.2.drop (ne e.dt e.sr) })

/-- The parameters of a call of `lc3_encode`: the encoder is given apart. `pcm` is the memory of the samples, as an array of samples of the
format (of 3 bytes for the packed format) indexed from `base`; they are converted by `conv`, see `Model/Pcm.lean`, where `none` is
undefined. `out` is the memory at `out`. -/
structure EncCall (R α : Type) where
  pcm : Int → α
  conv : α → Option (Int × R)
  base : Int
  stride : Int
  nbytes : Int
  out : List Nat
  junk : EncJunk R

/-- The processing of a call accepted, src/lc3.c:454-460. -/
def encProcess {R α : Type} [Inhabited R] (P : EncPlatform R) (c : EncCall R α) (e : Enc R) : Option (List Nat × Enc R) :=
  ((pcmLoad c.stride c.pcm c.base (ns e.dt e.srPcm)).mapM c.conv).bind fun v =>
  (encAnalyze P c.junk c.nbytes.toNat (encLoad v e)).bind fun a =>
  if c.out.length < c.nbytes.toNat then none else
  (encodeFrame P.A a.2.dt a.2.sr (c.out.take c.nbytes.toNat) a.1 (a.2.xs.take (ne a.2.dt a.2.sr))).bind fun f =>
  some (f ++ c.out.drop c.nbytes.toNat, a.2)

/-- `lc3_encode`, src/lc3.c:436-463: the value returned, the memory at `out` and the encoder. -/
def lc3Encode {R α : Type} [Inhabited R] (P : EncPlatform R) (c : EncCall R α) (e : Option (Enc R)) :
    Option (Int × List Nat × Option (Enc R)) :=
  match e with
  | none => some (-1, c.out, none)
  | some e =>
    if c.nbytes < minFrameBytes e.dt e.sr ∨ c.nbytes > maxFrameBytes e.dt e.sr then some (-1, c.out, some e) else
    (encProcess P c e).map fun r => (0, r.1, some r.2)

/-- The functions applied to an encoder. -/
inductive EncOp (R α : Type) where
  /-- `lc3_encode` -/
  | encode (c : EncCall R α)
  /-- `lc3_encoder_disable_ltpf`, src/lc3.c:427-431 -/
  | disableLtpf

/-- A function applied to an encoder: the value returned and the output of `lc3_encode`, and the encoder. -/
def encStep {R α : Type} [Inhabited R] (P : EncPlatform R) (o : EncOp R α) (e : Option (Enc R)) :
    Option (Option (Int × List Nat) × Option (Enc R)) :=
  match o with
  | .encode c => (lc3Encode P c e).map fun r => (some (r.1, r.2.1), r.2.2)
  | .disableLtpf => e.map fun e => (none, some { e with bypass := true })

/-- A sequence of calls: for each the value returned and the output, and the encoder. -/
def encRun {R α : Type} [Inhabited R] (P : EncPlatform R) : List (EncOp R α) → Option (Enc R) →
    Option (List (Option (Int × List Nat)) × Option (Enc R))
  | [], e => some ([], e)
  | o :: l, e =>
    (encStep P o e).bind fun r =>
    (encRun P l r.2).map fun w => (r.1 :: w.1, w.2)

end LC3
