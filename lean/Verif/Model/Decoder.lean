import Verif.Model.Frame
import Verif.Model.Tns
import Verif.Model.Shaping
import Verif.Model.Mdct
import Verif.Model.MdctTables
import Verif.Model.Plc
import Verif.Model.Ltpf
import Verif.Model.Pcm

/-!
Model of the decoder, `src/lc3.c`: the instance, the synthesis of a frame and `lc3_decode`.

Simplifications: the buffers of the instance are windows of a single list, as in the code, but a function called with two windows
receives two lists (C06 shows that the windows are disjoint; the calls in place are distinguished). The conversion of a sample to the
output format is a parameter, total; see `Model/Pcm.lean` for the conversions themselves.
-/

namespace LC3

/-- The arithmetic, the functions of the mathematical library, and the value given by the machine to a shift by 32, see `setupRead`. -/
structure Platform (R : Type) where
  A : Arith R
  M : SnsMath R
  sqrt : R → R
  sh32 : Nat → Nat

/-- The content of the memory that a call uses without initialising it: the field `ltpf` of `side`, src/lc3.c:762, what `decode` leaves in
the spectrum when it refuses a frame, src/lc3.c:577, and the local buffer of `lc3_mdct_inverse`, src/mdct.c:463. -/
structure Junk (R : Type) where
  ltpf : LtpfData
  spectrum : Nat → R
  buffer : Nat → R

/-- `LC3_MAX_NS`, src/tables.h:70. -/
def maxNs : Nat := 960

/-- `struct lc3_decoder`, include/lc3_private.h:156-171. -/
structure Dec (R : Type) where
  dt : Dt
  sr : Srate
  srPcm : Srate
  xhOff : Nat
  xsOff : Nat
  xdOff : Nat
  xgOff : Nat
  ltpf : LtpfS R
  plc : Plc R
  x : List R

/-- `lc3_hr_setup_decoder`, src/lc3.c:695-729: `mem` has the size of `lc3_hr_decoder_size`. The outcome `none` is undefined, and
`some none` the return of `NULL`. -/
def decSetup {R : Type} (A : Arith R) (hr : Bool) (dtUs srHz srPcmHz : Int) (memOk : Bool) : Option (Option (Dec R)) :=
  (setupDecoder hr dtUs srHz srPcmHz memOk).map fun o => o.map fun l =>
    { dt := l.dt, sr := l.sr, srPcm := l.srPcm, xhOff := l.xhOff, xsOff := l.xsOff, xdOff := l.xdOff, xgOff := l.xgOff
      ltpf := LtpfS.init A, plc := plcReset A, x := List.replicate l.zeroed.toNat (A.ofRat 0) }

/-- The `n` values at `off`. -/
def win {R : Type} (x : List R) (off n : Nat) : Option (List R) :=
  if off + n ≤ x.length then some ((x.drop off).take n) else none

/-- Write of values at `off`. -/
def winPut {R : Type} (x : List R) (off : Nat) (l : List R) : Option (List R) :=
  if off + l.length ≤ x.length then some (x.take off ++ (l ++ x.drop (off + l.length))) else none

/-- `decode`, src/lc3.c:571-610: the side information, or `none` when the frame is refused. -/
def decDecode {R : Type} (P : Platform R) (u : Junk R) (d : Dec R) (F : List Nat) : Option (Option SideData × Dec R) :=
  match (decodeFrame P.A d.dt d.sr P.sh32 u.ltpf F).1 with
  | .ub => none
  | .refused => (winPut d.x d.xsOff ((List.range (ns d.dt d.sr)).map u.spectrum)).map fun x => (none, { d with x := x })
  | .ok (side, s) => (winPut d.x d.xsOff (padSpectrum P.A d.dt d.sr s.x)).map fun x => (some side, { d with x := x })

/-- Synthesis of a frame received, src/lc3.c:636-645. -/
def synthGood {R : Type} (P : Platform R) (u : Junk R) (d : Dec R) (side : SideData) : Option (Dec R) :=
  (win d.x d.xsOff (ns d.dt d.sr)).bind fun xf =>
  (tnsSynthesize P.A d.dt side.bw side.tns xf).bind fun xf =>
  (winPut d.x d.xsOff xf).bind fun x =>
  (win x d.xgOff (ns d.dt d.srPcm)).bind fun xg =>
  (snsSynthesize P.A P.M d.dt d.sr side.sns (some xf) xg).bind fun xg =>
  (winPut x d.xgOff xg).bind fun x =>
  (win x d.xdOff (nd d.dt d.srPcm)).bind fun xd =>
  (win x d.xsOff (ns d.dt d.srPcm)).bind fun xs =>
  (mdctInverse P.A P.sqrt (mdctTables P.A) d.dt d.srPcm d.sr ((List.range maxNs).map u.buffer) (some xg) xd xs).bind fun r =>
  (winPut x d.xsOff r.1).bind fun x =>
  (winPut x d.xdOff r.2).bind fun x =>
  some { d with plc := plcSuspend P.A d.plc, x := x }

/-- Concealment of a frame, src/lc3.c:647-652. -/
def synthLost {R : Type} (P : Platform R) (u : Junk R) (d : Dec R) : Option (Dec R) :=
  (win d.x d.xgOff (ns d.dt d.srPcm)).bind fun xg =>
  (plcSynthesize P.A (ne d.dt d.sr) d.plc xg).bind fun p =>
  (winPut d.x d.xsOff (p.2 ++ List.replicate (ns d.dt d.srPcm - ne d.dt d.sr) (P.A.ofRat 0))).bind fun x =>
  (win x d.xsOff (ns d.dt d.srPcm)).bind fun xf =>
  (win x d.xdOff (nd d.dt d.srPcm)).bind fun xd =>
  (mdctInverse P.A P.sqrt (mdctTables P.A) d.dt d.srPcm d.sr ((List.range maxNs).map u.buffer) none xd xf).bind fun r =>
  (winPut x d.xsOff r.1).bind fun x =>
  (winPut x d.xdOff r.2).bind fun x =>
  some { d with plc := p.1, x := x }

/-- The post-filter, src/lc3.c:654-656. -/
def synthLtpf {R : Type} (P : Platform R) (d : Dec R) (side : Option SideData) (nbytes : Int) : Option (Dec R) :=
  if d.sr.hr then some d else
  (win d.x d.xhOff (ns d.dt d.srPcm + nh d.dt d.srPcm)).bind fun ring =>
  (ltpfSynthesize P.A d.dt d.srPcm nbytes d.ltpf (side.bind fun s => if s.pitchPresent then some s.ltpf else none) ring
    (d.xsOff - d.xhOff)).bind fun r =>
  (winPut d.x d.xhOff r.2).bind fun x =>
  some { d with ltpf := r.1, x := x }

/-- `synthesize`, src/lc3.c:618-657. -/
def synthesize {R : Type} (P : Platform R) (u : Junk R) (d : Dec R) (side : Option SideData) (nbytes : Int) : Option (Dec R) :=
  (match side with
    | some s => synthGood P u d s
    | none => synthLost P u d).bind fun d => synthLtpf P d side nbytes

/-- `complete`, src/lc3.c:663-672. -/
def complete {R : Type} (d : Dec R) : Dec R :=
  { d with xsOff := if d.xsOff - d.xhOff < nh d.dt d.srPcm then d.xsOff + ns d.dt d.srPcm else d.xhOff }

/-- The parameters of a call of `lc3_decode`: the decoder is given apart; `inp` is the memory at `in`, or `none` for `NULL`; the samples
are converted by `conv`, and written from the index `base`. -/
structure DecCall (R α : Type) where
  inp : Option (List Nat)
  nbytes : Int
  conv : R → α
  base : Int
  stride : Int
  junk : Junk R

/-- The decoding of the frame received, src/lc3.c:764: the side information, `none` for a frame lost or refused. -/
def decInput {R α : Type} (P : Platform R) (c : DecCall R α) (d : Dec R) : Option (Option SideData × Dec R) :=
  match c.inp with
  | none => some (none, d)
  | some region => if region.length < c.nbytes then none else decDecode P c.junk d (region.take c.nbytes.toNat)

/-- The processing of a call accepted, src/lc3.c:764-771. -/
def decProcess {R α : Type} (P : Platform R) (c : DecCall R α) (d : Dec R) (mem : Int → α) : Option (Int × Dec R × (Int → α)) :=
  (decInput P c d).bind fun w =>
  (synthesize P c.junk w.2 w.1 c.nbytes).bind fun d =>
  (win d.x d.xsOff (ns d.dt d.srPcm)).bind fun xs =>
  some (if w.1 = none then 1 else 0, complete d, pcmStore c.stride c.base (xs.map c.conv) mem)

/-- `lc3_decode`, src/lc3.c:740-772: the value returned, the decoder and the memory of the output. -/
def lc3Decode {R α : Type} (P : Platform R) (c : DecCall R α) (d : Option (Dec R)) (mem : Int → α) :
    Option (Int × Option (Dec R) × (Int → α)) :=
  match d with
  | none => some (-1, none, mem)
  | some d =>
    if c.inp.isSome ∧ (c.nbytes < 20 ∨ c.nbytes > maxFrameBytes d.dt d.sr) then some (-1, some d, mem) else
    (decProcess P c d mem).map fun r => (r.1, some r.2.1, r.2.2)

/-- A sequence of calls: the values returned, the decoder and the memory of the outputs. -/
def decRun {R α : Type} (P : Platform R) : List (DecCall R α) → Option (Dec R) → (Int → α) →
    Option (List Int × Option (Dec R) × (Int → α))
  | [], d, mem => some ([], d, mem)
  | c :: l, d, mem =>
    (lc3Decode P c d mem).bind fun r =>
    (decRun P l r.2.1 r.2.2).map fun w => (r.1 :: w.1, w.2)

end LC3
