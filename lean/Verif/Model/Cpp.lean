import Verif.Model.Encoder

/-!
Model of the C++ interface, `include/lc3_cpp.h`: the classes `lc3::Encoder` and `lc3::Decoder`, of any number of channels.

Simplifications: the pointers of the vector `states` are never null once pushed; the pointer computed after the last channel, `out_ptr` or
`in_ptr`, is not dereferenced and has no counterpart. The number of channels, converted to `int` for the stride, is less than 2^31.
-/

namespace LC3

/-- `ret |= r` on `int`, include/lc3_cpp.h:106-107, 219-220. -/
def retOr (a b : Int) : Int := (BitVec.ofInt 32 a ||| BitVec.ofInt 32 b).toInt

/-- `frame_size`, include/lc3_cpp.h:103-104, 216-217: `block_size` is converted to `size_t`, and the result to `int`. -/
def cppFrameSize (blockSize : Int) (nch ich : Nat) : Int :=
  let b := (blockSize % 18446744073709551616).toNat
  toI32 (((b / nch + if ich < b % nch then 1 else 0) % 18446744073709551616 : Nat) : Int)

/-- `sr_pcm_hz_`, include/lc3_cpp.h:56. -/
def cppPcmRate (srHz srPcmHz : Int) : Int := if srPcmHz = 0 then srHz else srPcmHz

/-- `lc3::Encoder`, include/lc3_cpp.h:93-202: `nchannels_` and `states`. -/
structure CppEnc (R : Type) where
  nch : Nat
  states : List (Enc R)

/-- The body of the loop of the constructor `Encoder`, include/lc3_cpp.h:131-137: `ok` when `malloc` succeeds. The allocation has the size
given by `lc3_hr_encoder_size`; the setup initialises the instance and the samples that follow: it is undefined when it exceeds the
allocation. `sz` is the size of `struct lc3_encoder`. -/
def cppEncState {R : Type} (sz : Nat) (A : Arith R) (hr : Bool) (dtUs srHz srPcmHz : Int) (ok : Bool) : Option (Option (Enc R)) :=
  (hrEncoderSize sz hr dtUs srPcmHz).bind fun size =>
  (setupEncoder hr dtUs srHz srPcmHz ok).bind fun l =>
  match l with
  | none => some none
  | some l => if size < sz + (l.zeroed - 1) * 4 then none else encSetup A hr dtUs srHz srPcmHz ok

/-- The constructor `Encoder`, include/lc3_cpp.h:128-138, for each channel the success of `malloc`. -/
def cppEncNew {R : Type} (sz : Nat) (A : Arith R) (hr : Bool) (dtUs srHz srPcmHz : Int) (mallocs : List Bool) : Option (CppEnc R) :=
  (mallocs.mapM (cppEncState sz A hr dtUs srHz (cppPcmRate srHz srPcmHz))).map fun l => ⟨mallocs.length, l.filterMap id⟩

/-- The parameters of `Encode`, include/lc3_cpp.h:164-200, and the undetermined memory of each channel: `pcm` is the array of samples of
the format selected. -/
structure BlockCall (R α : Type) where
  pcm : Int → α
  conv : α → Option (Int × R)
  blockSize : Int
  out : List Nat
  junk : Nat → EncJunk R

/-- The loop of `EncodeImpl`, include/lc3_cpp.h:102-110, from the channel `ich`: the value returned, the output and the encoders. -/
def cppEncLoop {R α : Type} [Inhabited R] (P : EncPlatform R) (c : BlockCall R α) (nch : Nat) :
    Nat → List (Enc R) → Int → Int → List Nat → Option (Int × List Nat × List (Option (Enc R)))
  | _, [], _, ret, out => some (ret, out, [])
  | ich, s :: l, off, ret, out =>
    let size := cppFrameSize c.blockSize nch ich
    if off < 0 ∨ (out.length : Int) < off then none else
    (lc3Encode P ⟨c.pcm, c.conv, ich, nch, size, out.drop off.toNat, c.junk ich⟩ (some s)).bind fun r =>
    (cppEncLoop P c nch (ich + 1) l (off + size) (retOr ret r.1) (out.take off.toNat ++ r.2.1)).map fun w =>
    (w.1, w.2.1, r.2.2 :: w.2.2)

/-- `EncodeImpl`, include/lc3_cpp.h:95-113: the value returned, the output and the encoder. -/
def cppEncode {R α : Type} [Inhabited R] (P : EncPlatform R) (c : BlockCall R α) (e : CppEnc R) : Option (Int × List Nat × CppEnc R) :=
  if e.states.length ≠ e.nch then some (-1, c.out, e) else
  (cppEncLoop P c e.nch 0 e.states 0 0 c.out).map fun w => (w.1, w.2.1, ⟨e.nch, w.2.2.filterMap id⟩)

/-- `DisableLTPF`, include/lc3_cpp.h:140-143. -/
def cppDisableLtpf {R : Type} (e : CppEnc R) : CppEnc R := { e with states := e.states.map fun s => { s with bypass := true } }

/-- `Reset`, include/lc3_cpp.h:149-152: the setup again, with the parameters of the constructor, in the memory of each channel. The result of
the setup is dropped: a setup that fails leaves the instance. -/
def cppEncReset {R : Type} (sz : Nat) (A : Arith R) (hr : Bool) (dtUs srHz srPcmHz : Int) (e : CppEnc R) : Option (CppEnc R) :=
  (e.states.mapM fun s => (cppEncState sz A hr dtUs srHz (cppPcmRate srHz srPcmHz) true).map fun n => n.getD s).map fun l => { e with states := l }

/-- The functions applied to an encoder. -/
inductive CppEncOp (R α : Type) where
  | encode (c : BlockCall R α)
  | disableLtpf

/-- A sequence of calls: for each `Encode` the value returned and the output, and the encoder. -/
def cppEncRun {R α : Type} [Inhabited R] (P : EncPlatform R) : List (CppEncOp R α) → CppEnc R →
    Option (List (Option (Int × List Nat)) × CppEnc R)
  | [], e => some ([], e)
  | .encode c :: l, e =>
    (cppEncode P c e).bind fun r =>
    (cppEncRun P l r.2.2).map fun w => (some (r.1, r.2.1) :: w.1, w.2)
  | .disableLtpf :: l, e => (cppEncRun P l (cppDisableLtpf e)).map fun w => (none :: w.1, w.2)

/-- `lc3::Decoder`, include/lc3_cpp.h:206-313: `nchannels_` and `states`. -/
structure CppDec (R : Type) where
  nch : Nat
  states : List (Dec R)

/-- The body of the loop of the constructor `Decoder`, include/lc3_cpp.h:244-250, see `cppEncState`. -/
def cppDecState {R : Type} (sz : Nat) (A : Arith R) (hr : Bool) (dtUs srHz srPcmHz : Int) (ok : Bool) : Option (Option (Dec R)) :=
  (hrDecoderSize sz hr dtUs srPcmHz).bind fun size =>
  (setupDecoder hr dtUs srHz srPcmHz ok).bind fun l =>
  match l with
  | none => some none
  | some l => if size < sz + (l.zeroed - 1) * 4 then none else decSetup A hr dtUs srHz srPcmHz ok

/-- The constructor `Decoder`, include/lc3_cpp.h:241-251. -/
def cppDecNew {R : Type} (sz : Nat) (A : Arith R) (hr : Bool) (dtUs srHz srPcmHz : Int) (mallocs : List Bool) : Option (CppDec R) :=
  (mallocs.mapM (cppDecState sz A hr dtUs srHz (cppPcmRate srHz srPcmHz))).map fun l => ⟨mallocs.length, l.filterMap id⟩

/-- `Reset`, include/lc3_cpp.h:257-260, see `cppEncReset`. -/
def cppDecReset {R : Type} (sz : Nat) (A : Arith R) (hr : Bool) (dtUs srHz srPcmHz : Int) (d : CppDec R) : Option (CppDec R) :=
  (d.states.mapM fun s => (cppDecState sz A hr dtUs srHz (cppPcmRate srHz srPcmHz) true).map fun n => n.getD s).map fun l => { d with states := l }

/-- The parameters of `Decode`, include/lc3_cpp.h:273-285: `inp` is `none` for `nullptr`. -/
structure BlockDecCall (R α : Type) where
  inp : Option (List Nat)
  blockSize : Int
  conv : R → α
  junk : Nat → Junk R

/-- The memory at `in_ptr`: undefined for `nullptr` with a non-zero offset, and beyond the memory of the block. -/
def cppRegion (inp : Option (List Nat)) (off : Int) : Option (Option (List Nat)) :=
  match inp with
  | none => if off = 0 then some none else none
  | some b => if off < 0 ∨ (b.length : Int) < off then none else some (some (b.drop off.toNat))

/-- The loop of `DecodeImpl`, include/lc3_cpp.h:215-223, from the channel `ich`: the value returned, the decoders and the memory. -/
def cppDecLoop {R α : Type} (P : Platform R) (c : BlockDecCall R α) (nch : Nat) :
    Nat → List (Dec R) → Int → Int → (Int → α) → Option (Int × List (Option (Dec R)) × (Int → α))
  | _, [], _, ret, mem => some (ret, [], mem)
  | ich, s :: l, off, ret, mem =>
    let size := cppFrameSize c.blockSize nch ich
    (cppRegion c.inp off).bind fun region =>
    (lc3Decode P ⟨region, size, c.conv, ich, nch, c.junk ich⟩ (some s) mem).bind fun r =>
    (cppDecLoop P c nch (ich + 1) l (off + size) (retOr ret r.1) r.2.2).map fun w => (w.1, r.2.1 :: w.2.1, w.2.2)

/-- `DecodeImpl`, include/lc3_cpp.h:208-226, on an array of samples of the format: all the calls of `Decode`, except the one with a
pointer to `int32_t`, see `cppDecodeInt32`. -/
def cppDecode {R α : Type} (P : Platform R) (c : BlockDecCall R α) (d : CppDec R) (mem : Int → α) :
    Option (Int × CppDec R × (Int → α)) :=
  if d.states.length ≠ d.nch then some (-1, d, mem) else
  (cppDecLoop P c d.nch 0 d.states 0 0 mem).map fun w => (w.1, ⟨d.nch, w.2.1.filterMap id⟩, w.2.2)

/-- A sequence of calls of `Decode`. -/
def cppDecRun {R α : Type} (P : Platform R) : List (BlockDecCall R α) → CppDec R → (Int → α) → Option (List Int × CppDec R × (Int → α))
  | [], d, mem => some ([], d, mem)
  | c :: l, d, mem =>
    (cppDecode P c d mem).bind fun r =>
    (cppDecRun P l r.2.1 r.2.2).map fun w => (r.1 :: w.1, w.2)

/-- The writes of `Decode(const uint8_t *, int, int32_t *)`, include/lc3_cpp.h:277-279, in the bytes of the output: the format selected
is the packed one, of 3 bytes per sample, while `pcm + ich` steps by 4 bytes: the channel `ich` is written from the byte `4 ich`. `ch`
are the samples, in 3 bytes, that the channels produce. -/
def cppDecodeInt32 (nch : Nat) : Nat → List (List (Nat × Nat × Nat)) → (Int → Nat) → (Int → Nat)
  | _, [], mem => mem
  | ich, s :: l, mem => cppDecodeInt32 nch (ich + 1) l (pcmStore3 nch (4 * ich) s mem)

end LC3
