/-
Model of the configuration arithmetic of liblc3:
`src/lc3.c`, `src/tables.h`, `src/tables.c` (characteristics), `include/lc3_private.h` (macros).
Build configuration: `LC3_PLUS = 1`, `LC3_PLUS_HR = 1` (`src/common.h:35-41`).
-/

namespace LC3

/-- `enum lc3_dt`, include/lc3_private.h:59-66. -/
inductive Dt | m2_5 | m5 | m7_5 | m10
  deriving DecidableEq, Repr, Inhabited

/-- Numerical value of `enum lc3_dt`, include/lc3_private.h:59-66. -/
def Dt.idx : Dt → Nat | .m2_5 => 0 | .m5 => 1 | .m7_5 => 2 | .m10 => 3

/-- `enum lc3_srate`, include/lc3_private.h:73-83. -/
inductive Srate | k8 | k16 | k24 | k32 | k48 | k48hr | k96hr
  deriving DecidableEq, Repr, Inhabited

/-- Numerical value of `enum lc3_srate`, include/lc3_private.h:73-83. -/
def Srate.idx : Srate → Nat
  | .k8 => 0 | .k16 => 1 | .k24 => 2 | .k32 => 3 | .k48 => 4 | .k48hr => 5 | .k96hr => 6

/-- `lc3_hr`, src/common.h:109-111. -/
def Srate.hr (sr : Srate) : Bool := decide (5 ≤ sr.idx)

/-- `int` overflow is undefined: `none` stands for undefined behaviour,
`i32 x` is the outcome of an `int` computation whose mathematical value is `x`. -/
def i32 (x : Int) : Option Int :=
  if -2147483648 ≤ x ∧ x ≤ 2147483647 then some x else none

/-- Same for `int64_t`. -/
def i64 (x : Int) : Option Int :=
  if -9223372036854775808 ≤ x ∧ x ≤ 9223372036854775807 then some x else none

/-- `resolve_dt`, src/lc3.c:59-65. `none` is `LC3_NUM_DT`. -/
def resolveDt (us : Int) (hr : Bool) : Option Dt :=
  if us = 2500 then some .m2_5
  else if us = 5000 then some .m5
  else if hr = false ∧ us = 7500 then some .m7_5
  else if us = 10000 then some .m10
  else none

/-- `resolve_srate`, src/lc3.c:73-84. `none` is `LC3_NUM_SRATE`. -/
def resolveSrate (hz : Int) (hr : Bool) : Option Srate :=
  if hr = false ∧ hz = 8000 then some .k8
  else if hr = false ∧ hz = 16000 then some .k16
  else if hr = false ∧ hz = 24000 then some .k24
  else if hr = false ∧ hz = 32000 then some .k32
  else if hr = false ∧ hz = 48000 then some .k48
  else if hr = true ∧ hz = 48000 then some .k48hr
  else if hr = true ∧ hz = 96000 then some .k96hr
  else none

/-! ### Macros of `include/lc3_private.h` -/

/-- `LC3_NS(dt_us, sr_hz)`, include/lc3_private.h:40-41 (integer constant expression;
`none` when the multiplication overflows). C division truncates. -/
def macroNS (dtUs srHz : Int) : Option Int := do
  let p ← i32 (dtUs * srHz)
  return (p.tdiv 1000).tdiv 1000

/-- `LC3_ND`, include/lc3_private.h:43-45. -/
def macroND (dtUs srHz : Int) : Option Int := do
  let a ← macroNS dtUs srHz
  let b ← macroNS (if dtUs = 7500 then 2000 else 1250) srHz
  i32 (a.tdiv 2 + b)

/-- `LC3_NH`, include/lc3_private.h:47-49. Division by zero is undefined. -/
def macroNH (dtUs srHz : Int) : Option Int :=
  if srHz > 48000 then some 0 else do
    let a ← macroNS 18000 srHz
    let b ← macroNS dtUs srHz
    if b = 0 then none else
    i32 (a + b - a.tmod b)

/-- `LC3_NT`, include/lc3_private.h:51-52. -/
def macroNT (srHz : Int) : Option Int := macroNS 1250 srHz

/-- `LC3_ENCODER_BUFFER_COUNT`, include/lc3_private.h:129-131. -/
def macroEncoderCount (dtUs srHz : Int) : Option Int := do
  let ns ← macroNS dtUs srHz
  let nt ← macroNT srHz
  let nd ← macroND dtUs srHz
  i32 ((ns + nt).tdiv 2 + ns + nd)

/-- `LC3_DECODER_BUFFER_COUNT`, include/lc3_private.h:167-169. -/
def macroDecoderCount (dtUs srHz : Int) : Option Int := do
  let nh ← macroNH dtUs srHz
  let ns ← macroNS dtUs srHz
  let nd ← macroND dtUs srHz
  i32 (nh + ns + nd + ns)

/-! ### Table characteristics, `src/tables.h`, `src/tables.c` -/

/-- `lc3_ns_2m5`, src/tables.c:26-34. -/
def ns2m5 : Srate → Nat
  | .k8 => 20 | .k16 => 40 | .k24 => 60 | .k32 => 80 | .k48 => 120 | .k48hr => 120 | .k96hr => 240

/-- `lc3_ne_2m5`, src/tables.c:36-44 (48 kHz is coded up to 20 kHz outside high-resolution). -/
def ne2m5 : Srate → Nat
  | .k8 => 20 | .k16 => 40 | .k24 => 60 | .k32 => 80 | .k48 => 100 | .k48hr => 120 | .k96hr => 240

/-- `lc3_ns_4m`, src/tables.c:46-54. -/
def ns4m : Srate → Nat
  | .k8 => 32 | .k16 => 64 | .k24 => 96 | .k32 => 128 | .k48 => 192 | .k48hr => 192 | .k96hr => 384

/-- `lc3_ns`, src/tables.h:46-48. -/
def ns (dt : Dt) (sr : Srate) : Nat := ns2m5 sr * (1 + dt.idx)

/-- `lc3_ne`, src/tables.h:50-52. -/
def ne (dt : Dt) (sr : Srate) : Nat := ne2m5 sr * (1 + dt.idx)

/-- `lc3_nd`, src/tables.h:54-57. -/
def nd (dt : Dt) (sr : Srate) : Nat :=
  (ns dt sr + (if dt = .m7_5 then ns4m sr else ns2m5 sr)) >>> 1

/-- `lc3_nh`, src/tables.h:59-62. -/
def nh (dt : Dt) (sr : Srate) : Nat :=
  if sr.idx > 5 then 0 else (8 + (if dt = .m7_5 then 1 else 0)) * ns2m5 sr

/-- `lc3_nt`, src/tables.h:64-66. -/
def nt (sr : Srate) : Nat := ns2m5 sr >>> 1

/-- `lc3_frame_bytes_hr_lim` lower bounds, src/tables.c:62-74 (the 7.5 ms row is
zero-initialised, and never used: 7.5 ms is refused in high-resolution mode). -/
def hrMin : Dt → Srate → Nat
  | .m2_5, .k48hr => 54 / 2 | .m2_5, .k96hr => 62 / 2
  | .m5, .k48hr => 93 / 2   | .m5, .k96hr => 109 / 2
  | .m10, .k48hr => 156 / 2 | .m10, .k96hr => 187 / 2
  | _, _ => 0

/-- `lc3_frame_bytes_hr_lim` upper bounds, src/tables.c:62-74. -/
def hrMax : Dt → Srate → Nat
  | .m2_5, .k48hr => 210 | .m2_5, .k96hr => 210
  | .m5, .k48hr => 375   | .m5, .k96hr => 375
  | .m10, .k48hr => 625  | .m10, .k96hr => 625
  | _, _ => 0

/-- `lc3_min_frame_bytes`, src/tables.h:81-84, `LC3_MIN_FRAME_BYTES`, include/lc3.h:186. -/
def minFrameBytes (dt : Dt) (sr : Srate) : Nat := if sr.hr then hrMin dt sr else 20

/-- `lc3_max_frame_bytes`, src/tables.h:86-89, `LC3_MAX_FRAME_BYTES`, include/lc3.h:187. -/
def maxFrameBytes (dt : Dt) (sr : Srate) : Nat := if sr.hr then hrMax dt sr else 400

/-! ### Public queries, `src/lc3.c` -/

/-- `LC3_CLIP`, src/common.h:88. -/
def clip (v lo hi : Int) : Int :=
  let m := if v > lo then v else lo
  if m < hi then m else hi

/-- `lc3_hr_frame_samples`, src/lc3.c:89-98. -/
def hrFrameSamples (hr : Bool) (dtUs srHz : Int) : Int :=
  match resolveDt dtUs hr, resolveSrate srHz hr with
  | some dt, some sr => ns dt sr
  | _, _ => -1

/-- `lc3_frame_samples`, src/lc3.c:100-103. -/
def frameSamples (dtUs srHz : Int) : Int := hrFrameSamples false dtUs srHz

/-- `LC3_HR_MAX_BITRATE`, include/lc3.h:184. -/
def hrMaxBitrate : Int := 672000

/-- `lc3_hr_frame_block_bytes`, src/lc3.c:108-123. The products are computed in `int`. -/
def hrFrameBlockBytes (hr : Bool) (dtUs srHz nch bitrate : Int) : Option Int :=
  match resolveDt dtUs hr, resolveSrate srHz hr with
  | some dt, some sr =>
    if nch < 1 ∨ nch > 8 ∨ bitrate < 0 then some (-1) else do
      let br := clip bitrate 0 (8 * hrMaxBitrate)
      let p ← i32 (br * (1 + dt.idx : Nat))
      let lo ← i32 (nch * minFrameBytes dt sr)
      let hi ← i32 (nch * maxFrameBytes dt sr)
      return clip (p.tdiv 3200) lo hi
  | _, _ => some (-1)

/-- `lc3_frame_block_bytes`, src/lc3.c:125-128. -/
def frameBlockBytes (dtUs nch bitrate : Int) : Option Int :=
  hrFrameBlockBytes false dtUs 8000 nch bitrate

/-- `lc3_hr_frame_bytes`, src/lc3.c:130-134. -/
def hrFrameBytes (hr : Bool) (dtUs srHz bitrate : Int) : Option Int :=
  hrFrameBlockBytes hr dtUs srHz 1 bitrate

/-- `lc3_frame_bytes`, src/lc3.c:136-139. -/
def frameBytes (dtUs bitrate : Int) : Option Int := hrFrameBytes false dtUs 8000 bitrate

/-- `lc3_hr_resolve_bitrate`, src/lc3.c:144-154. `nbytes * 3200 + dt` is an `int64_t`
computation, the result is limited to `INT_MAX` and converted to `int`. -/
def hrResolveBitrate (hr : Bool) (dtUs srHz nbytes : Int) : Option Int :=
  match resolveDt dtUs hr, resolveSrate srHz hr with
  | some dt, some _ =>
    if nbytes < 0 then some (-1) else do
      let p ← i64 (nbytes * 3200 + dt.idx)
      let q := p.tdiv (1 + dt.idx : Nat)
      i32 (if q < 2147483647 then q else 2147483647)
  | _, _ => some (-1)

/-- `lc3_resolve_bitrate`, src/lc3.c:156-159. -/
def resolveBitrate (dtUs nbytes : Int) : Option Int := hrResolveBitrate false dtUs 8000 nbytes

/-- `lc3_hr_delay_samples`, src/lc3.c:164-173. -/
def hrDelaySamples (hr : Bool) (dtUs srHz : Int) : Int :=
  match resolveDt dtUs hr, resolveSrate srHz hr with
  | some dt, some sr => 2 * (nd dt sr : Int) - ns dt sr
  | _, _ => -1

/-- `lc3_delay_samples`, src/lc3.c:175-178. -/
def delaySamples (dtUs srHz : Int) : Int := hrDelaySamples false dtUs srHz

/-! ### Instance sizes and layout -/

/-- `lc3_hr_encoder_size`, src/lc3.c:371-379. `sz` is `sizeof(struct lc3_encoder)`, left abstract;
its last member is the first element of the sample buffer. -/
def hrEncoderSize (sz : Nat) (hr : Bool) (dtUs srHz : Int) : Option Int :=
  match resolveDt dtUs hr, resolveSrate srHz hr with
  | some _, some _ => do
    let c ← macroEncoderCount dtUs srHz
    return sz + (c - 1) * 4
  | _, _ => some 0

/-- `lc3_hr_decoder_size`, src/lc3.c:677-685. -/
def hrDecoderSize (sz : Nat) (hr : Bool) (dtUs srHz : Int) : Option Int :=
  match resolveDt dtUs hr, resolveSrate srHz hr with
  | some _, some _ => do
    let c ← macroDecoderCount dtUs srHz
    return sz + (c - 1) * 4
  | _, _ => some 0

/-- Configuration and buffer offsets of `struct lc3_encoder`, include/lc3_private.h:116-127. -/
structure EncLayout where
  dt : Dt
  sr : Srate
  srPcm : Srate
  /-- offset of the temporal samples, in `int16_t` units -/
  xtOff : Nat
  /-- offsets in `float` units -/
  xsOff : Nat
  xdOff : Nat
  /-- number of floats zeroed at setup -/
  zeroed : Int
  deriving DecidableEq, Repr

/-- `lc3_hr_setup_encoder`, src/lc3.c:389-419. Outer `none`: undefined behaviour,
inner `none`: `NULL`. `memOk` is `mem != NULL`. -/
def setupEncoder (hr : Bool) (dtUs srHz srPcmHz : Int) (memOk : Bool) :
    Option (Option EncLayout) :=
  let srPcmHz := if srPcmHz ≤ 0 then srHz else srPcmHz
  match resolveDt dtUs hr, resolveSrate srHz hr, resolveSrate srPcmHz hr with
  | some dt, some sr, some srPcm =>
    if sr.idx > srPcm.idx ∨ memOk = false then some none else do
      let c ← macroEncoderCount dtUs srPcmHz
      return some {
        dt, sr, srPcm
        xtOff := nt srPcm
        xsOff := (nt srPcm + ns dt srPcm) / 2
        xdOff := (nt srPcm + ns dt srPcm) / 2 + ns dt srPcm
        zeroed := c }
  | _, _, _ => some none

/-- Configuration and buffer offsets of `struct lc3_decoder`, include/lc3_private.h:156-165. -/
structure DecLayout where
  dt : Dt
  sr : Srate
  srPcm : Srate
  xhOff : Nat
  xsOff : Nat
  xdOff : Nat
  xgOff : Nat
  zeroed : Int
  deriving DecidableEq, Repr

/-- `lc3_hr_setup_decoder`, src/lc3.c:695-729. -/
def setupDecoder (hr : Bool) (dtUs srHz srPcmHz : Int) (memOk : Bool) :
    Option (Option DecLayout) :=
  let srPcmHz := if srPcmHz ≤ 0 then srHz else srPcmHz
  match resolveDt dtUs hr, resolveSrate srHz hr, resolveSrate srPcmHz hr with
  | some dt, some sr, some srPcm =>
    if sr.idx > srPcm.idx ∨ memOk = false then some none else do
      let c ← macroDecoderCount dtUs srPcmHz
      return some {
        dt, sr, srPcm
        xhOff := 0
        xsOff := nh dt srPcm
        xdOff := nh dt srPcm + ns dt srPcm
        xgOff := nh dt srPcm + ns dt srPcm + nd dt srPcm
        zeroed := c }
  | _, _, _ => some none

/-- Share of a frame block given to channel `ich`: tools/elc3.c:260-261, tools/dlc3.c:242-243,
include/lc3_cpp.h (`block_bytes / nch + (ich < block_bytes % nch)`). -/
def channelBytes (blockBytes nch ich : Nat) : Nat :=
  blockBytes / nch + (if ich < blockBytes % nch then 1 else 0)

end LC3
