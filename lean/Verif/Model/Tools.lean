import Verif.Model.Files

/-!
Model of the tools `tools/elc3.c` and `tools/dlc3.c`, after the parsing of the arguments.

The codec of one channel is a parameter: `e` stands for `lc3_encode` and `d` for `lc3_decode`, on a state of any type; the outer `none` is
an undefined behaviour, the inner `none` the value -1. Simplifications: the allocations succeed, the messages and the time measures are left
out (the computations of `int` they make are kept), the files are those of `Verif.Model.Files`.
-/

namespace LC3

/-- `LC3_CHECK_DT_US`, include/lc3.h:205-207. -/
def checkDtUs (us : Int) : Bool := us = 2500 ∨ us = 5000 ∨ us = 7500 ∨ us = 10000

/-- `LC3_HR_CHECK_SR_HZ`, include/lc3.h:209-214. -/
def checkSrHz (hr : Bool) (sr : Int) : Bool :=
  if hr then sr = 48000 ∨ sr = 96000 else sr = 8000 ∨ sr = 16000 ∨ sr = 24000 ∨ sr = 32000 ∨ sr = 48000

/-- `fread` of `count` elements of `size` bytes, as `wave_read_pcm` does, tools/wave.c:136-140: the bytes of the elements read completely,
and the stream. The bytes of an incomplete element are overwritten by the callers. -/
def RdFile.readMany (f : RdFile) (size count : Nat) : List Nat × RdFile :=
  let n := min count ((f.data.length - f.pos) / size)
  if size = 0 ∨ count = 0 then ([], f) else
  ((f.data.drop f.pos).take (n * size),
    if n < count then { f with pos := max f.pos f.data.length, eof := true } else { f with pos := f.pos + n * size })

/-- The `n` bytes of a memory from the offset `a`. -/
def slice (l : List Nat) (a n : Nat) : List Nat := (l.drop a).take n

/-- A write of the bytes `p` at the offset `a` of an array. -/
def patch (l : List Nat) (a : Nat) (p : List Nat) : Option (List Nat) :=
  if a + p.length ≤ l.length then some (l.take a ++ p ++ l.drop (a + p.length)) else none

/-- The channels of a block start after those before. -/
def chanOff (n nch c : Nat) : Nat := ((List.range c).map (channelBytes n nch)).sum

/-- The samples that `lc3_encode` reads, from `pcm + ich * pcm_sbytes`, with a stride of `nchannels` samples, tools/elc3.c:263-265. -/
def chanIn (pcm : List Nat) (nch sb fs c : Nat) : List (List Nat) := (List.range fs).map fun k => slice pcm ((k * nch + c) * sb) sb

/-- The loop over the channels, tools/elc3.c:258-268: the states and the array `out`. -/
def encChans {σ : Type} (e : σ → List (List Nat) → Nat → Option (σ × Option (List Nat))) (n nch sb fs : Nat) (pcm : List Nat) :
    Nat → Nat → List σ → List Nat → Option (List σ × List Nat)
  | _, _, [], out => some ([], out)
  | c, off, s :: l, out => do
    let (s', o) ← e s (chanIn pcm nch sb fs c) (channelBytes n nch c)
    let out ← match o with
      | some o => patch out off o
      | none => some out
    let (l', out) ← encChans e n nch sb fs pcm (c + 1) (off + channelBytes n nch c) l out
    some (s' :: l', out)

/-- The loop of tools/elc3.c:240-271, from the iteration `i`: the bytes written. The first argument bounds the count of iterations. Undefined:
the overflow of `i * frame_samples` and of `i * frame_us`, the overflow of the array `pcm`. -/
def elc3Loop {σ : Type} (e : σ → List (List Nat) → Nat → Option (σ × Option (List Nat))) (us encSamples : Int) (n nch sb fs : Nat) :
    Nat → Nat → List σ → List Nat → RdFile → Option (List Nat)
  | 0, _, _, _, _ => none
  | fuel + 1, i, st, out, f =>
    (i32 ((i : Int) * fs)).bind fun x =>
    if x < encSamples then
      let (rd, f) := f.readMany (nch * sb) fs
      if 7680 < nch * fs * sb then none else
      let pcm := rd ++ List.replicate (nch * fs * sb - rd.length) 0
      (i32 ((i : Int) * us)).bind fun _ =>
      (encChans e n nch sb fs pcm 0 0 st out).bind fun (st, out) =>
      (elc3Loop e us encSamples n nch sb fs fuel (i + 1) st out f).bind fun rest =>
      some (binWriteData (out.take n) ++ rest)
    else some []

/-- The parameters of the command line, tools/elc3.c:60-67; `frameUs` is `frame_ms * 1000`, converted to an `int`, l.162. -/
structure ElcParams where
  frameUs : Int
  srHz : Int
  hr : Bool
  bitrate : Int

/-- `main`, tools/elc3.c:147-289: `true` when the end is reached, `false` when `error` is called, and the bytes written to the output.
`init c` is the state of the encoder of the channel `c` after its setup, `out` the indeterminate content of the array. -/
def elc3 {σ : Type} (e : σ → List (List Nat) → Nat → Option (σ × Option (List Nat))) (init : Nat → σ) (out : List Nat) (p : ElcParams)
    (data : List Nat) : Option (Bool × List Nat) :=
  match waveReadHeader ⟨data, 0, false⟩ with
  | none => none
  | some (none, _) => some (false, [])
  | some (some w, f) =>
    if p.bitrate ≤ 0 then some (false, []) else
    if checkDtUs p.frameUs = false then some (false, []) else
    if checkSrHz p.hr w.samplerate = false then some (false, []) else
    if w.bitdepth ≠ 16 ∧ w.bitdepth ≠ 24 then some (false, []) else
    if (w.bitdepth = 16 ∧ w.samplesize ≠ 2) ∨ (w.bitdepth = 24 ∧ w.samplesize ≠ 3 ∧ w.samplesize ≠ 4) then some (false, []) else
    if w.nch < 1 ∨ 2 < w.nch then some (false, []) else
    if p.srHz ≠ 0 ∧ (checkSrHz p.hr p.srHz = false ∨ w.samplerate < p.srHz) then some (false, []) else
    let encSr := if p.srHz = 0 then w.samplerate else p.srHz
    let encN := if p.srHz = 0 then w.nframes else toI32 ((w.nframes * encSr).tdiv w.samplerate)
    (hrFrameBlockBytes p.hr p.frameUs w.samplerate w.nch p.bitrate).bind fun n =>
    (hrResolveBitrate p.hr p.frameUs w.samplerate n).bind fun bitrate =>
    let header := binWriteHeader p.frameUs encSr p.hr bitrate w.nch encN
    let fs := hrFrameSamples p.hr p.frameUs w.samplerate
    (i32 (w.nframes + hrDelaySamples p.hr p.frameUs w.samplerate)).bind fun total =>
    match setupEncoder p.hr p.frameUs encSr w.samplerate true with
    | none => none
    | some none => some (false, header)
    | some (some _) =>
      (elc3Loop e p.frameUs total n.toNat w.nch.toNat w.samplesize.toNat fs.toNat (total.toNat + 1) 0
        ((List.range w.nch.toNat).map init) out f).bind fun blocks =>
      some (true, header ++ blocks)

/-! ### `tools/dlc3.c` -/

/-- The samples that `lc3_decode` writes, the first at the offset `off`, with `step` bytes from one to the next. -/
def writeChan (step : Nat) : Nat → List (List Nat) → List Nat → Option (List Nat)
  | _, [], buf => some buf
  | off, x :: l, buf => (patch buf off x).bind fun buf => writeChan step (off + step) l buf

/-- The loop over the channels, tools/dlc3.c:241-251: the states and the array `pcm`. `sb` is `pcm_sbytes`, `fb` the size of a sample in
the format `pcm_fmt`. -/
def decChans {σ : Type} (d : σ → List Nat → Option (σ × Option (List (List Nat)))) (b : List Nat) (nch sb fb : Nat) :
    Nat → Nat → List σ → List Nat → Option (List σ × List Nat)
  | _, _, [], buf => some ([], buf)
  | c, off, s :: l, buf =>
    (d s (slice b off (channelBytes b.length nch c))).bind fun (s', r) =>
    (match r with
      | some x => writeChan (nch * fb) (c * sb) x buf
      | none => some buf).bind fun buf =>
    (decChans d b nch sb fb (c + 1) (off + channelBytes b.length nch c) l buf).bind fun (l', buf) =>
    some (s' :: l', buf)

/-- One block, tools/dlc3.c:237-252. -/
def decBlock {σ : Type} (d : σ → List Nat → Option (σ × Option (List (List Nat)))) (nch sb fb fs : Nat) (st : List σ) (buf : List Nat) :
    Option (List Nat) → Option (List σ × List Nat)
  | none => (patch buf 0 (List.replicate (nch * fs * sb) 0)).bind fun buf => some (st, buf)
  | some b => decChans d b nch sb fb 0 0 st buf

/-- The loop of tools/dlc3.c:222-259, from the iteration `i`: the bytes written. Undefined, besides the overflows of `int`: an access out of
the array `pcm`. -/
def dlc3Loop {σ : Type} (d : σ → List Nat → Option (σ × Option (List (List Nat)))) (us encSamples pcmSamples : Int) (nch sb fb fs : Nat) :
    Nat → Nat → List σ → List Nat → RdFile → Option (List Nat)
  | 0, _, _, _, _ => none
  | fuel + 1, i, st, buf, f =>
    (i32 ((i : Int) * fs)).bind fun x =>
    if x < encSamples then
      let (blk, f) := binReadData nch f
      (i32 ((i : Int) * us)).bind fun _ =>
      (decBlock d nch sb fb fs st buf blk).bind fun (st, buf) =>
      let off := if i > 0 then 0 else encSamples - pcmSamples
      let cnt := min ((fs : Int) - off) (encSamples - x)
      if off < 0 ∨ cnt < 0 ∨ buf.length < (nch * off.toNat + nch * cnt.toNat) * sb then none else
      (dlc3Loop d us encSamples pcmSamples nch sb fb fs fuel (i + 1) st buf f).bind fun rest =>
      some (slice buf (nch * off.toNat * sb) (nch * sb * cnt.toNat) ++ rest)
    else some []

/-- The parameters of the command line, tools/dlc3.c:57-62. -/
structure DlcParams where
  srHz : Int
  bitdepth : Int

/-- `main`, tools/dlc3.c:145-290: `true` when the end is reached, `false` when `error` is called, and the bytes written to the output.
`init c` is the state of the decoder of the channel `c` after its setup, `buf` the indeterminate content of the array `pcm`. -/
def dlc3 {σ : Type} (d : σ → List Nat → Option (σ × Option (List (List Nat)))) (init : Nat → σ) (buf : List Nat) (p : DlcParams)
    (data : List Nat) : Option (Bool × List Nat) :=
  if p.bitdepth ≠ 0 ∧ p.bitdepth ≠ 16 ∧ p.bitdepth ≠ 24 then some (false, []) else
  match binReadHeader ⟨data, 0, false⟩ with
  | none => none
  | some (none, _) => some (false, [])
  | some (some w, f) =>
    if w.nch < 1 ∨ 2 < w.nch then some (false, []) else
    if checkDtUs w.frameUs = false then some (false, []) else
    if checkSrHz w.hr w.srHz = false then some (false, []) else
    if p.srHz ≠ 0 ∧ (checkSrHz w.hr p.srHz = false ∨ p.srHz < w.srHz) then some (false, []) else
    let sb := p.bitdepth.tdiv 8
    let pcmSr := if p.srHz = 0 then w.srHz else p.srHz
    let pcmN := if p.srHz = 0 then w.nsamples else toI32 ((w.nsamples * pcmSr).tdiv w.srHz)
    (waveWriteHeader p.bitdepth sb pcmSr w.nch pcmN).bind fun header =>
    let fs := hrFrameSamples w.hr w.frameUs pcmSr
    (i32 (pcmN + hrDelaySamples w.hr w.frameUs pcmSr)).bind fun total =>
    match setupDecoder w.hr w.frameUs w.srHz p.srHz true with
    | none => none
    | some none => some (false, header)
    | some (some _) =>
      (dlc3Loop d w.frameUs total pcmN w.nch.toNat sb.toNat (if p.bitdepth = 24 then 3 else 2) fs.toNat (total.toNat + 1) 0
        ((List.range w.nch.toNat).map init) buf f).bind fun samples =>
      some (true, header ++ samples)

end LC3
