import Verif.Model.Api
import Verif.Model.Ltpf

/-!
Model of the files of the tools: `tools/lc3bin.c` and `tools/wave.c`.

A file is a list of bytes. Simplifications: the files are seekable, without input-output errors, the host is little endian, `long` and
`size_t` have 64 bits. `none` is an undefined behaviour.
-/

namespace LC3

/-! ### Streams -/

/-- A stream opened for reading: the content, the position and the end-of-file indicator. -/
structure RdFile where
  data : List Nat
  pos : Nat
  eof : Bool

/-- `fread` of one element of `n` bytes: the element when the value returned is 1. An element of size 0 is never read (C11 7.21.8.1). -/
def RdFile.read (f : RdFile) (n : Nat) : Option (List Nat) × RdFile :=
  if n = 0 then (none, f) else
  if f.pos + n ≤ f.data.length then (some ((f.data.drop f.pos).take n), { f with pos := f.pos + n })
  else (none, { f with pos := max f.pos f.data.length, eof := true })

/-- `fseek` to the absolute position `p`: fails, without effect, when it is negative. -/
def RdFile.seek (f : RdFile) (p : Int) : RdFile := if p < 0 then f else { f with pos := p.toNat, eof := false }

/-- The 2 bytes of an `uint16_t`, initialised by an integer. -/
def put16 (v : Int) : List Nat := [(v % 256).toNat, (v / 256 % 256).toNat]

/-- The 4 bytes of an `uint32_t`, initialised by an integer. -/
def put32 (v : Int) : List Nat := [(v % 256).toNat, (v / 256 % 256).toNat, (v / 65536 % 256).toNat, (v / 16777216 % 256).toNat]

/-- The `uint16_t` at the offset `i`. -/
def get16 (l : List Nat) (i : Nat) : Nat := l.getD i 0 + 256 * l.getD (i + 1) 0

/-- The `uint32_t` at the offset `i`. -/
def get32 (l : List Nat) (i : Nat) : Nat :=
  l.getD i 0 + 256 * l.getD (i + 1) 0 + 65536 * l.getD (i + 2) 0 + 16777216 * l.getD (i + 3) 0

/-! ### `tools/lc3bin.c` -/

/-- `LC3_FILE_ID`, tools/lc3bin.c:27. -/
def binId : Nat := 0x1C + 0xCC * 256

/-- `lc3bin_write_header`, tools/lc3bin.c:88-114: the bytes written. The field `epmode` is zero. The shift of a negative `nsamples` is
arithmetic. -/
def binWriteHeader (frameUs srHz : Int) (hr : Bool) (bitrate nch nsamples : Int) : List Nat :=
  put16 binId ++ put16 (if hr then 20 else 18) ++ put16 (srHz.tdiv 100) ++ put16 (bitrate.tdiv 100) ++ put16 nch ++
  put16 (frameUs.tdiv 10) ++ put16 0 ++ put16 (nsamples % 65536) ++ put16 (nsamples / 65536) ++ if hr then put16 1 else []

/-- The parameters read by `lc3bin_read_header`. -/
structure BinParams where
  frameUs : Int
  srHz : Int
  hr : Bool
  nch : Int
  nsamples : Int
deriving DecidableEq

/-- `lc3bin_read_header`, tools/lc3bin.c:45-72: the parameters when the value returned is 0, and the stream. Undefined: the overflow of
the shift `nsamples_high << 16`. -/
def binReadHeader (f : RdFile) : Option (Option BinParams × RdFile) :=
  match f.read 18 with
  | (none, f) => some (none, f)
  | (some h, f) =>
    if get16 h 0 ≠ binId ∨ get16 h 2 < 18 then some (none, f) else
    let ext := (get16 h 2 - 18) / 2
    match (if 1 ≤ ext then f.read 2 else (some [0, 0], f)) with
    | (none, f) => some (none, f)
    | (some x, f) =>
      (i32 (get16 h 16 * 65536)).bind fun high =>
      let p : BinParams := ⟨get16 h 10 * 10, get16 h 4 * 100, get16 x 0 ≠ 0, get16 h 8, get16 h 14 + high⟩
      if get16 h 12 ≠ 0 then some (none, f) else some (some p, f.seek (get16 h 2))

/-- `lc3bin_write_data`, tools/lc3bin.c:119-125: the bytes written. -/
def binWriteData (data : List Nat) : List Nat := put16 data.length ++ data

/-- `lc3bin_read_data`, tools/lc3bin.c:77-86: the block when the value returned is not -1, and the stream. -/
def binReadData (nch : Nat) (f : RdFile) : Option (List Nat) × RdFile :=
  match f.read 2 with
  | (none, f) => (none, f)
  | (some h, f) => if get16 h 0 > nch * 625 then (none, f) else f.read (get16 h 0)

/-- The blocks read by successive calls, up to the first error. -/
def binReadBlocks (nch : Nat) : Nat → RdFile → List (List Nat)
  | 0, _ => []
  | n + 1, f => match binReadData nch f with
    | (none, _) => []
    | (some b, f) => b :: binReadBlocks nch n f

/-! ### `tools/wave.c` -/

/-- `__WAVE_ID`, tools/wave.c:27-28, of `RIFF`, `WAVE`, `fmt ` and `data`. -/
def riffId : Nat := 0x46464952
def waveId : Nat := 0x45564157
def fmtId : Nat := 0x20746d66
def dataId : Nat := 0x61746164

/-- `wave_write_header`, tools/wave.c:144-176: the bytes written. Undefined: the overflow of the products of `int`. -/
def waveWriteHeader (bitdepth samplesize samplerate nch nframes : Int) : Option (List Nat) := do
  let n ← i32 (nch * nframes)
  let dataSize ← i32 (n * samplesize)
  let r ← i32 (samplerate * nch)
  let byterate ← i32 (r * samplesize)
  let framesize ← i32 (nch * samplesize)
  return put32 riffId ++ put32 (44 + dataSize - 8) ++ put32 waveId ++
    (put32 fmtId ++ put32 16 ++ put16 1 ++ put16 nch ++ put32 samplerate ++ put32 byterate ++ put16 framesize ++ put16 bitdepth) ++
    (put32 dataId ++ put32 dataSize)

/-- The parameters read by `wave_read_header`. -/
structure WaveParams where
  bitdepth : Int
  samplesize : Int
  samplerate : Int
  nch : Int
  nframes : Int
deriving DecidableEq

/-- The loop of tools/wave.c:117-118: the size of the data chunk when found. Each chunk read takes 8 bytes: the count of iterations, the
first argument, is no more than the size of the file. -/
def waveSkip : Nat → RdFile → Option Nat × RdFile
  | 0, f => (none, f)
  | n + 1, f => match f.read 8 with
    | (none, f) => (none, f)
    | (some h, f) => if get32 h 0 = dataId then (some (get32 h 4), f) else waveSkip n (f.seek (f.pos + get32 h 4))

/-- `wave_read_header`, tools/wave.c:91-131: the parameters when the value returned is 0, and the stream. Undefined: a division by zero.
The difference `sizeof(format) - (8 + format.size)` is a `size_t`, converted to a `long`; `8 + format.size` is an `uint32_t`. -/
def waveReadHeader (f : RdFile) : Option (Option WaveParams × RdFile) :=
  match f.read 12 with
  | (none, f) => some (none, f)
  | (some h, f) =>
    if get32 h 0 ≠ riffId ∨ get32 h 8 ≠ waveId then some (none, f) else
    match f.read 24 with
    | (none, f) => some (none, f)
    | (some h, f) =>
      let size := get32 h 4
      let fmt := get16 h 8
      let channels := get16 h 10
      let samplerate := get32 h 12
      let byterate := get32 h 16
      let framesize := get16 h 20
      let bitdepth := get16 h 22
      if get32 h 0 ≠ fmtId ∨ (fmt ≠ 1 ∧ fmt ≠ 0xfffe) ∨ channels = 0 ∨ samplerate = 0 ∨ framesize = 0 ∨
          byterate ≠ samplerate * framesize % 4294967296 then some (none, f) else
      let f := f.seek (f.pos + ((24 : Int) - ((8 + size) % 4294967296 : Nat)))
      match waveSkip (f.data.length + 1) f with
      -- feof(fp): the loop ends without data chunk when a read has failed
      | (none, f) => some (none, f)
      | (some dsize, f) =>
        if channels = 0 ∨ framesize = 0 then none else
        some (some ⟨bitdepth, (framesize / channels : Nat), toI32 samplerate, channels, toI32 (dsize / framesize : Nat)⟩, f)

end LC3
