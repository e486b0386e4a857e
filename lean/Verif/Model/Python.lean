import Verif.Model.Tools
import Mathlib.Algebra.Order.Ring.Rat

/-!
Model of the Python interface, `python/lc3.py`: `Encoder.encode`, `Decoder.decode` and the computation of the size of the frames.

As in `Verif.Model.Tools`, the codec of one channel is a parameter, the samples are groups of bytes. A result is `none` for an undefined
behaviour of the library, `some (st, none)` when an exception is raised, with the states of the codecs then. Simplifications: the buffers are
allocated, the arguments have the types of the annotations, the numbers of bytes and channels are not negative.
-/

namespace LC3

/-- The bytes added at the end of the samples by `Encoder.encode`, python/lc3.py:348 for the samples in floating point (`float`, `sb` is
then 4) and python/lc3.py:352 otherwise. -/
def pyPadding (float : Bool) (nch fs sb len : Nat) : Nat :=
  if float then (nch * fs - fs) * sb else nch * fs * sb - len

/-- The loop over the channels of `Encoder.encode`, python/lc3.py:358-370. `from_buffer`, l.361, raises when the buffer is shorter than `pcm_len - ich` samples from the
offset of the sample `ich`. -/
def pyEncChans {σ : Type} (e : σ → List (List Nat) → Nat → Option (σ × Option (List Nat))) (n nch sb fs : Nat) (pcm : List Nat) :
    Nat → Nat → List σ → List Nat → Option (List σ × Option (List Nat))
  | _, _, [], out => some ([], some out)
  | c, off, s :: l, out =>
    if pcm.length < c * sb + (nch * fs - c) * sb then some (s :: l, none) else
    (e s (chanIn pcm nch sb fs c) (channelBytes n nch c)).bind fun (s', o) =>
    match o with
    | none => some (s' :: l, none)
    | some o =>
      (patch out off o).bind fun out =>
      (pyEncChans e n nch sb fs pcm (c + 1) (off + channelBytes n nch c) l out).bind fun (l', r) => some (s' :: l', r)

/-- The test of the level of the samples in floating point, python/lc3.py:345: "abs(sum(pcm_buffer)) / frame_samples < 2". Simplified: the
values are finite, the sum is exact. -/
def pyInRange (fs : Nat) (x : List Rat) : Bool := |x.sum| / fs < 2

/-- `Encoder.encode`, python/lc3.py:320-372, on the bytes of the samples. `float` when no `bit_depth` is given, `val` is then the value of a
sample (`float` bits). -/
def pyEncode {σ : Type} (e : σ → List (List Nat) → Nat → Option (σ × Option (List Nat))) (float : Bool) (val : List Nat → Rat)
    (nch sb fs : Nat) (st : List σ) (pcm : List Nat) (n : Nat) : Option (List σ × Option (List Nat)) :=
  if float = true ∧ pyInRange fs ((List.range (pcm.length / sb)).map fun k => val (slice pcm (k * sb) sb)) = false then some (st, none) else
  pyEncChans e n nch sb fs (pcm ++ List.replicate (pyPadding float nch fs sb pcm.length) 0) 0 0 st (List.replicate n 0)

/-- The loop over the channels of `Decoder.decode`, python/lc3.py:506-521. -/
def pyDecChans {σ : Type} (d : σ → List Nat → Option (σ × Option (List (List Nat)))) (b : List Nat) (nch sb : Nat) :
    Nat → Nat → List σ → List Nat → Option (List σ × Option (List Nat))
  | _, _, [], buf => some ([], some buf)
  | c, off, s :: l, buf =>
    (d s (slice b off (channelBytes b.length nch c))).bind fun (s', r) =>
    match r with
    | none => some (s' :: l, none)
    | some x =>
      (writeChan (nch * sb) (c * sb) x buf).bind fun buf =>
      (pyDecChans d b nch sb (c + 1) (off + channelBytes b.length nch c) l buf).bind fun (l', r) => some (s' :: l', r)

/-- `Decoder.decode`, python/lc3.py:481-523. -/
def pyDecode {σ : Type} (d : σ → List Nat → Option (σ × Option (List (List Nat)))) (nch sb fs : Nat) (st : List σ) (b : List Nat) :
    Option (List σ × Option (List Nat)) :=
  pyDecChans d b nch sb 0 0 st (List.replicate (nch * fs * sb) 0)

/-- `_Base.get_frame_bytes`, python/lc3.py:153-168: `hrLib` when the library has the functions `lc3_hr_...`, otherwise the replacement of
l.108-111 is used. `none` is undefined, `some none` an exception. -/
def pyFrameBytes (hrLib hr : Bool) (us sr nch bitrate : Int) : Option (Option Int) :=
  (if hrLib then hrFrameBlockBytes hr us sr nch bitrate else (frameBytes us (bitrate / 2)).map (nch * ·)).map fun r =>
  if r < 0 then none else some r

end LC3
