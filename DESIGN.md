# Formal model of google/liblc3 in Lean 4

The source is `/repo`, read as text, never built nor run. The model and the proofs are in `lean/Verif/`: `Model/` holds the definitions, each with
the file and lines it models, `Props/` the theorems of the properties, `Lemmas/` the lemmas. `properties.jsonl` lists the properties, `MANIFEST.json`
gives the theorems of each one (generated by `tools/manifest.py` from `tools/claims.py`).

## 1. Trusted base

* The kernel of Lean 4.33.0.
* The axioms `propext`, `Classical.choice` and `Quot.sound`, at most (`tools/axioms.sh` prints those of each theorem of the manifest). No axiom is
  added, there is no `sorry`, no `native_decide`, no `bv_decide`. `decide +kernel` is used on complete finite tables and on the concrete
  counter-examples.
* The tables of `Model/Tables.lean`, `LtpfTables.lean`, `SnsTables.lean`, `MdctTables.lean`, `SimdTables.lean` are copied from `src/tables.c`, `src/ltpf.c`, its
  variants and `src/sns.c` by the scripts `tools/gen*.py`, and not proved equal to the sources.
* The reading of the C, C++ and Python code: nothing ties the definitions to the code but the citations. The claims are about the model.
* The semantics given to C: `int` of 32 bits, `long` and `size_t` of 64, two's complement, arithmetic right shift of negative numbers, IEEE binary32
  where the rounding matters, little endian host, generic code (the NEON and ARM variants of `src/ltpf.c` and `src/mdct.c` are modelled apart, C65 and C67), `LC3_PLUS = LC3_PLUS_HR = 1`.

## 2. Conventions of the model

* Values of C integers are `Int` or `Nat`; each wrap of an unsigned operation is explicit, a signed overflow is an outcome.
* Undefined behaviour is a distinct outcome: `none` of an `Option`, or a sticky flag `ub` in the state of the bitstream. This covers accesses out of an
  array, signed overflows, shifts out of range, divisions by zero, conversions out of range of `float` to `int`, endless loops.
* Arrays are lists, pointers are indexes. Overlapping windows of an instance are lists of their own when C06 shows that they are disjoint.
* Floating point. A function that uses it takes an arbitrary implementation `A : Arith R` of the operations: what is proved "in any
  arithmetic" holds for binary32 as for any other, in particular everything about accesses, integers, decisions and formats. Values are proved with
  `Arith.exact` (rational numbers), `Arith.real`, or `Arith.rounded rnd` for roundings with stated properties; `rne24` is the rounding of
  binary32 to the nearest, without limit of exponent, and satisfies them (`Props/Float.lean`). Infinities and NaN are out of these results.
  `Model/Pcm.lean` handles the bit patterns of binary32 themselves.
* `sqrtf`, `lc3_exp2f`, `lc3_log2f` are parameters of the models of the functions that call them; the accuracy of the two last ones is C66.

## 3. What is modelled

| Source | Modelled | Not modelled |
|---|---|---|
| `include/lc3.h`, `lc3_private.h`, `src/common.h`, `src/tables.h` | sizes, limits, delays, macros of the static memory | structure padding (`sizeof` is a parameter) |
| `src/lc3.c` | all: sizes, setup, loading and storing of samples, `encode`, `decode`, `analyze`, `synthesize`, `lc3_encode`, `lc3_decode`, `lc3_encoder_disable_ltpf` | |
| `src/bits.h`, `src/bits.c` | all | |
| `src/bwdet.c`, `src/energy.c`, `src/attdet.c`, `src/plc.c` | all | |
| `src/sns.c`, `src/tns.c`, `src/spec.c` | all | |
| `src/ltpf.c`, `ltpf_neon.h`, `ltpf_arm.h` | all | the assembler of the intrinsics of SIMD32, taken from their documentation |
| `src/mdct.c`, `mdct_neon.h` | all | the instructions behind the intrinsics of NEON, taken from their documentation |
| `src/fastmath.h` | all but `lc3_log10f`, on bit patterns of binary32 (`Model/Fastmath.lean`) | `lc3_log10f`, not used |
| `src/tables.c` | all the tables used by the functions above | |
| `include/lc3_cpp.h` | constructors, `Encode`, `Decode`, `Reset`, all the formats | the static helper functions that only forward |
| `tools/lc3bin.c`, `tools/wave.c` | headers, blocks, samples | errors of input and output |
| `tools/elc3.c`, `tools/dlc3.c` | `parse_args` and `main` | messages; numbers of `strtod` that are not in decimal |
| `python/lc3.py` | `encode`, `decode`, `get_frame_bytes` | loading of the library, `malloc` and `free` |
| `wasm/`, `zephyr/`, `fuzz/`, `test/`, `conformance/`, `python/tools/` | nothing | all |

## 4. Properties

"Any arithmetic" means for every `A : Arith R`. The status of each one is in the manifest; a theorem suffixed `_partial` comes with the theorem that
refutes the rest, or the list of what is missing.

### API (`Model/Api.lean`, `Props/Api.lean`)

* **C01-C05, C41.** The functions on `Int`, compared with a specification in closed form written from the documentation (`Spec.supported`,
  `Spec.minBytes`, `Spec.maxBytes`). Case analysis on the configurations, linear arithmetic over all the integers. C41 is false at 2.5 ms for 5
  channels or more (`C41_int_max_not_max`).
* **C06, C07.** Offsets of the buffers of an instance, exactly in the announced size, disjoint; the static types are large enough. `sizeof` of
  the fixed part is a parameter.

### Bitstream (`Model/Bits.lean`, `Props/Bits.lean`, `Lemmas/Bits*.lean`)

* **C10, C11.** The writer is related to an ideal interval coder by an invariant (the code written, the carry and the pending 0xff bytes are the big
  integer `low`), the reader follows the same intervals: induction over any list of operations. Any initial content of the frame.
* **C12, C13.** Invariants of the pointers, by induction over any operations.
* **C14.** False: `C14_shift_by_32`, and `C14_hostile_frame` with a complete frame. `C14_reading_defined_partial` covers the reads that stay in the frame.
* **C15.** Equality of the counts of bits left along any program.

### Side information (`Model/Syntax.lean`, `Sns.lean`, `Ltpf.lean`)

* **C16, C17, C18, C20.** Each group of fields at an arbitrary point of a frame: round trip from the lemmas of C10 and C11, and ranges for any content.
* **C19.** The enumeration of pulses: a recursive description equal to the loops of the code, bijection by induction on the length.
* **C21.** The whole chain of the encoder (any signal, state and arithmetic) to the pitch decoded.
* **C40.** Count of pulses of the search, for any outcome of the comparisons; the projection needs a relative error of `2^-20`.

### Spectrum and frames (`Model/Spec.lean`, `Frame.lean`, `Rate.lean`, `Gain.lean`)

* **C23, C43.** Induction over the pairs with the state of the contexts; noise seed in both modes.
* **C24.** Exact arithmetic for the errors, any suitable rounding for the agreement on the bits; high-resolution with rounding is refuted
  (`C24_float_desync`).
* **C25, C27.** Composition of the above: complete frames written then read, and any frame read.
* **C26.** False with a TNS filter (`C26_not_silent`).
* **C38.** The tables of costs against the real logarithm (complete check by powers of integers), and the symbols counted against those written.
* **C46.** False (`C46_refuted`, and from the analysis `C46_refuted_from_analysis`); proved when the count of symbols is at most 44 times the spare bits.
* **C47, C48.** The decision of the gain in any arithmetic; the overflows of the estimation: exact limits, and counter-examples.
* **C73.** The error analysis of C68 takes the Fourier transform as a parameter that meets an error bound (`FftOk`); the passes with vector
  instructions meet the same bound, as the fused operations round once (`Neon.rounded`). The agreement of both codes follows.
* **C69.** The products by 0.8f and 0.2f at the limit round to 32 and 8: the bound has no margin, by monotonicity of the rounding; induction over the frames.
* **C61.** Accuracy of the gain with rounding; magnitudes of the quantised coefficients under a level; counter-example above.
* **C62.** `lc3_encode` then `lc3_decode`, for any history of both.

### Signal processing (`Model/Tns.lean`, `Noise.lean`, `Plc.lean`, `Attdet.lean`, `Bands.lean`, `Shaping.lean`, `Ltpf.lean`, `Mdct.lean`)

* **C22, C42.** Ring buffer of the post-filter: accesses in any arithmetic, equation in exact arithmetic (`Props/Ltpf.lean`). The frames where the
  filter stops, or changes of pitch, are related to the previous frame by what the state keeps of it: its filter and its last samples
  (`Props/LtpfFade.lean`).
* **C74.** The sums of the magnitudes of the coefficients, over all the gains and fractions of the tables, are under 0.4014 and 0.354
  (`coeffs_mag`); the gains of a fading are complementary. The bound 4.2 is an invariant of the history (`ltpf_frame_bound`), with roundings to
  24 bits at each operation.
* **C75.** The literals are compared with powers of rational approximations of `exp(2 pi i / n)`, of the tenth powers or of the exponential, whose distance
  to the real functions is proved (`Props/Constants.lean`). The rows of `h_*_q15`, of `h4` and of `h4_q15` are gathered in one prototype each; the sum of
  the code is shown equal to the sum over the whole buffer weighted by the prototype at the distance of the samples. The prototypes themselves are data.
* **C76.** Induction on the searches `argmax`: the result is the first position of the maximum; invariant of the loop on the fractions: the best of the
  fractions of lower magnitude (`Props/Pitch.lean`). The value interpolated at a fraction is given a meaning by `C75_correlation`.
  Activation: the three last frames are followed through the state.
* **C77.** Invariant `Streamed` over the frames: the memories are the tails of the streams (`Props/PitchStream.lean`). The weighted sum of `C75_resample` only
  depends on the distance in time, and a frame lasts a whole number of samples at 12.8 kHz, so the sum over the buffer of a frame is the sum over
  the whole input. The encoder is followed through `encRun`.
* **C78.** `lc3_encode` then `lc3_decode`, on the spectrum. The lemmas on the quantiser, the residual bits, the lattice filters and the shaping are stated
  over any ordered field (`Arith.ofField`, of which `Arith.exact` and `Arith.real` are instances, `Lemmas/OrdField.lean`). The dequantised frame is the
  spectrum in quantisation steps plus a bounded error, the noise filling included; the synthesis is linear, and undoes the analysis (`Props/Fidelity.lean`).
  The hypothesis `Exp2Ok` is that `exp2(-v)` is the inverse of `exp2(v)`; it holds of the real power of two. The bound includes the relative
  difference (`2e-7`) between the gain applied by the encoder and the one of the decoder, whose tables are separate literals.
* **C79.** `estimate_gain`, `adjust_gain`, `lc3_spec_analyze`. The consumption is specified by a sum over the blocks having a block at or after them above the
  gain (`estimatedBits`), which decreases with the gain; hence the dichotomy, whose scan restarts where the previous one stopped, finds the least gain
  (`gainSearch_least`). The gains of the tables increase by more than 8 % by index, hence the second dichotomy does too (`Props/GainSearch.lean`).
* **C80.** `compute_nbits`, `quantize`, `lc3_spec_analyze`. The price of a prefix is the cost of the operations of the writer, from above and from below
  (`Lemmas/RateExact.lean`), and increases with the prefix: the loop, which stops at the first prefix above the limit, retains the longest one ended
  by a significant pair. The signs of the values of 1 (`hiddenCount`) are priced twice by the code in LSB mode, hence their tolerance. A
  budget of zero means no limit: `C80_zero` gives a valid side information for which it is so, and the frame refused.
* **C81.** `add_pulse` and the start of `quantize` of SNS. The correlation and the energy carried from one pulse to the next are those of the configuration
  (`addPulse_best`, by induction on the pulses, and `dropCorr_eq` for the truncation of the shape 1); the comparison by cross products is that of the
  quotients since the energies are positive. `C81_distance` gives the sense of the quotient. Over any ordered field; not for the rounded arithmetic.
* **C82.** `compute_scale_factors`, without attack (with an attack: `C55_attack`). `C82_formula` gives each scale factor as a closed formula of the energy
  of the bands, over the real numbers and for any function `log2` (its accuracy: C66). The formula is written on indices of cells, without the lists
  and the running state of the model; the thresholds of the strength are in kbps.
* **C83.** `interpolate`, `dot`, and the correlation of `lc3_ltpf_analyse`. `C83_correlation_partial` gives it as exact sums on indices of the signal at
  12.8 kHz, with the taps of the interpolation, when this signal is under 32661 in magnitude. The property is false at full scale: the taps of the fraction 0
  sum to 32875, above one in Q15, and the result is stored in 16 bits without saturation (`C83_refuted`, from the state of the setup).
* **C84.** From samples to samples. `C84_overlap`: two successive `lc3_mdct_inverse` in binary32, of any spectra, give the signal delayed by `2 nd - ns` within
  the distance of these spectra to the MDCT of the signal (cancellation of the aliasing by the windows of C50, `Lemmas/Tdac.lean`), with the generic Fourier
  transform or the NEON one. `C84_round_trip`: the same from the samples, analysis and synthesis. `C84_samples` (ordered field) and `C84_real` (reals): two
  calls to `lc3_encode` and `lc3_decode` after any past of both; the error is bounded by the errors `D0`, `D1` of the coefficients (`FrameError`, from C78), the
  lines above the coded bandwidth, and the accuracy of the tables. Limits: the post-filter is off in both frames, the rate control drops no coefficient
  (`FrameClean`), the whole codec is in exact arithmetic (only the transforms are in binary32); the constants are worst cases. `delay_link` relates the delay
  to `lc3_delay_samples`.
* **C85.** `RoundF` (Lemmas/RoundF): half a unit of the 24th bit or of `2^-149` up to `2^126`, and *anything* above, so a bound on a result shows that no
  operation it depends on overflowed. Bounds by stage: spectrum `3.83e11` (SpecBound: gains, escapes, noise, residual), TNS `41 * 11^8` (TnsBound, lattice of
  at most 8 coefficients under 1), SNS `185400` (SnsBound), inverse transform (InvBound, from the accuracy of C82), concealment and postfilter (DecMag,
  LtpfBoundF); `DecMag` is the invariant over the calls. `C85_platform`: `fl` (binary32 with subnormal numbers) and `lc3_exp2f` of C66 meet the hypotheses.
  The bound is a worst case: `2^105` is not reached; C32 shows what the conversion to integers makes of samples over `2^31`.
* **C86.** `lc3_decode` with the conversions of the output, on binary32. `C86_refuted` runs, in the kernel, the whole decoder on a frame of 20 bytes: the
  frame is accepted and the sample 17 is -3719008000, converted to `int` by `store_s16`. The square root is the one of the model, proved correct
  (`sqrt24_near`). `C86_output_partial` is what holds for every sequence of calls, from C85, C32 and C33.
* **C87.** `lc3_decode` on the losses, in any arithmetic that meets the bounds of single precision. An invariant, indexed by the number of losses in a row, is
  carried along any sequence of calls (`DecFade`: counter, attenuation, post-filter not active, overlap bounded by the coefficients kept);
  `C87_fade` reads the samples from it, `C87_silent` the integer output, with the bound of C85 on what any frame can leave.
* **C88.** `lc3_decode` on a frame accepted and any number of losses, in any arithmetic. The state during the burst is described exactly (`Concealing`), by induction
  on the losses; `C88_replay` gives the samples by the transform of C49. `long_loss` is a concrete case, with 555 losses.
* **C89.** The same with the conversion to float. `long_loss` uses C88 to jump over the losses: only the attenuation, the generator and the last two
  transforms are run in the kernel, on binary32. `C89_float_partial` follows from C87 and C33.
* **C90.** `lc3_encode` and `lc3_decode` on null samples, in an arithmetic rounded as binary32. Zeroes go through the transform, the shaping and the filters (`Lemmas/Zero`,
  `Lemmas/ZeroFrame`); the recursion of the temporal noise shaping keeps a gain close to 1, so no filter; the search of the gain ends at the lowest one,
  which takes a bound of the table of gains at each step (`Lemmas/ZeroGain`); the noise level is the lowest, so that the decoder adds no noise (C26). That the analysis of the
  pitch finds none is C91.
* **C91.** The same, for streams: induction on the calls, with the states of the encoder whose buffers are null and those of the decoder whose memory and last
  spectrum are null. The pitch analysis of a null history is followed through the high-pass filter, the resampler and the correlations (`Lemmas/ZeroLtpf`); the rate
  control is shown to be defined, its gain index staying in the range of `int` (`Lemmas/ZeroDefined`); the concealment replays null coefficients. The
  mathematical functions of the gain are constrained by `GainSane` only (values at 0, rounding to nearest, logarithm of `1e-10f` between two bounds), which `floatMath` meets.
* **C28.** Lattice filters: induction over the samples, in a field.
* **C70.** Levinson-Durbin: the normal equations by induction on the order, from the symmetry of the correlations; the energy of any other predictor is the
  sum of two energies; the step-down recursion undoes the step-up one; the states of the lattice are the backward errors (`Lemmas/Levinson.lean`,
  `Lemmas/Lattice.lean`). Stability is false: `C70_refuted` is a spectrum of three bells for which the exact computation gives a negative error.
* **C29.** Integers, invariant over the frames.
* **C30.** Full period by the orbit of the affine map, modulo powers of two.
* **C31, C45.** Bursts: induction on their length; the counter overflows after `2^31 - 1` losses.
* **C37, C49, C50.** The FFT is the DFT by induction over the passes, the MDCT through the DCT-IV, reconstruction by time domain aliasing
  cancellation. Exact twiddles, the windows of the code. Each entry of the twiddle
  tables is within 1.2e-8 of its root of unity: the kernel walks the circle in 64 bits fixed point, the error of the walk is bounded (`Lemmas/Twiddle.lean`).
* **C39.** The resampler; the sum of the magnitudes of the filters is checked on the tables and lifted to any signal; the high-pass filter overflows. For a
  limited level, an invariant of the filter: the outputs to come without input are bounded by what remains of the sum of its impulse response, for
  the first 600 outputs, the rounding included (`Lemmas/HpLevel.lean`).
* **C65.** The vectors are lists of lanes; the sums of a variant are the exact sums as long as no lane wraps, the tables of the variants are
  compared with those of `src/ltpf.c`; lifted to the analysis of a frame, then of any sequence of frames.
* **C66.** `F32.round` is the rounding of a rational number to a pattern of binary32, subnormal numbers included (`Lemmas/F32Round.lean`).
  The error is the sum of the roundings, of the error of the polynomial (a polynomial in the real numbers compared with the series of the function,
  positive on each interval by its Taylor coefficients) and of the table. The step of the reduction of the operand is exact.
* **C67.** The vectors are four or two lanes over any arithmetic, with fused operations as parameters. Each pass is shown to put at each position a
  polynomial of its inputs; in the real numbers these are the ones of the generic passes, so the buffers are equal after each pass (`Lemmas/NeonReal.lean`).
  The pass of 5 points takes the transforms two by two and relies on even lengths: `C67_odd_length`. Rounding differences: C73.
* **C68.** The operations have a relative error of 2^-24 and an absolute one of 2^-150 (`Approx`, met by `fl`, the rounding of binary32). The error of a
  butterfly is a fraction of the sum of the magnitudes of its inputs; by induction over the passes, each partial transform is the exact one of its inputs
  within a fraction of the sum of their magnitudes (`StageErr`), and the fractions add up: 1.1e-6 for the pass of 5 points, 0.9e-6 for those of 3 points,
  0.56e-6 for those of 2 points, 1.2e-6 for the rotations and the window. The errors of the tables are those of C37. Multiplications and additions are not
  contracted: the flag `-ffast-math` of `src/makefile.mk`, which allows that and more, is out of this result.
* **C44.** Lines of the noise: same predicate on both sides.
* **C51-C55.** Energy, bandwidth, noise shaping: structure in any arithmetic, values in exact or real arithmetic.

### Instances (`Model/Decoder.lean`, `Encoder.lean`)

* **C08, C09, C56.** Invariant of the decoder by induction over any sequence of calls.
* **C57, C58, C60.** Two runs compared by a relation kept by each call.
* **C59.** Exact condition under which a call of the encoder is undefined; for samples of limited level, the quantisation only.

### Input, output, bindings (`Model/Pcm.lean`, `Files.lean`, `Cpp.lean`, `Tools.lean`, `Python.lean`)

* **C92.** The four `load` and `store` functions on the samples of a same amplitude (`PcmFormat.Holds`, from the documentation of the formats), then whole runs of the
  encoder, through C60, and a call of the decoder. `C92_refuted`: the sample of 16 bits kept for the pitch analysis is rounded down from 24 bits and toward zero from
  `float`. The frames of the counter-example are computed in exact arithmetic with the square root of binary32, and its pitch in binary32 (`square_pitch`).
* **C93.** Each stage of the encoder on null samples, from the state of the setup: it remains the same (`ltpfAnalyse_fresh`, with the lag kept by `detect_pitch`,
  `attdetRun_null`, and C91 for the rest), but for the buffer of the samples, that each call overwrites (`encRun_xs`).
* **C94.** A simulation: two decoders with the same history at different positions (`Dec.Rotated`) give the same samples and remain so (`rotated_step`); the
  post-filter on a circular memory depends on the samples behind the frame only (`ltpfSynthesize_rot`, Lemmas/Rotate.lean). Each common frame without post-filter
  extends the common history (`recent_step`), until it is complete (`frames_history`).
* **C95.** After frames of silence the memory is null and the concealment is reset (`Dec.Blank`, `blank_step`, `blank_lost`): a decoder just setup, at another position
  (`Dec.Blank.same`), to which the simulation of C94 applies.
* **C96.** Without a frame, the size given has no effect on the samples of the post-filter, nor on what it uses next (`ltpfSynthesize_size`); the bytes refused
  only reach the samples of the frame to come, which the concealment overwrites. The simulation of C94 is extended to two calls that differ by the way the
  frame is missing (`missing_step`, `missing_run`). The coefficients stored by an inactive post-filter do depend on the size: the states are
  similar (`LtpfS.Sim`), not equal.
* **C97.** `Forgets`: the frames after a pause of `N` frames, or more, are those of a new encoder. Refuted with the pitch analysis for all `N` at once: the state
  reached after half a frame at -1 and 4 null frames is a fixed point of the null frames (`pause_settles`), and makes a difference (`pause_frames`); both are
  computed by the kernel on one configuration. Proved with the pitch analysis disabled: the samples kept are null after one frame (`Blank`), the state of the
  quantization after two, and the memory of the detector of attacks is divided by 64 in each frame where it runs (`attdet_quiet`, `Blank2`); it keeps
  its state in the frames of other sizes, hence the condition on the sizes. What remains (the state of the pitch analysis, the working buffer) has no effect
  (`encRun_ltpf`, `encRun_xs`).
* **C98.** By induction on the calls: the configuration, on which the limits depend, is kept by all the calls (`encode_cfg`, `decode_cfg`), and the calls accepted
  never return -1. The equality is between the outcomes of the two runs, undefined ones included.
* **C99.** The states of the two encoders are equal but for the flag and the state of the pitch analysis, which `encAnalyze` does not use otherwise
  (`encAnalyze_nopitch`); the data of the post-filter, not set in one case, are not written without pitch (`encodeFrame_nopitch`).
* **C100.** The reference (`dryRun`) is the decoder with the call to the post-filter removed from the synthesis. The state of the filter stays inactive along
  the run (`dry_step`), and an inactive filter over an inactive state leaves the samples as they are (`synthLtpf_inactive`).
  `C100_after` starts from any stream: a call that does not activate the filter leaves its state inactive (`flag_step`), whatever it was before.
* **C101.** The same reference (`dryRun`), without condition on the frames (`hr_step`); for the pitch, `hr_same` shows that the call depends on the frame only
  by the bandwidth, TNS, SNS and the spectrum. Note that the encoder analyses and sends the pitch in this mode too (src/lc3.c:305-306): these bits are lost.
* **C102.** From `C62_frame` (no pitch after `lc3_encoder_disable_ltpf`), `C62_accepted_partial` (the side information is read back) and `C100_dry`. Partial: the
  frames that do not satisfy `Fits` are not covered.
* **C32, C33.** Bit patterns of binary32; the exceptions are theorems.
* **C34, C35.** Files as lists of bytes, any count of blocks and chunks.
* **C36.** C++ classes as lists of instances, compared with one instance for each channel.
* **C63.** The tools with an arbitrary codec of one channel; whole files of any length.
* **C71.** `Model/Args.lean`, `Props/Args.lean`: the loop of `parse_args` on lists of strings, a read after the null byte being undefined. A command line is
  described by what the user asks (`ElcItem`), independently of the loop; the undefined ones are characterised by an equivalence.
* **C72.** `Props/CppReset.lean`: the setup in the memory of each channel, after any sequence of calls.
* **C64.** The Python methods with an arbitrary codec of one channel.

## 5. Findings

Behaviours of the code at this commit that contradict the property or the documentation; the theorem is the witness.

| Finding | Theorem |
|---|---|
| `lc3_frame_block_bytes` with `INT_MAX`: 1680 bytes instead of the maximum, at 2.5 ms for 5 to 8 channels | `C41_int_max_not_max` |
| Memory types of 96 kHz are too small for 48 kHz in some durations | `C07_not_monotone_above_48k` |
| `lc3_get_bits` of 32 bits, documented, is an undefined shift | `C10_get_32_undefined` |
| A received frame can make a shift by 32 | `C14_shift_by_32`, `C14_hostile_frame` |
| A lost frame with a huge `nbytes` overflows | `C22_size_overflow` |
| High-resolution residual: encoder and decoder disagree on `0.5 - 2^-25` | `C24_float_desync` |
| A frame with no coded coefficient and a TNS filter is decoded as noise | `C26_not_silent` |
| Two samples next to 1/2 are not rounded to the nearest; large samples convert out of range | `C32_half_exception`, `C32_undefined` |
| Float output of tiny samples is at full scale | `C33_refuted`, `C33_wrap` |
| A frame of ordinary level, then 555 losses in a row: the concealed frame is written at full scale in float instead of silence | `C89_refuted`, `long_loss` |
| The same 24-bit audio does not give the same frames in float as in 24 bits: the pitch analysis rounds negative samples down from 24 bits, toward zero from float | `C92_refuted`, `square_pitch` |
| `lc3bin_read_header`: signed shift; negative counts of samples are written | `C34_read_undefined`, `C34_negative_undefined` |
| `wave_read_header`: seeks backward after a format chunk of 18 bytes; no padding of odd chunks | `C35_format_size_refuted`, `C35_padding_refuted` |
| `lc3::Decoder::Decode(int32_t *)` writes the packed format; a lost block with its size; negative `sr_pcm_hz` | `C36_decode_int32_refuted`, `C36_decode_int32_overlap`, `C36_lost_undefined`, `C36_new_negative_undefined` |
| 50 Hz high-pass filter of the pitch analysis overflows | `C39_overflow` |
| Neon: a lane of `neon_dot` and `neon_correlate` wraps on -32768 | `C65_neon_wraps` |
| `lc3_exp2f` makes an undefined shift for each operand | `C66_exp2_undefined` |
| `lc3_log2f` is wrong on subnormal numbers; its error is 1.64e-4 at 1, over the 1e-4 documented | `C66_log2_subnormal`, `C66_log2_one` |
| TNS: the rounded lag window is not positive definite, a predictable spectrum gives a negative prediction error and no filter | `C70_refuted`, `C70_refuted_f32` |
| The counter of losses overflows | `C45_counter_overflow` |
| A frame accepted by the rate control overflows, and is refused by the decoder | `C46_refuted`, `C46_refuted_from_analysis` |
| TNS data leaving exactly no bit to the spectrum disable the limit of the rate control; the frame is refused by the decoder | `C80_zero` |
| The interpolation of the pitch analysis wraps in 16 bits at full scale: 32789 becomes -32747 | `C83_refuted` |
| A received frame of 20 bytes makes `lc3_decode` convert to `int` a `float` out of range, in the integer formats (undefined behaviour on data of the network) | `C86_refuted` |
| Gain estimation overflows in high-resolution mode | `C48_refuted`, `C48_refuted_48k`, `C48_slope` |
| A spectrum over the highest gain is quantised out of range, the frame is refused | `C61_level_refuted` |
| `elc3 -` and `dlc3 -` read beyond the end of the argument; a number of 10 digits overflows `atoi` | `C71_elc3_refuted` |
| The high-pass filter of the pitch analysis keeps an offset for ever: the frames after a pause of digital silence, of any length, depend on what was encoded before | `C97_refuted`, `pause_settles` |
| The tools overflow an `int` after 2147.48 seconds of audio | `C63_encode_undefined` |
| `dlc3` writes more samples than announced for short files | `C63_decode_short` |
| `dlc3` writes indeterminate memory when a block is refused | `C63_refused_indeterminate` |
| Python: short float input is not padded; full scale stereo is refused; wrong size of blocks with older libraries | `C64_short_refuted`, `C64_level_refuted`, `C64_frame_bytes_refuted` |

Observed, without a theorem: `elc3` encodes the chunks that follow the data chunk when the data ends inside a frame; `dlc3` gives silence for
missing blocks, without concealment, and accepts `-b 0`; the C++ block of 39 bytes for 2 channels encodes the first channel and refuses the second;
`Encoder.__del__` in Python builds a generator that is never run, the memory is never released; `lpc_weighting` reads values not initialised, without
effect; the decoder accepts high-resolution frames under the minimum size of this mode.

## 6. Wrong programs

`tools/mutate.py` edits one definition of the model in a copy out of `/verif`, rebuilds, and reports the theorems that no longer prove.
`seeded/LOG.jsonl` holds one line for each attempt, with the theorems tightened when one of them survived.
