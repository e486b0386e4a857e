{"id": "C01", "title": "Frame length is exact, or -1", "statement": "lc3_frame_samples / lc3_hr_frame_samples return exactly (frame duration in us) * (sample rate in Hz) / 1 000 000, with no remainder, for every supported combination, and -1 for every other pair of integers. 7.5 ms is supported only without high-resolution mode; 48 and 96 kHz are the only rates in high-resolution mode.", "quantifier": "every pair of 32-bit integers (dt_us, sr_hz), both values of hrmode", "why_tests_cant": "the parameters range over 2^65 triples; a test can only sample rejected values", "anchors": ["src/lc3.c: resolve_dt, resolve_srate, lc3_hr_frame_samples, lc3_frame_samples", "src/tables.h: lc3_ns", "src/tables.c: lc3_ns_2m5"]}
{"id": "C02", "title": "Frame-size request is always answered within limits", "statement": "lc3_hr_frame_block_bytes returns -1 exactly when the configuration is unsupported, the channel count is outside 1..8 or the bitrate is negative; otherwise the answer lies between nchannels times the smallest and nchannels times the largest legal frame size, is monotone in the bitrate, and is the exact floor of bitrate*duration/8 whenever that floor lies within these limits (bitrate at most 8 times the high-resolution maximum). No intermediate computation overflows a 32-bit int.", "quantifier": "every hrmode, dt_us, sr_hz, nchannels and bitrate in the range of int", "why_tests_cant": "overflow and monotonicity range over all bitrates and configurations", "anchors": ["src/lc3.c: lc3_hr_frame_block_bytes, lc3_hr_frame_bytes, lc3_frame_bytes, lc3_frame_block_bytes", "src/tables.h: lc3_min_frame_bytes, lc3_max_frame_bytes"]}
{"id": "C03", "title": "Bitrate and frame size are inverse to each other", "statement": "For every supported configuration and every legal frame size n, asking for the frame size of lc3_hr_resolve_bitrate(n) gives back n, and that bitrate is the smallest one that does (above the minimum size). lc3_hr_resolve_bitrate is monotone in n and saturates at INT_MAX, without overflow.", "quantifier": "every supported (hrmode, dt_us, sr_hz) and every int nbytes", "why_tests_cant": "rounding directions of a floor and a ceiling must cancel for each size", "anchors": ["src/lc3.c: lc3_hr_resolve_bitrate, lc3_hr_frame_bytes"]}
{"id": "C04", "title": "Every channel of a frame block gets a legal frame", "statement": "When a block of the size returned by lc3_hr_frame_block_bytes for nchannels channels is split as the tools and the C++ wrapper do (size/nchannels plus one byte for the first size%nchannels channels), the parts sum to the block, each part is a legal frame size for lc3_encode and lc3_decode, the sub-frames tile the block without overlap, and encoder and decoder compute the same split.", "quantifier": "every supported configuration, 1..8 channels and every bitrate", "why_tests_cant": "the remainder distribution must be right for every bitrate and channel count", "anchors": ["tools/elc3.c: main loop", "tools/dlc3.c: main loop", "include/lc3_cpp.h: EncodeImpl, DecodeImpl", "src/lc3.c: lc3_hr_frame_block_bytes"]}
{"id": "C05", "title": "Announced delay matches the buffers", "statement": "lc3_hr_delay_samples equals twice the look-ahead memory the codec keeps minus a frame: 2.5 ms worth of samples for 2.5, 5 and 10 ms frames, and 4 ms for 7.5 ms frames, and -1 exactly on unsupported parameters. The preprocessor macros used to size static memory agree with the functions used at run time.", "quantifier": "every pair of integers (dt_us, sr_hz), both values of hrmode", "why_tests_cant": "two independent computations (macro and table) must agree for each configuration and every invalid one must be rejected", "anchors": ["src/lc3.c: lc3_hr_delay_samples", "include/lc3_private.h: LC3_NS, LC3_ND, LC3_NH, LC3_NT", "src/tables.h: lc3_nd, lc3_nh, lc3_nt"]}
{"id": "C06", "title": "Setup accepts exactly the documented parameters and stays inside the caller's memory", "statement": "lc3_hr_setup_encoder / lc3_hr_setup_decoder return non-NULL exactly for a non-NULL memory, a supported duration, supported rates in the same mode, and a coded rate not greater than the PCM rate; then every buffer the instance uses (time history, input samples, MDCT delay, spectrum) lies within the size announced by lc3_hr_encoder_size / lc3_hr_decoder_size for the PCM rate, and the buffers do not overlap unless declared in-place.", "quantifier": "every (hrmode, dt_us, sr_hz, sr_pcm_hz) in int", "why_tests_cant": "layout arithmetic must hold for all configurations, including invalid ones", "anchors": ["src/lc3.c: lc3_hr_setup_encoder, lc3_hr_setup_decoder, lc3_hr_encoder_size, lc3_hr_decoder_size", "include/lc3_private.h: LC3_ENCODER_BUFFER_COUNT, LC3_DECODER_BUFFER_COUNT"]}
{"id": "C07", "title": "Statically declared memory is large enough", "statement": "Memory declared with LC3_ENCODER_MEM_T(dt, sr) or LC3_DECODER_MEM_T(dt, sr), and the LC3_*_MEM_48K_T types declared for the largest configuration, is at least the size announced by lc3_encoder_size / lc3_decoder_size for every configuration with a duration and PCM rate not above it.", "quantifier": "every pair of supported configurations ordered by duration and rate", "why_tests_cant": "monotonicity of the layout over configurations is a universally quantified arithmetic fact", "anchors": ["include/lc3_private.h: LC3_ENCODER_MEM_T, LC3_DECODER_MEM_T", "include/lc3.h: lc3_encoder_mem_48k_t, lc3_decoder_mem_48k_t"]}
{"id": "C08", "title": "The decoder's output window never leaves the history ring", "statement": "After any sequence of lc3_decode calls (good frames, corrupt frames, lost frames, rejected calls, in any order), the window where the next frame is decoded lies entirely inside the history area, is aligned on a frame, and visits the slots cyclically; a rejected call does not move it.", "quantifier": "every supported configuration and every finite history of calls", "why_tests_cant": "unbounded histories", "anchors": ["src/lc3.c: complete, lc3_decode, lc3_hr_setup_decoder"]}
{"id": "C09", "title": "Rejected calls have no effect, accepted calls report loss exactly", "statement": "lc3_encode returns -1 exactly when the encoder is NULL or the size is outside the configured limits, and lc3_decode returns -1 exactly when the decoder is NULL or a frame is given with a size outside 20..max; in those cases neither the instance nor the output is touched. Otherwise lc3_encode returns 0, and lc3_decode returns 1 exactly when the frame is missing or its content is refused, 0 otherwise, and always writes exactly one frame of samples.", "quantifier": "every instance state, size, frame content and history", "why_tests_cant": "quantifies over every state and every byte string", "anchors": ["src/lc3.c: lc3_encode, lc3_decode"]}
{"id": "C10", "title": "Plain bits written are the plain bits read", "statement": "Every sequence of bit fields of 1 to 31 bits written from the end of a frame is read back identically, field by field, as long as the bits-left indicator of the writer is non-negative when the frame is closed, whatever symbols were arithmetic-coded in the same frame; a frame of L bytes without symbols holds exactly 8L-2 bits. (The documented read width of 32 is an undefined shift.)", "quantifier": "every frame length, every sequence of (value, width) fields interleaved with arithmetic-coded symbols", "why_tests_cant": "unbounded operation sequences; the two streams share the last byte", "anchors": ["src/bits.h: lc3_put_bits, lc3_get_bits", "src/bits.c: lc3_put_bits_generic, lc3_get_bits_generic, accu_flush, accu_load, lc3_flush_bits"]}
{"id": "C11", "title": "Arithmetic-coded symbols written are the symbols read", "statement": "Every sequence of symbols written with lc3_put_symbol, with any mix of probability models assigning them a non-zero share, interleaved with plain bits, is read back identically by lc3_get_symbol after lc3_flush_bits, as long as the bits-left indicator is non-negative when the frame is closed. Carry propagation through any number of 0xff bytes and the termination byte shared with the plain bits are included, and lc3_check_bits then accepts the frame.", "quantifier": "every frame length, every sequence of symbols and plain bit fields, every well-formed probability model", "why_tests_cant": "carry propagation depends on unbounded histories; a random test reaches long carry chains with negligible probability", "anchors": ["src/bits.h: lc3_put_symbol, lc3_get_symbol", "src/bits.c: ac_shift, ac_terminate, lc3_ac_write_renorm, lc3_ac_read_renorm, ac_put, ac_get"]}
{"id": "C12", "title": "The writer never writes outside the frame", "statement": "Whatever is written, in whatever amount (including far more than the frame can hold), no byte outside the caller's buffer is read or written, the renormalisation loop terminates, and the frame keeps its length. Plain bits never overwrite bytes already emitted by the arithmetic coder.", "quantifier": "every frame length, every sequence of writes with widths 1..32 and symbols of non-zero share, then a flush", "why_tests_cant": "overflow paths depend on the complete history of writes", "anchors": ["src/bits.c: accu_flush, ac_put, ac_shift, ac_terminate, lc3_flush_bits, lc3_put_bits_generic"]}
{"id": "C13", "title": "The reader never reads outside the frame", "statement": "Whatever the content of the frame and however much is read, no byte outside the buffer is read, the renormalisation loop terminates, and the value of each field lies within its width.", "quantifier": "every frame length, every content, every sequence of reads of 1..31 bits and of symbols in well-formed models", "why_tests_cant": "hostile inputs of unbounded length", "anchors": ["src/bits.c: accu_load, ac_get, lc3_get_bits_generic, lc3_ac_read_renorm, lc3_setup_bits", "src/bits.h: lc3_get_bits, lc3_get_symbol"]}
{"id": "C14", "title": "Reading a frame has no undefined behaviour", "statement": "Reading any sequence of fields of at most 25 bits and symbols from any frame involves no C undefined behaviour (out-of-range shift included). [Found FALSE at this commit: reading past the start of the frame shifts a 32-bit word by 32.]", "quantifier": "every frame length, every content, every sequence of reads", "why_tests_cant": "depends on the exact number of bits consumed at the moment the buffer runs out", "anchors": ["src/bits.c: accu_load"]}
{"id": "C15", "title": "Encoder and decoder agree on the bits left", "statement": "At every point of a frame where at least 15 plain bits have been written, the bits-left indicator seen by the reader equals the one seen by the writer at the same point; it decreases by exactly n on an n-bit field and never increases on a symbol; a decoder that reads what was written therefore passes the overflow check.", "quantifier": "every frame length and every sequence of writes that fits", "why_tests_cant": "both counters are computed from different internal quantities (carry cache vs. look-ahead)", "anchors": ["src/bits.c: get_bits_left, ac_get_pending_bits, lc3_get_bits_left, lc3_check_bits"]}
{"id": "C16", "title": "Bandwidth field", "statement": "The bandwidth written in a frame is the one read back for every rate and every bandwidth up to the rate; any frame whose bandwidth field exceeds the rate is refused.", "quantifier": "every sample rate, bandwidth and frame content", "why_tests_cant": "must hold in every bit position and frame", "anchors": ["src/bwdet.c: lc3_bwdet_put_bw, lc3_bwdet_get_bw"]}
{"id": "C17", "title": "Spectrum side information", "statement": "The number of coded coefficients (a multiple of two, at least two), the gain index and the LSB-mode flag written are the ones read back, for every frame duration and rate; any frame announcing more coefficients than the rate has is refused; the accepted values are in range.", "quantifier": "every duration, rate, side data and frame content", "why_tests_cant": "must hold for all values and rejects all others", "anchors": ["src/spec.c: lc3_spec_put_side, lc3_spec_get_side"]}
{"id": "C18", "title": "TNS parameters", "statement": "The TNS filter orders and quantised reflection coefficients written are the ones read back, for each duration, bandwidth and rate class; from any frame content, the decoder obtains at most 2 filters of order at most 8 with coefficients in -8..8.", "quantifier": "every duration, bandwidth, frame size, TNS data, and every frame content", "why_tests_cant": "an out-of-range order would be a memory overwrite; quantifies over all frame contents", "anchors": ["src/tns.c: lc3_tns_put_data, lc3_tns_get_data, resolve_lpc_weighting"]}
{"id": "C19", "title": "SNS pulse-vector indexing is a bijection", "statement": "Converting a pulse vector of n positions (n at most 16) with K pulses (1 at most K at most 10) to its transmitted index and sign and back gives the same vector; every index below the published size decodes to exactly n values whose magnitudes sum to K, distinct indices decode to distinct vectors, and the table is never indexed out of range.", "quantifier": "every pulse vector and every index", "why_tests_cant": "15 million vectors per shape and unbounded n in the combinatorial argument", "anchors": ["src/sns.c: enum_mvpq, deenum_mvpq, enumerate, deenumerate", "src/tables.c: lc3_sns_mpvq_offsets"]}
{"id": "C20", "title": "SNS field", "statement": "The shape, gain, codebook indices and pulse vectors written are the ones read back; from any frame content the decoder either refuses or obtains codebook indices below 32, a gain index existing for its shape and vector indices below their published sizes; no value of the transmitted multiplexed field is decoded as valid without being produced by some encoder input.", "quantifier": "every SNS data and frame content", "why_tests_cant": "multiplexed mixed-radix field: all 2^26 values matter", "anchors": ["src/sns.c: lc3_sns_put_data, lc3_sns_get_data"]}
{"id": "C21", "title": "LTPF pitch index", "statement": "The 9-bit pitch index written for a lag determined by the encoder with its quarter-, half- or full-sample resolution is decoded to the same lag; every 9-bit index decodes to a lag within the supported range, the mapping is injective and monotone.", "quantifier": "every lag the pitch search can return and every 9-bit index", "why_tests_cant": "the three resolution segments must tile exactly", "anchors": ["src/ltpf.c: lc3_ltpf_analyse, lc3_ltpf_synthesize, lc3_ltpf_put_data, lc3_ltpf_get_data"]}
{"id": "C22", "title": "LTPF filter stays inside the history", "statement": "For any pitch received, any position of the output window and any rate, each sample read and written by the postfilter lies within the decoder's history ring and the postfilter's own memory.", "quantifier": "every rate, duration, 9-bit pitch index and history of calls", "why_tests_cant": "pointer wrap-around arithmetic over all lags and ring positions", "anchors": ["src/ltpf.c: synthesize_template, lc3_ltpf_synthesize"]}
{"id": "C23", "title": "Quantised spectrum round trip", "statement": "In normal mode the integer spectrum written in the frame (magnitudes and signs of all coded coefficients) is exactly the one the decoder reconstructs, for any rate class and context; escape sequences up to the maximum are supported. In LSB mode it is reconstructed with the lowest bit of large pairs withheld, and the following LSB stage restores the withheld bits one by one as long as bits are left, so that with enough bits the spectrum is exact.", "quantifier": "every integer spectrum of any even length, rate class, bandwidth half, coding history", "why_tests_cant": "the adaptive context depends on the entire history", "anchors": ["src/spec.c: put_quantized, get_quantized, put_lsb, get_lsb"]}
{"id": "C24", "title": "Residual refinement", "statement": "The refinement bits consumed by the decoder are exactly those written, and each moves the reconstructed coefficient towards the original: the reconstruction error of a refined coefficient is at most 5/16 (3/16 below the grid point) of a quantiser step in normal mode and at most halves at each pass in high-resolution mode. Coefficients quantised to zero are left at zero.", "quantifier": "every real-valued spectrum and every bit budget", "why_tests_cant": "ranges over reals and all budgets", "anchors": ["src/spec.c: put_residual, get_residual, lc3_spec_encode, lc3_spec_decode"]}
{"id": "C25", "title": "Complete frame round trip", "statement": "For every configuration and every frame content the encoder can decide on (side information and quantised spectrum), if the frame fits then parsing the emitted bytes yields the same bandwidth, gain, TNS, SNS, LTPF parameters, and the same quantised spectrum, and the frame is accepted.", "quantifier": "every configuration, frame size, side data and integer spectrum that fits in the frame", "why_tests_cant": "composition over unbounded data", "anchors": ["src/lc3.c: encode, decode"]}
{"id": "C26", "title": "A frame with an all-zero spectrum is read back as silent", "statement": "A frame whose coded spectrum is entirely zero is decoded with an all-zero spectrum. [Found FALSE in general at this commit: the announced count is at least 2 while no pair is written, so the decoder reads one pair more than the encoder wrote; with TNS data in the frame this pair can be non-zero.]", "quantifier": "every frame with no coded coefficient", "why_tests_cant": "requires reasoning about bytes never written by the coder", "anchors": ["src/spec.c: lc3_spec_put_side, put_quantized, get_quantized", "src/bits.c: ac_terminate"]}
{"id": "C27", "title": "Any received frame is parsed safely", "statement": "For any configuration and any frame content, parsing terminates, never indexes a table or the spectrum out of range, and either refuses the frame or yields side information and a spectrum within their specified ranges.", "quantifier": "every configuration and every byte string of legal length", "why_tests_cant": "hostile input", "anchors": ["src/lc3.c: decode", "src/spec.c: lc3_spec_decode, get_quantized, fill_noise", "src/tns.c: lc3_tns_get_data", "src/sns.c: lc3_sns_get_data"]}
{"id": "C28", "title": "TNS synthesis undoes TNS analysis", "statement": "Applying the decoder's TNS filter to the output of the encoder's TNS filter with the same parameters gives back the spectrum exactly (in exact arithmetic), for every duration, bandwidth, order and coefficient, and both leave the coefficients outside the filtered range untouched.", "quantifier": "every spectrum and reflection coefficients over a commutative ring, every configuration", "why_tests_cant": "algebraic identity over unbounded sequences", "anchors": ["src/tns.c: forward_filtering, inverse_filtering"]}
{"id": "C29", "title": "Attack detector arithmetic", "statement": "The attack detector never overflows its 32-bit integers and its memory stays in range, for any input and any history; it never triggers on bitrates or rates outside its specified region.", "quantifier": "every 16-bit signal and every number of frames", "why_tests_cant": "unbounded histories, worst-case amplitudes", "anchors": ["src/attdet.c: lc3_attdet_run"]}
{"id": "C30", "title": "Noise generators cannot get stuck", "statement": "The pseudo-random generators used for noise filling and for packet-loss concealment visit all their 65536 states before repeating, and their arithmetic never overflows an int.", "quantifier": "every seed and every number of steps", "why_tests_cant": "period is a statement about all iterates", "anchors": ["src/spec.c: fill_noise", "src/plc.c: lc3_plc_synthesize"]}
{"id": "C31", "title": "Packet-loss concealment schedule", "statement": "The concealment attenuation is 1 for a fresh loss, never increases during a burst, decreases strictly and geometrically after the grace frames, and any good frame re-arms it; its state is independent of the size passed with a missing frame.", "quantifier": "every sequence of good and lost frames", "why_tests_cant": "unbounded bursts", "anchors": ["src/plc.c: lc3_plc_reset, lc3_plc_suspend, lc3_plc_synthesize"]}
{"id": "C32", "title": "PCM conversion and interleaving", "statement": "Integer output is the nearest 16- or 24-bit value saturated to range; packed 24-bit samples hold the same value as unpacked ones and are re-read identically by the encoder; with stride s, channel c of an interleaved buffer touches exactly the samples congruent to c, so channels never overwrite each other.", "quantifier": "every sample value, stride, channel and frame length", "why_tests_cant": "all 2^24 values and all strides", "anchors": ["src/lc3.c: load_s16, load_s24, load_s24_3le, load_float, store_s16, store_s24, store_s24_3le, store_float"]}
{"id": "C33", "title": "Float output is the sample divided by 32768, clamped", "statement": "Float output equals the decoded sample scaled by 2^-15 and clamped to -1..1 for every finite sample. [Found FALSE at this commit: non-zero samples smaller than 2^-111 come out as full-scale -1 or +1 because the exponent field wraps.]", "quantifier": "every finite single-precision sample", "why_tests_cant": "bit-level wrap-around only for a corner of the exponent range", "anchors": ["src/fastmath.h: lc3_ldexpf", "src/lc3.c: store_float, load_float"]}
{"id": "C34", "title": "LC3 binary file header round trip", "statement": "The header written by lc3bin_write_header is read back by lc3bin_read_header with the same duration, rate, mode, channels and sample count for every configuration accepted by the encoder tool, and every frame block written is read back with the same size and content.", "quantifier": "every configuration, sample count and sequence of blocks", "why_tests_cant": "all field values incl. those that do not fit 16 bits", "anchors": ["tools/lc3bin.c: lc3bin_write_header, lc3bin_read_header, lc3bin_write_data, lc3bin_read_data"]}
{"id": "C35", "title": "WAVE header round trip", "statement": "A header written by wave_write_header is read back by wave_read_header with the same parameters; unknown chunks between format and data are skipped whatever their number and sizes; reading is defined on any file. [Found FALSE for a format chunk of 18 bytes, after which the reader seeks backwards, and for chunks of odd size, whose padding byte is not skipped.]", "quantifier": "every parameter set and every sequence of extra chunks", "why_tests_cant": "unbounded chunk sequences", "anchors": ["tools/wave.c: wave_read_header, wave_write_header"]}
{"id": "C36", "title": "C++ wrapper delivers each channel its own samples", "statement": "lc3::Encoder::Encode and lc3::Decoder::Decode give, on any sequence of calls, the frames, samples and states that one instance per channel would give, each with the channel's samples and disjoint parts of the block; the call fails if any channel fails; construction with unsupported parameters or failed allocations makes the calls fail without effect. [Found FALSE for the 32-bit decode overload, which selects the packed 3-byte format, for a lost block of several channels given with its size, and for a negative sr_pcm_hz.]", "quantifier": "every channel count, block size and per-channel result", "why_tests_cant": "quantifies over channels, results and sizes", "anchors": ["include/lc3_cpp.h: EncodeImpl, DecodeImpl, Encode, Decode"]}
{"id": "C37", "title": "FFT computes the discrete Fourier transform", "statement": "In exact arithmetic with exact twiddle factors, the transform used by the MDCT equals the discrete Fourier transform for every length 5*3^a*2^b, and each length used by a supported configuration is of that form with a twiddle table available.", "quantifier": "every input vector, every a and b", "why_tests_cant": "algebraic identity over all inputs; recursion depth unbounded", "anchors": ["src/mdct.c: fft, fft_5, fft_bf3, fft_bf2"]}
{"id": "C38", "title": "Bit-cost tables never underestimate", "statement": "For each symbol the encoder may write, the tabulated cost (in 1/2048 bit) compared to the ideal cost -log2(share) is exact within a stated rounding, and the symbol sequence priced by the encoder's rate loop is the one written to the frame.", "quantifier": "every model and symbol; every spectrum", "why_tests_cant": "rate loop and writer are two separate traversals which must agree for every spectrum", "anchors": ["src/tables.c: lc3_spectrum_bits, lc3_tns_order_bits, lc3_tns_coeffs_bits", "src/spec.c: compute_nbits, put_quantized", "src/tns.c: lc3_tns_get_nbits"]}
{"id": "C39", "title": "LTPF encoder front-end arithmetic", "statement": "The 12.8 kHz resampler, for each input rate, reads only samples within the frame and its history, and its 32-bit accumulations never overflow, for any 16-bit input.", "quantifier": "every rate, duration, 16-bit signal and history", "why_tests_cant": "worst-case amplitudes over all signals", "anchors": ["src/ltpf.c: resample_x64k_12k8, resample_x192k_12k8, lc3_ltpf_analyse"]}
{"id": "C40", "title": "SNS pulse search spends exactly its pulses", "statement": "The pulse search always returns vectors with exactly the number of unit pulses of the selected shape, so that the vector has a valid index; the number of pulses is independent of the input scale.", "quantifier": "every real input vector", "why_tests_cant": "float-dependent greedy choice; must hold for each outcome of the comparisons", "anchors": ["src/sns.c: quantize, add_pulse"]}
{"id": "C41", "title": "Extreme bitrates give the extreme sizes", "statement": "As documented, asking for the frame size at bitrate 0 answers the minimum allowed size, and at INT_MAX the maximum allowed size, for every supported configuration and channel count.", "quantifier": "every supported duration, rate, mode and channel count 1..8", "why_tests_cant": "documentation claim over the whole configuration space; the usual single-channel cases all pass", "anchors": ["include/lc3.h:274-275", "src/lc3.c: lc3_hr_frame_block_bytes"]}
{"id": "C42", "title": "LTPF postfilter computes its equation", "statement": "When the long term postfilter is active, the decoded frame is the solution of the difference equation of the specification: input minus the filtered input plus the output delayed by the pitch lag and filtered, across frame boundaries, with the gain of the bitrate and a linear fade-in at activation; when the filter stops, or when the pitch changes, the filter of the previous frame fades out linearly during 2.5 ms, and the filter of the frame fades in on the result; when not active the signal is unchanged.", "quantifier": "every rate, duration, pitch index, frame size, history content and position of the frame in the ring", "why_tests_cant": "rotating accumulators, ring wrap and two-stage filtering must agree with the equation for every lag and position", "anchors": ["src/ltpf.c: synthesize_template, lc3_ltpf_synthesize"]}
{"id": "C43", "title": "Noise seed is a function of the decoded spectrum", "statement": "The seed of the noise filling obtained by the decoder is the sum of index times magnitude (modulo 2^15) over the final integer spectrum, modulo 2^16, whether the values come from the arithmetic coder only or were completed by the LSB stage, even when the LSB stage is cut by the end of the frame: the noise is a function of the decoded values, not of the way they were transmitted.", "quantifier": "every integer spectrum, mode and number of bits left", "why_tests_cant": "depends on the interleaving of the two stages for every possible exhaustion point", "anchors": ["src/spec.c: get_quantized, get_lsb"]}
{"id": "C44", "title": "Noise is injected where it was measured", "statement": "The decoder injects noise only on lines of the coded bandwidth above the low-frequency limit whose neighbourhood is quantised to zero, with magnitude gain*(8-nf)/16 and signs given by the successive states of the generator; all other lines are untouched. The encoder measures the noise level on exactly the same lines, as seen in its own spectrum before quantisation, for every frame written without truncation of the LSBs.", "quantifier": "every spectrum, duration, bandwidth, noise factor, seed and gain; end to end for every frame", "why_tests_cant": "encoder and decoder walk two different spectra (before and after quantisation and residual refinement) and must select the same lines for all of them", "anchors": ["src/spec.c: estimate_noise, fill_noise, lc3_spec_encode, lc3_spec_decode"]}
{"id": "C45", "title": "Bursts of lost frames of any length are defined", "statement": "The decoder may be asked to conceal any number of consecutive frames. [Found FALSE at this commit: the int counter of losses overflows after 2^31-1 consecutive losses, 62 days of 2.5 ms frames; nothing saturates it.]", "quantifier": "every length of burst", "why_tests_cant": "2^31 consecutive calls", "anchors": ["src/plc.c: lc3_plc_synthesize"]}
{"id": "C46", "title": "What the rate control accepts fits in the frame", "statement": "When the rate control accepts a spectrum within its budget of bits, the frame written does not overflow: the decoder accepts it and obtains the quantised spectrum of the encoder. [Found FALSE at this commit: the loss of precision of the arithmetic coder is not accounted for, a spectrum of 64 coefficients in a frame of 71 bytes is accepted by the rate control and the frame is refused by the decoder.]", "quantifier": "every configuration, side information and spectrum", "why_tests_cant": "needs spectra whose symbols systematically hit the worst rounding of the coder", "anchors": ["src/spec.c: compute_nbits, get_nbits_ac, lc3_spec_analyze", "src/bits.h: lc3_put_symbol", "src/bits.c: lc3_ac_write_renorm"]}
{"id": "C47", "title": "Rate control decisions are valid", "statement": "Whatever the spectrum and the history, the gain index decided by the encoder fits in its 8-bit field, the number of coded coefficients is even and within the spectrum, the LSB mode is used only when the frame size allows it, and the spectrum coded is the given one scaled by the gain of the index.", "quantifier": "every spectrum, configuration, state and floating point implementation", "why_tests_cant": "the index results of two binary searches and an adjustment on floating point data", "anchors": ["src/spec.c: estimate_gain, adjust_gain, quantize, lc3_spec_analyze"]}
{"id": "C48", "title": "Gain estimation does not overflow", "statement": "The integer computations of the gain estimation stay in the range of int for any audio signal. [Found FALSE at this commit: at 96 kHz in high-resolution mode with 625 bytes the accumulator overflows on a white noise 44 dB below the full scale; at 48 kHz in high-resolution mode, 14 dB below.]", "quantifier": "every spectrum and configuration", "why_tests_cant": "overflow depends on the sum of the levels over all the blocks; wraps silently", "anchors": ["src/spec.c: estimate_gain"]}
{"id": "C49", "title": "The transforms compute the MDCT, within their buffers", "statement": "For every supported configuration the analysis and synthesis transforms read and write only within their buffers and tables, in place or not, and the analysis transform gives the modified discrete cosine transform of the windowed samples of the previous and current frames, up to the rounding of the arithmetic and of the tables.", "quantifier": "every configuration, coded rate, sample values and previous state", "why_tests_cant": "accesses and algebraic identity for every input vector; out of bounds accesses are silent", "anchors": ["src/mdct.c: lc3_mdct_forward, lc3_mdct_inverse, mdct_window, mdct_pre_fft, mdct_post_fft, imdct_pre_fft, imdct_post_fft, imdct_window"]}
{"id": "C50", "title": "The analysis and synthesis transforms reconstruct the signal with the reported delay", "statement": "Without quantization, the synthesis transform of the spectra of successive frames gives back the samples, delayed by lc3_delay_samples samples, preceded by zeros, with a relative error of 10^-7 at most due to the windows, up to the rounding of the arithmetic and of the twiddle factors.", "quantifier": "every configuration, every number of frames and every signal", "why_tests_cant": "unbounded sequences of frames of arbitrary samples", "anchors": ["src/mdct.c: lc3_mdct_forward, lc3_mdct_inverse", "src/tables.c: lc3_mdct_win", "src/lc3.c: lc3_delay_samples"]}
{"id": "C51", "title": "The energy of the bands covers the whole encoded spectrum", "statement": "For every supported configuration, the energy of each band is the mean of the squares of its coefficients, the bands are consecutive, not empty, and cover exactly the encoded coefficients; the near Nyquist flag is set only when the last bands hold more than 30 times the energy of the others, and never for silence; no access out of the spectrum.", "quantifier": "every configuration and every spectrum", "why_tests_cant": "any values of the coefficients; accesses out of the buffer are silent", "anchors": ["src/energy.c: lc3_energy_compute", "src/tables.c: lc3_band_lim"]}
{"id": "C52", "title": "The detected bandwidth is codable and never cuts a region with signal", "statement": "For any energies of bands the bandwidth detector reads the bands only and gives a bandwidth that the bitstream can carry at the sample rate; the bandwidth is reduced only when all the regions above it are quiet and the energy drops at the cut-off, so a region over the threshold is never discarded.", "quantifier": "every configuration and every energies", "why_tests_cant": "arbitrary energies, all the branches of the two stages", "anchors": ["src/bwdet.c: lc3_bwdet_run"]}
{"id": "C53", "title": "The noise shaping is a gain per band, undone by the decoder", "statement": "For any accepted SNS data, the synthesis multiplies each encoded coefficient by a gain that depends on its band and the data only, leaves the others unchanged, and accesses its buffers only; the gain is two to the power of the interpolated scale factors, and the shaping of the encoder followed by the one of the decoder is the identity, up to rounding.", "quantifier": "every configuration, SNS data and spectrum", "why_tests_cant": "all the indices of 38 bits, and all the spectra", "anchors": ["src/sns.c: lc3_sns_synthesize, spectral_shaping, unquantize"]}
{"id": "C54", "title": "The encoder shapes the spectrum with the scale factors of the decoder", "statement": "For any spectrum and band energies, the SNS analysis gives data that the bitstream carries, and shapes the spectrum with exactly the scale factors that the decoder computes from these data; decoding the shaping gives back the spectrum, up to rounding.", "quantifier": "every configuration, frame size, energies, attack flag and spectrum", "why_tests_cant": "a mismatch on some residual gives only distorted sound; the space of residuals is continuous", "anchors": ["src/sns.c: lc3_sns_analyze, quantize, unquantize, lc3_sns_synthesize"]}
{"id": "C55", "title": "The scale factors follow the envelope, not the level", "statement": "In exact arithmetic the 16 scale factors have a null mean with and without attack, do not depend on the level of the signal above a floor, are smoothed over five values after an attack; the codebook entries are the nearest ones and the shape and gain have the least error; the transform of the residual is inverted by the decoder up to the rounding of the table.", "quantifier": "every energies of bands and every level", "why_tests_cant": "continuous space of energies; optimality against all the other entries", "anchors": ["src/sns.c: compute_scale_factors, resolve_codebooks, quantize, dct16_forward, dct16_inverse"]}
{"id": "C56", "title": "No sequence of calls makes the decoder undefined", "statement": "On a decoder just set up, any sequence of lc3_decode calls, with any frames (valid, corrupted, lost, of rejected sizes), never accesses memory out of the instance or the frame, never overflows and never divides by zero, as long as fewer than 2^31 - 2 frames are lost or refused in a row; the exact condition is given.", "quantifier": "every configuration, every finite history of calls, every byte string", "why_tests_cant": "unbounded histories of arbitrary bytes", "anchors": ["src/lc3.c: lc3_decode, decode, synthesize, complete"]}
{"id": "C57", "title": "Uninitialised memory has no effect on the decoder", "statement": "The values returned, the samples and the state after any sequence of calls do not depend on the content of the memory that lc3_decode uses without initialising it: the LTPF fields of the side information, the spectrum left by a refused frame, the local buffer of the inverse transform.", "quantifier": "every configuration, history of calls, and content of the stack", "why_tests_cant": "depends on the content of the stack, on the compiler, and on rare refused frames", "anchors": ["src/lc3.c: lc3_decode, decode, synthesize", "src/mdct.c: lc3_mdct_inverse"]}
{"id": "C58", "title": "Two decoders resynchronise in one frame", "statement": "Two decoders of the same configuration that have received anything, or nothing, give the same samples from the second common accepted frame on, when these frames do not activate the long term postfilter (never active in high-resolution mode): joining a stream or recovering from losses costs one frame.", "quantifier": "every configuration, every pair of histories, every frames", "why_tests_cant": "quantifies over pairs of unbounded histories", "anchors": ["src/lc3.c: synthesize", "src/mdct.c: lc3_mdct_inverse", "src/plc.c: lc3_plc_suspend", "src/ltpf.c: lc3_ltpf_synthesize"]}
{"id": "C59", "title": "What can be undefined in the encoder", "statement": "On an encoder just set up, after any sequence of lc3_encode and lc3_encoder_disable_ltpf calls, the next lc3_encode call on any samples and size does not access memory out of its buffers, does not overflow and does not divide by zero. (False in general: the exact condition is the resampler of the pitch analysis, not used once the LTPF is disabled, and the gain decision of the quantiser.)", "quantifier": "every configuration, every finite history of calls, samples, strides and formats", "why_tests_cant": "unbounded histories of arbitrary samples", "anchors": ["src/lc3.c: lc3_encode, analyze, encode"]}
{"id": "C60", "title": "The frames depend on the samples only", "statement": "The frames, the values returned and the state of the encoder after any sequence of calls depend only on the configuration and the samples given: neither on the previous content of the output buffer, nor on the memory that lc3_encode uses without initialising it (the LTPF fields of the side information, the local buffer of the transform).", "quantifier": "every configuration, history of calls, content of the output buffers and of the stack", "why_tests_cant": "depends on the content of the stack and on the compiler; the writer of the bitstream merges backward writing with the content of the buffer", "anchors": ["src/lc3.c: lc3_encode, analyze", "src/bits.c: lc3_flush_bits, lc3_put_bits_generic, accu_flush, ac_put", "src/mdct.c: lc3_mdct_forward"]}
{"id": "C61", "title": "Accuracy of the gain and bound of the coefficients", "statement": "The gain applied by the encoder and the decoder for a gain index is 10^(g/28), to two millionths. After the analysis of the encoder, the quantised coefficients are within the 16 bits (24 in high resolution) that the bitstream can represent. (False without a bound on the level of the spectrum: the gain has a maximum.)", "quantifier": "every gain index, every rounding of the operations to 24 bits, every spectrum up to the level of the highest gain, every configuration, frame size and state of the rate control", "why_tests_cant": "the spectra are unbounded real vectors; the rounding depends on the compiler", "anchors": ["src/spec.c: unquantize_gain, estimate_gain, adjust_gain, quantize, lc3_spec_analyze"]}
{"id": "C62", "title": "A frame of lc3_encode is accepted by lc3_decode", "statement": "After any sequence of calls, a frame written by lc3_encode is accepted by lc3_decode (it returns 0) on any decoder of the same frame duration and sample rate, whatever this decoder received before; the side information read is the one of the encoder and the integer spectrum is its quantised spectrum. (False in general, see C46, C61 and C26; proved with the conditions that the encoder does not check.)", "quantifier": "every configuration, every history of the encoder and of the decoder, every input", "why_tests_cant": "unbounded histories of both sides, and all inputs", "anchors": ["src/lc3.c: lc3_encode, lc3_decode, encode, decode"]}
{"id": "C63", "title": "The tools elc3 and dlc3 encode and decode whole files", "statement": "elc3 on a WAVE file of 16 or 24 bits, 1 or 2 channels, at a supported rate, writes a header with the parameters and the blocks of the frames of each channel, in order, zero after the last sample, as many as needed to hold the samples and the delay; dlc3 writes a WAVE file with the samples of each channel, the delay removed, as many as announced, whatever the output rate; one tool after the other gives the decoding of the encoding of each channel, and dlc3 never reads more blocks than elc3 has written. (False at this commit: beyond 2147.48 s of audio both tools overflow an int; when samples and delay do not fill a frame dlc3 writes more samples than announced; when lc3_decode refuses a block, dlc3 writes indeterminate memory.)", "quantifier": "every input file, every codec, every parameter accepted by the tools", "why_tests_cant": "files of any length, any content, every pair of rates", "anchors": ["tools/elc3.c: main", "tools/dlc3.c: main", "tools/wave.c", "tools/lc3bin.c"]}
{"id": "C64", "title": "The Python interface encodes and decodes all the channels", "statement": "Encoder.encode gives to the encoder of each channel its interleaved samples, padded with zeros when there are less samples than required, and returns the concatenation of the frames, num_bytes bytes; Decoder.decode splits the block in the same way and returns the interleaved samples; an exception is raised exactly when a frame is refused; get_frame_bytes raises exactly on invalid parameters. (False at this commit: floating point samples are not padded below one channel's frame; full scale samples of two channels are refused; get_frame_bytes is wrong with a library without the lc3_hr interface.)", "quantifier": "every count of channels, every length of the input, every codec state", "why_tests_cant": "any length, any count of channels, any content", "anchors": ["python/lc3.py: Encoder.encode, Decoder.decode, _Base.get_frame_bytes"]}
{"id": "C65", "title": "Same pitch analysis on every processor", "statement": "The pitch analysis of the encoder gives the same decisions, pitch and state with the variants for ARM processors (SIMD32, Neon) as with the generic code: the frames encoded do not depend on the processor, and the variants access only the samples of the frame and its history, by aligned pairs. [Found FALSE at this commit for Neon: the 32-bit lanes of neon_dot and neon_correlate wrap when two products of -32768 by itself are added.]", "quantifier": "every rate, duration, sequence of frames and samples", "why_tests_cant": "the tests compare the variants on one random vector for each size; the wrap needs four values at -32768 in the same lane", "anchors": ["src/ltpf_neon.h", "src/ltpf_arm.h", "src/ltpf.c: dot, correlate, resample_*"]}
{"id": "C66", "title": "Accuracy of the fast mathematical functions", "statement": "lc3_exp2f approximates 2^x with a relative error under 4e-7 for x from -100 to 100; lc3_frexpf splits its operand exactly in a fraction of [0.5, 1[ and a power of two; lc3_log2f approximates log2(x) with an absolute error of about 1e-4 for x greater than 0; lc3_db_q16 approximates 10 log10(x) in Q16 for x from 2^-63 to 2^63, is monotone, and is defined at 0. [Found FALSE at this commit: the exponent of lc3_exp2f is added by a shift that is undefined in C11 for negative numbers, and out of range for any other one; lc3_log2f and lc3_frexpf are wrong on subnormal numbers; the error of lc3_log2f reaches 1.64e-4 at x = 1.]", "quantifier": "every binary32 operand of the documented range", "why_tests_cant": "the functions are approximations over 2^31 operands, whose errors come from the polynomials, the tables and every intermediate rounding", "anchors": ["src/fastmath.h: lc3_frexpf, lc3_exp2f, lc3_log2f, lc3_db_q16"]}
{"id": "C67", "title": "Same transforms with the vector instructions of ARM processors", "statement": "When compiled for ARM processors with NEON instructions, the analysis and synthesis transforms compute the same discrete transforms as the generic code: up to the rounding of the floating point operations, the spectrum and the samples are the same for every frame duration, sample rate and input; they stay within the same buffers and tables.", "quantifier": "all the supported configurations, all the samples, all the contents of the buffers; any arithmetic for the accesses", "why_tests_cant": "test/neon compares both codes on random vectors with a tolerance, and only on such a processor; an access beyond the end of a buffer, or a coefficient exchanged on some length, depends on the parity of each length and of each stage", "anchors": ["src/mdct_neon.h:33-100", "src/mdct_neon.h:113-214", "src/mdct_neon.h:227-288", "src/mdct.c:168-194", "test/neon/mdct_neon.c"]}
{"id": "C68", "title": "Accuracy of the transforms in single precision", "statement": "With the binary32 arithmetic and the tables of the code, the spectrum computed by the analysis transform of a frame differs from the mathematical modified discrete cosine transform of the windowed samples by at most 6.5e-6 of the (scaled) sum of the magnitudes of the windowed samples, whatever the samples, the frame duration, the sample rate and the coded rate; the samples computed by the synthesis transform differ likewise from the overlap of the windowed inverse transforms by at most 7e-6 of the sum of the magnitudes of the spectrum, and half a unit in the last place of the delayed samples. No intermediate value overflows.", "quantifier": "every supported configuration, all the binary32 samples or spectra whose sum of magnitudes does not reach 2^90, all the contents of the buffers", "why_tests_cant": "the error depends on the samples through every rounding of up to seven passes of butterflies; tests compare some vectors with a tolerance, they do not give a bound that holds for all", "anchors": ["src/mdct.c:29-560", "src/tables.c:35-4068"]}
{"id": "C69", "title": "The rate control remembers a bounded past, and forgets it on silence", "statement": "Whatever the frames encoded, with any sequence of sizes and configurations, the smoothed offset that the encoder adds to its bit budget stays between -40 and 40 bits, in single precision arithmetic, so the conversion of the budget to int never overflows; a silent frame puts the rate control back in its initial state, so two encoders with different pasts that encode a silent frame then the same frames take the same decisions; in high-resolution mode the noise floor of the gain estimation stays between 2^-31 and 2^-6 of the greatest coefficient.", "quantifier": "every sequence of spectra and configurations, every state of the rate control", "why_tests_cant": "the state is recursive over unbounded sequences; the rounding of 0.8f and 0.2f, both over their decimal value, could let it drift past the limit", "anchors": ["src/spec.c:88-186", "src/spec.c:836-856"]}
{"id": "C70", "title": "TNS computes the optimal predictor and filters with it", "statement": "For any spectrum, the linear predictor computed by the encoder solves the normal equations of the windowed autocorrelations (no other predictor of this order has a lower error), the lattice filter driven by the reflection coefficients computed outputs exactly its prediction error, the quantised coefficients are within 0.0923 of the computed ones, the order transmitted only drops trailing null coefficients, and the prediction error is positive with all reflection coefficients lower than 1. [The last point found FALSE at this commit: the lag window rounded to 9 digits is not positive definite, a smooth spectrum gives a negative prediction error even in exact arithmetic and the shaping is disabled.]", "quantifier": "every spectrum and correlations in exact arithmetic, every order", "why_tests_cant": "algebraic identities over all the spectra; the instability occurs on rare, nearly predictable spectra", "anchors": ["src/tns.c:59-288", "src/tns.c:301-335", "src/tns.c:387-422"]}
{"id": "C71", "title": "The command lines of elc3 and dlc3 mean what they say", "statement": "elc3 and dlc3 take their options and the names of the files in any order: the parameters used are the last value of each option and the names in their order, an unknown or incomplete option or a third name is refused, the help is displayed at the first -h. A number in decimal, with spaces, sign and leading zeros, is taken with its value; the durations 2.5, 5, 7.5 and 10 ms, however written in decimal, select exactly these frames, and a duration is accepted only when it differs from one of them by less than about a microsecond. The command lines with an undefined behaviour are exactly those where the first fault is a single dash, whose end is overrun, or a number that is not representable.", "quantifier": "every list of arguments of any length, every text of the numbers, every rounding of strtod within a bit", "why_tests_cant": "the command lines are unbounded; a test runs a few of them, in one order, and does not see a read one byte after the end of an argument", "anchors": ["tools/elc3.c:69-126", "tools/elc3.c:147-162", "tools/dlc3.c:75-128"]}
{"id": "C72", "title": "Reset of the C++ classes gives back a new instance", "statement": "After any sequence of blocks encoded or decoded, lost and refused ones included, and whether the post filter has been disabled or not, Reset puts an Encoder or a Decoder of any number of channels in the state made by its constructor: the calls that follow give the same values and outputs as those of a new instance (the post filter is enabled again).", "quantifier": "every configuration, every number of channels, every outcome of the allocations, every sequence of calls", "why_tests_cant": "a field of the state left over by the reset shows only after particular pasts, for an unbounded set of sequences", "anchors": ["include/lc3_cpp.h:147-152", "include/lc3_cpp.h:255-260", "src/lc3.c:389-419", "src/lc3.c:695-729"]}
{"id": "C73", "title": "The transforms of the ARM processors are as accurate, and agree with the generic ones", "statement": "With the vector instructions and the fused multiplications of the ARM processors, in single precision, the spectrum computed by the encoder is the modified discrete cosine transform of the windowed samples within 6.5e-6 of the sum of their magnitudes, and the samples of the decoder are those of the exact inverse transform within 7e-6 of the sum of the magnitudes of the spectrum. An encoder, or a decoder, on such a processor and one on another processor obtain, from the same inputs, spectra, or samples, that agree within twice these bounds.", "quantifier": "every supported frame duration and sampling rate, every samples and spectra under 2^90, every contents of the buffers", "why_tests_cant": "the tests of a platform run on that platform, with a few signals; the comparison of two platforms takes both, and the largest difference over all signals cannot be sampled", "anchors": ["src/mdct_neon.h:33-100", "src/mdct_neon.h:113-214", "src/mdct_neon.h:227-288", "src/mdct.c:430-475"]}
{"id": "C74", "title": "The post filter of the decoder is stable", "statement": "Whatever the sequence of frames received or lost, with any pitch lags, any sizes and any switches of the filter on and off, the samples after the long-term post filter of the decoder never exceed 4.2 times the largest sample before the filter since the creation of the decoder; the recursion neither runs away nor accumulates rounding errors, and the next frame is always defined.", "quantifier": "every frame duration and sampling rate up to 48 kHz, every sequence of frames of any length, every samples, every rounding of the operations to 24 bits", "why_tests_cant": "the filter is recursive over the frames and the worst case is an adversarial sequence of lags and signals of unbounded length", "anchors": ["src/ltpf.c:740-843", "src/ltpf.c:855-925"]}
{"id": "C75", "title": "The constants of the code are those of the formulas that define them", "statement": "The literal tables of the codec are the values of closed formulas, to the last printed digit or the last bit: the quantisation thresholds and values of the temporal noise shaping (sines of an arc divided by 17), its lag window (a gaussian), the cosine matrix and the pre-emphasis of the scale factors, the steps of the global gain (a decade in 28), the high-pass filter before the pitch analysis (Butterworth, second order, 50 Hz). The polyphase tables of all the sampling rates are the phases of one prototype filter, and the interpolation tables and the coefficients of the post filter are samples of symmetric filters, so that resampling or interpolating is a weighted sum that only depends on the distance in time between the samples.", "quantifier": "every entry of the tables, every sampling rate, every signal, every position and fraction", "why_tests_cant": "a test compares a few outputs with those of a reference run; a wrong digit in one phase of one table changes the output under the tolerances of such comparisons", "anchors": ["src/tns.c:92-96", "src/tns.c:242-288", "src/sns.c:35-117", "src/spec.c:52-60", "src/ltpf.c:30-200", "src/ltpf.c:516-571", "src/tables.c:4755-4901"]}
{"id": "C76", "title": "The pitch analysis finds the lag of the greatest correlation", "statement": "The encoder looks for the period of the signal in two steps. At 6.4 kHz it takes, among the 98 lags from 17, the first of the greatest correlation weighted in favour of the short lags, or, unless it is clearly weaker, the first of the greatest correlation near the previous lag. A pitch is signalled if and only if its normalised correlation exceeds 0.6. At 12.8 kHz the whole lag has the greatest correlation of those at most 4 away from the double, and the fraction the greatest interpolated correlation of those that the bitstream can represent. The post filter is signalled active only with a pitch, never in the high resolution mode, and gets active only after two consecutive frames with a pitch, three for the frames shorter than 10 ms.", "quantifier": "every signal, every previous lag, every rounding of the operations, every configuration and sequence of frames", "why_tests_cant": "an error in the bounds of the search or in a comparison only degrades the quality of some voiced signals; the maximality of the choice over all signals cannot be sampled", "anchors": ["src/ltpf.c:390-407", "src/ltpf.c:438-514", "src/ltpf.c:573-655", "src/ltpf.c:660-737"]}
{"id": "C77", "title": "The signal analysed for the pitch does not depend on the boundaries of the frames", "statement": "After any sequence of calls of an encoder, the memories of the analysis of the pitch hold the last samples of one signal: the whole input given so far, resampled at 12.8 kHz by one time-invariant filter, high-pass filtered from the start of the stream, and its half at 6.4 kHz, delayed. The calls refused leave no trace, no sample is lost, repeated or misplaced at the boundaries of the frames, and two encoders that cut the same input in frames of different durations hold the same signals.", "quantifier": "every sampling rate, every frame duration, every sequence of calls of any length, every 16-bit signal, every arithmetic", "why_tests_cant": "an error of one sample at the boundary of the frames only lowers a correlation; the equality between all the segmentations of all the signals cannot be sampled", "anchors": ["src/ltpf.c:203-301", "src/ltpf.c:660-688", "src/lc3.c:285-310"]}
{"id": "C78", "title": "The spectrum rebuilt by the decoder is the one measured by the encoder, within half steps of the gain", "statement": "When lc3_encode returns 0 and the coefficients it coded fit in the frame, any decoder of the same configuration given that frame rebuilds the spectrum that the encoder computed from its samples, plus an error: the error, before the noise shaping is undone, is on each coded coefficient at most 9/8 of the step of the gain transmitted (17/8 when the least significant bits are dropped), and on a coefficient beyond the last coded at most half a step more than its own magnitude. The shaping and the prediction filters applied by the encoder are undone exactly: the error of a coefficient is that one, times the positive gain of its band when no prediction filter is active, passed through the synthesis of the decoder otherwise. Nothing else reaches the inverse transform, whatever both sides handled before.", "quantifier": "every configuration, every history of both sides, every signal, every frame size, every accepted frame with coded coefficients; arithmetic of an ordered field (the reals, the rationals)", "why_tests_cant": "tests compare decoded files to references with a threshold on the global error; a bound on each coefficient of each frame, for every signal, gain, shaping and history, is out of reach of samples", "anchors": ["src/lc3.c:285-420", "src/lc3.c:571-680", "src/spec.c:251-302", "src/spec.c:574-772", "src/spec.c:820-980", "src/sns.c:721-830", "src/tns.c:301-460"]}
{"id": "C79", "title": "The encoder takes the finest gain whose estimated consumption fits the bits of the frame", "statement": "The global gain estimated by lc3_encode for a spectrum that is not null is the finest (the lowest index) for which the estimated consumption fits in the target: the bits left by the side information, plus the smoothed error of the previous frames. The estimation is, on the levels of the blocks of 4 coefficients up to the last one above the gain, 2.7 units of 1/1.4 bit for a block under the gain, its level over the gain plus 7 dB under 43 dB, twice the level less 36 dB above. It is raised, when needed, to the lowest index for which no coefficient exceeds the range of the quantised values (32767, or 8388352 in high resolution); in this case the memory of the rate control is cleared. The index transmitted is the one estimated, plus the adjustment given by the actual consumption of the coefficients quantised with it; the tolerance of this adjustment is the nearest integer of a broken line of the consumption.", "quantifier": "every configuration, every frame size, every spectrum, every state of the rate control; any arithmetic (any monotone rounding to 24 bits for the minimum)", "why_tests_cant": "the search is a dichotomy on 256 gains with an early exit on the blocks, correct only when the estimation decreases with the gain; tests compare the result on recorded signals, they do not show that no finer gain would have fit, for all spectra and budgets", "anchors": ["src/spec.c:37-80", "src/spec.c:82-186", "src/spec.c:197-240", "src/spec.c:820-868"]}
{"id": "C80", "title": "A coefficient that fits in the frame is not dropped", "statement": "When the side information leaves at least one bit to the spectrum, lc3_encode leaves a significant coefficient out of the frame only when writing the spectrum up to its pair, with the least significant bits left out when the size of the frame allows it, costs more than the bits available; and it leaves the least significant bits out only when the significant coefficients cost, in full, more than the bits available. The costs are the ideal ones of the arithmetic coder, within 1/2048 bit by operation, and 1 bit by value of 1 whose sign is moved with the least significant bits. The last pair coded is significant. When the side information leaves exactly no bit, the limit is disabled: the whole spectrum is written, and the frame is refused by the decoder.", "quantifier": "every configuration, every frame size, every spectrum, every state of the rate control, every TNS data; any arithmetic", "why_tests_cant": "a coefficient dropped without need only lowers the quality of some frames; that the truncation is the longest that fits, for all the contexts of the arithmetic coder, is not observable on recorded signals. The case of a budget of zero needs a particular cost of the TNS data", "anchors": ["src/spec.c:251-268", "src/spec.c:300-312", "src/spec.c:321-409", "src/spec.c:820-868"]}
{"id": "C81", "title": "Each pulse of the spectral noise shaping is the best one", "statement": "The configurations of pulses between which lc3_encode chooses the scale factors are obtained greedily: from the projection of the transformed residual on the pyramid of 5 pulses, rounded down, each pulse is added at the position for which the configuration, at its best gain, is the closest to the residual. The shapes of 6 and 8 pulses are searched on 16 positions; the shape of 10 pulses is searched on the first 10 positions from those of the preceding one, and its 11th pulse on the last 6 positions. The signs are those of the residual, and preserve the distance.", "quantifier": "every residual; the arithmetic of any ordered field", "why_tests_cant": "a pulse at a worse position only lowers the quality of some frames; the incremental correlation and energy have to be the ones of the configuration after any sequence of choices", "anchors": ["src/sns.c:435-461", "src/sns.c:480-542"]}
{"id": "C82", "title": "The scale factors follow the energy of the spectrum", "statement": "For a frame without attack, the 16 scale factors computed by lc3_encode before quantisation are the levels of 16 groups of 4 cells, less their mean, times the strength of the shaping: 0.85, or 0.6 in high resolution, reduced by 4 above 460 kbps, or by 0.35 above 440 kbps for the frames of 10 ms. The 64 cells are the bands, the first ones counted 4 or 2 times; the level is half of the logarithm of the energy smoothed with weights 1/4, 1/2, 1/4, emphasised toward the high frequencies, and limited 40 dB under the mean; the level of a group is the mean of its 4 cells and the 2 around with weights 1, 2, 3, 3, 2, 1. The cells at the ends are repeated.", "quantifier": "every configuration, every energy of the bands, every size of the frame, every function log2; real arithmetic", "why_tests_cant": "the loop is unrolled and in place, with ends handled apart: a cell replaced by another one changes the scale factors slightly, for some of the configurations only", "anchors": ["src/sns.c:284-354"]}
{"id": "C83", "title": "The correlation of the pitch is the normalised one at the fractional lag", "statement": "When lc3_encode retains a pitch for a frame, the correlation it keeps for the decisions of this frame and the next is the cross correlation of the signal at 12.8 kHz with itself one pitch lag before, at the resolution of a quarter of sample, divided by the square root of the product of the two energies; without a pitch it is 0.", "quantifier": "every configuration, every state of the pitch analysis, every input, any arithmetic and square root", "why_tests_cant": "the samples are interpolated in 16 bits and multiplied in 32 and 64 bits: a wrap, or a window off by one sample, only changes the correlation, hence the decision of some frames", "anchors": ["src/ltpf.c:516-541", "src/ltpf.c:705-713"]}
{"id": "C84", "title": "The decoded samples are the input delayed, up to the quantisation error", "statement": "When two successive frames produced by lc3_encode are given to lc3_decode, the samples of the second block are those given to the encoder, delayed by the number of samples of lc3_delay_samples, within a bound made of the quantisation errors of the coded coefficients, the spectrum above the coded bandwidth, and the accuracy of the tables. The analysis and synthesis transforms alone, in binary32, give back the delayed signal within 5.7e-5 of the sum of its magnitudes in the window.", "quantifier": "every configuration and pair of rates, any past of encoder and decoder, every input, every frame size, with or without vector instructions", "why_tests_cant": "the reconstruction relies on the cancellation of the aliasing between frames, by each window and table of each configuration; a test compares a few signals with a threshold", "anchors": ["src/lc3.c:436-463", "src/lc3.c:740-772", "src/mdct.c:207-475", "src/lc3.c:164-179"]}
{"id": "C85", "title": "No frame makes the samples of the decoder overflow", "statement": "Whatever the bytes of the frames given to lc3_decode, and whichever are lost or refused, in any order and number, the samples it outputs and the samples and coefficients it keeps for the next calls are finite single precision numbers, of magnitude at most 2^105: no infinity or NaN appears, and none stays in the decoder to corrupt the frames that follow.", "quantifier": "every configuration and pair of rates, every sequence of calls with any frames, sizes and losses, every rounding of single precision with its subnormal numbers", "why_tests_cant": "an overflow takes the worst noise shaping, the worst temporal filter and the highest gain together, and an infinity kept in the overlap, the postfilter or the concealment would only be heard later; a test cannot try the frames", "anchors": ["src/lc3.c:740-772", "src/lc3.c:618-657", "src/tns.c:427-437", "src/sns.c:807-823", "src/mdct.c:455-476", "src/ltpf.c:855-923", "src/plc.c:26-62"]}
{"id": "C86", "title": "Any frame received is rendered as integer samples", "statement": "Whatever the bytes received, whatever the frames before, a frame accepted by lc3_decode is written in the format asked for: on 16 or 24 bits, each sample is the closest integer, saturated; in float, the sample divided by 2^15 limited to 1. No frame makes the conversion undefined.", "quantifier": "every configuration, every sequence of calls on a decoder just setup, every frame, every output format, with the arithmetic of binary32", "why_tests_cant": "the samples decoded from the frames of an encoder stay near full scale: the conversion of a float out of the range of int only happens on frames that no encoder produces", "anchors": ["src/lc3.c:475-490", "src/lc3.c:497-513", "src/lc3.c:520-540", "src/lc3.c:547-562", "src/lc3.c:740-772"]}
{"id": "C87", "title": "A burst of losses fades to silence", "statement": "When frames keep being lost or refused, the samples given by lc3_decode decay: from the second loss of a burst, they are bounded by 5 times the sum of the coefficients kept of the last good frame, times 0.8501 to the power of the number of losses minus 7, up to 2^-39. Whatever was received before, once 500 frames are lost in a row, every sample written on 16 or 24 bits is zero.", "quantifier": "every configuration, every sequence of calls on a decoder just setup, every content of the frames, every length of the burst, every rounding of single precision", "why_tests_cant": "the decay is the joint effect of the attenuation, of the overlap with the previous frame, of the memory of the post-filter and of the rounding, over bursts of any length and any content before", "anchors": ["src/plc.c:26-61", "src/lc3.c:618-661", "src/lc3.c:740-772", "src/ltpf.c:855-964", "src/mdct.c:455-475"]}
{"id": "C88", "title": "The concealment replays the last frame accepted", "statement": "After any history, when a frame is accepted and the following ones are lost, each loss after the first one returns 1 and plays the inverse transform of the spectrum of the frame accepted, each coefficient with the sign of the pseudo-random generator and the attenuation of the rank of the loss, overlapped with the end of the loss before. Neither the frames before the one accepted, nor the sizes announced for the frames lost, nor the post-filter take part.", "quantifier": "every configuration, every history, every frame accepted, every number of losses under 2^31, every arithmetic", "why_tests_cant": "the content of a concealed frame depends on the whole state of the decoder: that it only depends on the last frame, at any rank of a burst and after any history, is a statement on all the executions", "anchors": ["src/plc.c:43-61", "src/lc3.c:618-661", "src/lc3.c:740-772", "src/ltpf.c:855-964", "src/mdct.c:455-475"]}
{"id": "C89", "title": "A long burst of losses is silent in the float format", "statement": "Whatever was received before, once 500 frames are lost in a row, the samples written in the float format are under 1/1000 of the full scale. [Found FALSE at this commit: a frame of ordinary level at 8 kHz, 2.5 ms, followed by 555 losses: the next loss writes all its samples at -1, the full scale; the scaling by lc3_ldexpf wraps on samples under 2^-112.]", "quantifier": "every configuration, every sequence of calls on a decoder just setup, every burst of 500 losses or more, with the arithmetic of binary32", "why_tests_cant": "the failure needs more than a second of consecutive losses and depends on the sign and the magnitude of numbers close to the smallest ones of the format", "anchors": ["src/fastmath.h:45-52", "src/lc3.c:547-563", "src/plc.c:43-61"]}
{"id": "C90", "title": "Digital silence is transmitted as digital silence", "statement": "After any history of the encoder, once null samples have been given for one frame, every following call of lc3_encode with null samples that returns 0 writes a frame that any decoder of the configuration decodes as an exactly null spectrum: no coefficient, no comfort noise, no temporal noise shaping; and the rate control forgets its history. Without the long-term post-filter (disabled in the encoder, or high-resolution), the decoder, whatever it received before, outputs exactly 0 from the second of such frames, in every format and at every output rate.", "quantifier": "every configuration and frame size, every history of the encoder and of the decoder, every arithmetic that rounds as binary32 does, square root and exponentials of the library only constrained by sqrt(0) = 0", "why_tests_cant": "the frame after the silence depends on the whole history of the encoder: the memory of the transform, of the attack detector and of the rate control; a test covers a few histories", "anchors": ["src/lc3.c:297-340", "src/spec.c:82-275", "src/spec.c:714-768", "src/spec.c:930-962", "src/tns.c:123-191", "src/tns.c:387-422", "src/mdct.c:430-475", "src/sns.c:721-763"]}
{"id": "C91", "title": "A stream of digital silence, of any length, is transmitted as silence, losses included", "statement": "An encoder just set up receives null samples only, for any number of frames of any sizes, lc3_encoder_disable_ltpf being called at any time or never. Every call of lc3_encode is defined and its return value depends on the size alone; no pitch is found; every frame is decoded as an exactly null spectrum. A decoder of the configuration, just set up, that receives frames of this stream, skipped, repeated or reordered, with any of them lost and concealed, executes nothing undefined, returns 0 for a frame and 1 for a loss, and outputs exactly 0, at every output rate and in every format.", "quantifier": "every configuration, frame sizes, number of calls of the encoder, number of calls of the decoder below 2^31 - 1, arrangement of frames and losses, every arithmetic that rounds as binary32 does", "why_tests_cant": "the calls are unbounded in number, and the state of the resampler, of the pitch analysis, of the rate control and of the concealment goes from one to the next; a test runs some seconds of silence", "anchors": ["src/lc3.c:285-340", "src/lc3.c:618-665", "src/ltpf.c:658-740", "src/spec.c:252-420", "src/plc.c:44-62"]}
{"id": "C92", "title": "The four formats of samples carry the same audio", "statement": "The same audio given to lc3_encode as 16-bit, 24-bit, packed 24-bit or float samples, from any places in memory, gives the same frames, return values and encoder state, for any number of calls; and the same frame decoded in any of the formats leaves the same decoder and return value, with samples that are conversions of one signal: the 24-bit sample within half a 16-bit step of the 16-bit one, the packed bytes those of the 24-bit one, the float at half a step of each.", "quantifier": "every configuration, pair of formats, audio, sequence of calls, layout of the buffers", "why_tests_cant": "the encoder keeps a 16-bit copy of the samples besides the float one; the two must agree for every sample value and the effect of a disagreement appears only for some signals, frames later", "anchors": ["src/lc3.c:185-280", "src/lc3.c:436-463", "src/lc3.c:470-562", "src/lc3.c:740-772", "include/lc3.h:205-231"]}
{"id": "C93", "title": "The silence before a signal has no effect on its frames", "statement": "An encoder just setup that receives any number of frames of digital silence, of any sizes, some of them refused, then encodes a signal exactly as if it had not received the silence: the same values returned and the same bytes for every later call, whatever the signal and the number of calls, including the cases that are undefined.", "quantifier": "every configuration, number of silent frames, sequence of later calls, mathematical functions meeting GainSane, rounding", "why_tests_cant": "the encoder has eight pieces of memory (pitch lag, correlations, filters, attack detector, rate control, overlap, histories); a test sees only the signals it tries, and a lag kept from a silent frame changes only some later frames", "anchors": ["src/lc3.c:285-328", "src/lc3.c:389-463", "src/ltpf.c:582-611", "src/ltpf.c:660-737", "src/attdet.c:25-92", "src/spec.c:820-868"]}
{"id": "C94", "title": "Decoders that receive the same stream become the same decoder", "statement": "Two decoders of the same configuration that have received anything, in any number (a receiver that joins a stream late, or has lost or corrupted part of it), and then receive the same accepted frames without long-term post-filter, over 20 ms after the first one (a single frame in high resolution), give from there the same values returned and the same samples for all the next calls, with or without the post-filter, wherever the frames fall in their circular memories. It includes the frames lost or corrupted later when the two decoders had lost as many frames as each other, and otherwise requires the next frames to be accepted.", "quantifier": "every configuration, pair of histories, common frames, sequence of later calls, arithmetic", "why_tests_cant": "the state of a decoder is made of several thousand samples in a circular buffer, and its position depends on the number of frames received; a test compares a few histories, and not every alignment of the pitch lag with the end of the buffer", "anchors": ["src/lc3.c:571-610", "src/lc3.c:618-657", "src/lc3.c:663-674", "src/ltpf.c:817-923", "src/plc.c:26-61", "src/tables.h:59-62"]}
{"id": "C95", "title": "The silence received before a signal has no effect on its decoding", "statement": "A decoder just setup that receives frames of digital silence from an encoder just setup, any of them in any number and of any sizes, some of them lost, then decodes as if it had not received them: the same values returned and the same samples for all the later calls, whatever the position reached in its circular memory. The later calls may have frames lost or corrupted when no frame of the silence was lost.", "quantifier": "every configuration, silent stream, sequence of later calls, mathematical functions meeting GainSane, rounding", "why_tests_cant": "the position in the circular memory and the states of the filters depend on the number of silent frames; a test compares a few of them, with a few signals", "anchors": ["src/lc3.c:571-610", "src/lc3.c:618-657", "src/lc3.c:663-674", "src/lc3.c:712-728", "src/ltpf.c:855-923", "src/plc.c:26-61"]}
{"id": "C96", "title": "A corrupted frame is concealed exactly as a lost one", "statement": "When lc3_decode receives a frame of a valid size that it refuses, the samples produced, the value returned, and everything produced later by the decoder are the same as if the application had signalled the frame lost with a NULL pointer, whatever the content of the frame and the size given with NULL; two corruptions of the same frame are also equivalent. No trace of the bytes refused remains in the decoder.", "quantifier": "every configuration, sequence of calls, set of frames corrupted or lost, content of the frames refused, sizes, arithmetic", "why_tests_cant": "the decoding of a frame refused stops at different places and leaves partial data behind; the absence of effect has to hold for all the contents, at all the positions in the stream, on all the later frames", "anchors": ["src/lc3.c:571-610", "src/lc3.c:618-657", "src/lc3.c:740-772", "src/ltpf.c:855-923", "src/plc.c:35-61"]}
{"id": "C97", "title": "A pause of digital silence makes the encoder forget what it encoded before", "statement": "After a pause of enough frames of digital silence, of sizes accepted, the frames produced by lc3_encode for any signal are those of an encoder just set up, to the last bit: nothing of the signal before the pause remains in the encoder.", "quantifier": "every configuration, signal before and after the pause, length of the pause over the bound, sizes, content of the output memory; arithmetic rounded to single precision", "why_tests_cant": "the memory of the recursive filters and detectors, in integers rounded, has to decay to zero from all the states that signals reach, and not to a small value that persists; the effect of such a value only shows with particular signals after the pause", "anchors": ["src/lc3.c:285-328", "src/lc3.c:427-463", "src/attdet.c:25-92", "src/ltpf.c:184-199", "src/spec.c:828-870"]}
{"id": "C98", "title": "The calls refused leave no trace in a stream", "statement": "In any sequence of calls on an encoder or a decoder, removing the calls with a size out of the limits, which are those that return -1, changes nothing else: the other calls return the same values, the same frames or the same samples in memory, and the final state is the same. Wrong sizes between the frames of a stream cannot disturb it.", "quantifier": "every state of the encoder or decoder, sequence of calls, number and position of the calls refused, sizes, content of the frames and memory, arithmetic", "why_tests_cant": "the refusals can be at any position, in any number, in any state, and an effect could show many frames later", "anchors": ["src/lc3.c:436-463", "src/lc3.c:740-772"]}
{"id": "C99", "title": "Without pitch, disabling the long term post-filter has no effect on the frames", "statement": "As long as the encoder detects no pitch in the signal, calling lc3_encoder_disable_ltpf, at any point of the stream, changes neither the values returned by lc3_encode nor the frames: the analysis of the pitch has no influence but through the pitch transmitted, and can be dropped for such signals.", "quantifier": "every state of the encoder, sequence of calls before and after, samples, sizes, content of the output memory, arithmetic", "why_tests_cant": "the analysis keeps its own state along the stream, and shares the budget of bits, the buffers and the frame data with the other stages; the absence of influence has to hold for all the signals without pitch, of any length", "anchors": ["src/lc3.c:285-328", "src/lc3.c:337-364", "src/lc3.c:427-431"]}
{"id": "C100", "title": "Without an active post-filter, the decoded samples are those of the transforms alone", "statement": "From a decoder just set up, as long as no frame accepted activates the long term post-filter (no pitch, the filter not active, or a size of frame that disables it), the values returned by lc3_decode and the samples are, to the last bit, those of a decoder that has no post-filter at all; frames lost or refused among them do not change this. In the middle of a stream, after any frames, the same holds from the call that follows the first one that does not activate the filter.", "quantifier": "every configuration, arithmetic, sequence of calls without active post-filter, of any length, content of the memories and of the locals not initialized", "why_tests_cant": "the post-filter keeps its own history and crossfades between two filters, the data of a frame without pitch are left uninitialized, and the state survives the losses; the absence of influence is over all the streams, and cannot be compared to a decoder that does not exist", "anchors": ["src/lc3.c:618-657", "src/lc3.c:740-772", "src/ltpf.c:855-923"]}
{"id": "C101", "title": "In high-resolution mode the decoder has no post-filter, and the pitch transmitted has no effect", "statement": "A decoder set up in high-resolution mode gives, for any calls, the values returned and the samples of a decoder without post-filter. Frames that differ only by the pitch they carry (presence, index, activation of the filter) are decoded into the same samples, with the same state: the pitch sent by an encoder in this mode is without influence, and cannot cause a difference later in the stream.", "quantifier": "every high-resolution configuration, arithmetic, sequence of calls, of any length, with frames lost or refused, content of the memories and of the locals not initialized", "why_tests_cant": "there are no tables of the filter for the high-resolution rates, a run of it would read out of them; the absence of influence is over all the streams and the whole state of the decoder, not over the samples of a vector", "anchors": ["src/lc3.c:305-306", "src/lc3.c:618-657", "src/lc3.c:740-772"]}
{"id": "C102", "title": "lc3_encoder_disable_ltpf turns the post-filter off from end to end", "statement": "The frames written after a call of lc3_encoder_disable_ltpf never activate the long term post-filter of a decoder: a decoder just set up that receives such frames, with any of them lost, returns the values and gives the samples, to the last bit, of a decoder without post-filter.", "quantifier": "every configuration, output rate of the decoder, arithmetic, signal, sizes of frames, point of the stream where the call is done, pattern of losses, length of the stream", "why_tests_cant": "the absence of the filter is over all the signals, and the flag travels through the analysis, the bits of the frame, their reading, and a state kept by the decoder; the data of the filter are left uninitialized on the two sides", "anchors": ["src/lc3.c:427-431", "src/lc3.c:305-306", "src/lc3.c:337-364", "src/lc3.c:618-657"]}
