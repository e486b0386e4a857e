CLAIMS = {
"C01": ("proved", ["C01_frame_samples_exact", "C01_frame_samples_error", "C01_frame_samples_standard"], "all int arguments"),
"C02": ("proved", ["C02_valid", "C02_error_iff", "C02_monotone", "C02_no_overflow", "C02_standard"], "all int arguments"),
"C03": ("proved", ["C03_resolve_bitrate_least", "C03_error_iff", "C03_round_trip", "C03_monotone", "C03_standard"], "all int arguments"),
"C04": ("proved", ["C04_block_split", "C04_tiling"], "all channel counts and bitrates"),
"C05": ("proved", ["C05_delay", "C05_delay_standard", "C05_macros_agree"], ""),
"C06": ("proved", ["C06_setup_encoder", "C06_setup_decoder"], "sizeof of the structures is a parameter"),
"C07": ("proved", ["C07_static_memory", "C07_not_monotone_above_48k"], "the second theorem records that the macro types are not monotone above 48 kHz"),
"C10": ("proved", ["C10_plain_round_trip", "C11_round_trip", "C10_get_32_undefined"], "frames of at least 4 bytes (the API only accepts 20 and more); fields of 1 to 31 bits, the last theorem shows that 32 is undefined"),
"C11": ("proved", ["C11_round_trip"], "frames of at least 4 bytes; any well-formed models"),
"C12": ("proved", ["C12_writer_in_frame", "C12_plain_keeps_coded"], "any amount of writes, any frame length"),
"C13": ("proved", ["C13_reader_in_frame"], "any content, any frame length"),
"C14": ("partial", ["C14_shift_by_32", "C14_hostile_frame", "C14_reading_defined_partial"], "false at this commit: the first two theorems are counter-examples, the second one with a complete frame of 20 bytes given to the decoder; the last one covers reads of less plain bits than the frame holds"),
"C15": ("proved", ["C15_bits_left_agree", "C15_field_cost", "C15_never_increases"], ""),
"C16": ("proved", ["C16_round_trip", "C16_any_frame"], "field at any point of any frame"),
"C17": ("proved", ["C17_round_trip", "C17_any_frame"], "field at any point of any frame"),
"C18": ("proved", ["C18_round_trip", "C18_any_frame", "C18_weighting"], "data at any point of any frame"),
"C19": ("proved", ["C19_round_trip", "C19_every_index", "C19_distinct", "C19_no_pulse", "C19_shape_round_trip", "C19_shape_every_index", "mcount_recurrence"], "vectors up to 16 values and 10 pulses, the limits of the table"),
"C20": ("proved", ["C20_round_trip", "C20_any_frame"], "data at any point of any frame; the vector indices are those of C19"),
"C40": ("proved", ["C40_pulses", "C40_pulses_any", "C40_analyze", "C40_signs"], "any outcome of the comparisons; hypothesis on the relative rounding error of the projection"),
"C41": ("partial", ["C41_zero_gives_min", "C41_int_max_gives_max_partial", "C41_int_max_not_max"], "false as documented: INT_MAX does not give the maximum at 2.5 ms with 5 channels or more; proved elsewhere"),
"C21": ("proved", ["C21_index_round_trip", "C21_search_range", "C21_range", "C21_strictly_increasing", "C21_injective", "C21_segments"], "any signal, any state of the encoder, any floating point implementation"),
"C22": ("proved", ["C22_synthesis_in_history", "C22_size_overflow"], "any sequence of frames up to 400 bytes; the second theorem shows that a huge number of bytes given for a lost frame overflows"),
"C39": ("partial", ["C39_resample_partial", "C39_analysis_partial", "C39_overflow", "C39_level"], "false at this commit: the rounding after the high-pass filter overflows, C39_overflow gives the signal; all the other operations and accesses are proved, and the whole analysis for any signal that does not exceed 15600, over any number of frames"),
"C23": ("proved", ["C23_normal_round_trip", "C23_lsb_round_trip", "C23_modes"], "at any point of any frame that fits; same number of bits given to the LSB stage on both sides, see C15 and C25"),
"C24": ("proved", ["C24_residual", "C24_float_sync", "C24_float", "C24_float_desync"], "error bounds in exact arithmetic; with the rounding of binary32 the bits are those written in normal mode, and the last theorem shows that this fails in high-resolution mode"),
"C43": ("proved", ["C23_normal_round_trip", "C23_lsb_round_trip"], "seed of the final spectrum, in both modes"),
"C42": ("proved", ["C42_filter_equation", "C42_fade_out", "C42_cross_fade", "C42_inactive"], "exact arithmetic for the equations; C42_inactive in any arithmetic"),
"C25": ("proved", ["C25_round_trip", "C25_error"], "any configuration, side information and spectrum with at least one coded pair; frames without coefficient are C26"),
"C26": ("partial", ["C26_silent_partial", "C26_digital_silence_partial", "C26_not_silent"], "false in general at this commit: the last theorem is a counter-example with a TNS filter; proved for frames without TNS filter, of 20 bytes or more"),
"C27": ("proved", ["C27_any_frame", "C27_accepted_defined"], "any byte string of a valid size, any configuration"),
"C29": ("proved", ["C29_disabled", "C29_detects", "C29_history", "C29_constant"], "any 16-bit samples, any number of frames"),
"C30": ("proved", ["C30_noise_visits_all", "C30_noise_period", "C30_plc_visits_all", "C30_plc_period", "C30_no_overflow"], ""),
"C31": ("proved", ["C31_burst", "C31_schedule", "C31_decreasing", "C31_rounded", "C31_float"], "any arithmetic for the structure; closed form and strict decrease in exact arithmetic; decrease in binary32"),
"C44": ("proved", ["C44_filled", "C44_estimated", "C44_frame"], "filling with any arithmetic; estimation and end to end statement in exact arithmetic"),
"C45": ("partial", ["C45_counter_overflow", "C45_defined_partial"], "false at this commit: the first theorem is a counter-example; the second one covers bursts of less than 2^31 - 1 losses"),
"C28": ("proved", ["C28_filter_inverse", "C28_untouched", "C28_analyze_defined", "C28_synthesize_defined", "C28_round_trip"], "inversion in exact arithmetic, the rest in any arithmetic"),
"C38": ("proved", ["C38_tables", "C38_written_in_budget", "C38_count", "C38_tns", "C38_no_overflow"], "costs compared with the real logarithm; spectra of any values and any positive budget, or no budget"),
"C46": ("partial", ["C46_refuted", "C46_refuted_from_analysis", "C46_fits_partial", "C46_analysis_partial"], "false at this commit: the first theorems are a counter-example, selected by the gain estimation of the first frame, and refused by the decoder whatever the compiler; the last ones hold when the number of symbols is within 44 times the number of spare bits"),
"C47": ("proved", ["C47_decision", "C47_adjust"], "any floating point implementation; when the analysis is defined, see C48"),
"C48": ("partial", ["C48_refuted", "C48_refuted_48k", "C48_slope", "C48_defined_partial", "C48_bounds", "C48_offset"], "false at this commit in high-resolution mode: the first theorems are counter-examples; the partial theorem gives the levels below which it holds, 143 dB up to 32 kHz"),
"C32": ("partial", ["C32_store_s16_partial", "C32_store_s24_partial", "C32_half_exception", "C32_undefined", "C32_load_s16", "C32_load_s24", "C32_packed", "C32_packed_store", "C32_interleave", "C32_interleave_packed"], "false at this commit for two samples next to one half and for samples beyond the range of int, given by the exception theorems; proved for all the others, in binary32 arithmetic; packing and interleaving proved in full"),
"C33": ("partial", ["C33_refuted", "C33_wrap", "C33_float_partial", "C33_load"], "false at this commit: the first theorems give the range of samples that come out at full scale or overflow; proved out of this range"),
"C37": ("proved", ["C37_fft_is_dft", "C37_tables", "C37_tables_missing", "C37_twiddles_bf2", "C37_twiddles_bf3", "C37_rotations", "C37_constants"], "transform in exact arithmetic with exact twiddle factors; each entry of the tables of the code within 1.2e-8 of them"),
"C49": ("proved", ["C49_forward_safe", "C49_inverse_safe", "C49_spectrum"], "accesses in any arithmetic with the tables of the code; values in exact arithmetic with exact twiddle factors"),
"C50": ("proved", ["C50_reconstruction", "C50_exact", "C50_windows", "C50_code_windows", "C50_delay"], "exact arithmetic and exact twiddle factors, windows of the code"),
"C51": ("proved", ["C51_safe", "C51_energy", "C51_silent"], "accesses in any arithmetic, values in exact arithmetic"),
"C52": ("proved", ["C52_safe", "C52_bandwidth", "C52_keeps_signal"], "accesses and range in any arithmetic, decision in exact arithmetic"),
"C53": ("proved", ["C53_synthesis", "C53_gain", "C53_inverse"], "accesses and structure in any arithmetic; values in the real numbers with the exact exponential"),
"C54": ("proved", ["C54_analysis", "C54_transparent", "candidatesOk_rounds", "candidatesOk_real"], "any arithmetic in which the candidates have their pulses (C40), any functions sqrt, exp2, log2; the inversion in the real numbers"),
"C55": ("proved", ["C55_zero_mean", "C55_level", "C55_attack", "C55_nearest", "C55_least_error", "C55_dct"], "real numbers with the exact logarithm; the searches with any distances that have an order"),
"C08": ("proved", ["C08_window"], "any sequence of calls on a decoder just set up"),
"C56": ("proved", ["C56_defined", "C56_no_ub"], "exact condition; the conversions to the output format are C32 and C33, the value of the shift by 32 of C14 is a parameter"),
"C57": ("proved", ["C57_uninitialised"], "the whole state, not only the samples"),
"C58": ("proved", ["C58_resync"], ""),
"C09": ("proved", ["C09_encode_rejected", "C09_encode_accepted", "C09_decode_rejected", "C09_decode_accepted", "C09_decode_reject_iff"], "encoder and decoder, after any sequence of calls"),
"C59": ("partial", ["C59_encode_partial", "C59_level_partial"], "exact condition of undefinedness; missing: the two computations that can overflow, refuted by C39 and C48; the first one never does for samples that do not exceed 15600"),
"C60": ("proved", ["C60_deterministic"], "any pair of sequences with the same samples; the whole state, not only the frames"),
"C34": ("proved", ["C34_header", "C34_header_supported", "C34_file", "C34_read_fits", "C34_read_undefined", "C34_negative_undefined"], "any configuration, any sequence of blocks; the two last theorems give the files, and the counts, on which the functions are undefined"),
"C35": ("partial", ["C35_chunks_skipped_partial", "C35_round_trip", "C35_write_defined", "C35_defined", "C35_format_size_refuted", "C35_padding_refuted"], "the round trip is proved; the skipping of chunks is false at this commit for format chunks of other sizes than 16 and 40 bytes and for chunks of odd size: the refuted theorems; proved for the others"),
"C36": ("partial", ["C36_encode", "C36_encode_run", "C36_decode_partial", "C36_decode_run_partial", "C36_new_encoder", "C36_new_decoder", "C36_lost_undefined", "C36_new_negative_undefined", "C36_decode_int32_refuted", "C36_decode_int32_overlap"], "proved for the encoder and, for the decoder, for all the formats but int32_t; false at this commit for the int32_t output, for a lost block of several channels with its size, and for a negative sr_pcm_hz: the last four theorems"),
"C61": ("partial", ["C61_gain", "C61_magnitudes_partial", "C61_level_refuted"], "gain proved; the bound of the magnitudes is false at this commit above a level of the spectrum (counter-example refused by the decoder), proved up to this level"),
"C62": ("partial", ["C62_frame", "C62_accepted_partial", "C62_level_partial"], "the frame is proved to be the one of a valid side information and of the quantised spectrum, for any history; the acceptance is false in general at this commit (C46, C61, C26), proved for frames satisfying the conditions named Fits, any history of the decoder"),
"C63": ("partial", ["C63_encode", "C63_decode", "C63_enough_blocks", "C63_round_trip", "C63_encode_undefined", "C63_decode_short", "C63_refused_indeterminate"], "proved for any codec, file and rates up to 2147.48 s of audio and when the frames are accepted; the last three theorems refute the rest of the claim"),
"C64": ("partial", ["C64_encode_partial", "C64_encode_refused", "C64_decode", "C64_decode_refused", "C64_frame_bytes", "C64_level_mono", "C64_short_refuted", "C64_level_refuted", "C64_frame_bytes_refuted"], "proved for samples of 16 and 24 bits, and for floating point samples that fill the frame of one channel at a mean level under 2; the refuted theorems give the cases where the documentation is wrong"),
"C65": ("partial", ["C65_simd32", "C65_neon_partial", "C65_neon_dot_partial", "C65_neon_wraps", "ltpfAnalyseK_generic"], "SIMD32: proved for any signal; Neon: proved for any signal that does not exceed 15600; C65_neon_wraps refutes the equality of neon_dot and dot in general"),
"C66": ("partial", ["C66_exp2", "C66_frexp", "C66_log2", "C66_db_square", "C66_db", "C66_db_mono", "C66_exp2_undefined", "C66_log2_subnormal", "C66_log2_one"], "proved on all the operands of the documented ranges with two's complement shifts, normal operands and an error of 1.8e-4 for the logarithm; the last three theorems refute the rest of the documentation"),
"C67": ("proved", ["C67_fft_is_dft", "C67_forward_same", "C67_inverse_same", "C67_spectrum", "C67_frame_same", "C67_forward_safe", "C67_inverse_safe", "C67_odd_length"], "equality in exact arithmetic, accesses in any arithmetic; the differences of rounding between both codes are bounded by C73"),
"C68": ("proved", ["C68_fft", "C68_forward", "C68_inverse", "sqrt_exists"], "operations rounded to binary32 one by one, in the order of the code, without contraction nor reassociation; the square root of the scaling is a parameter within half a unit in the last place"),
"C69": ("proved", ["C69_bounded", "C69_silence", "C69_forget", "C69_floor"], "single precision with unbounded exponents for the bound; any arithmetic where the operations on zeros give zero for the reset; exact arithmetic for the noise floor"),
"C70": ("partial", ["C70_optimal", "C70_lattice", "C70_frame", "C70_corr2", "C70_corr3", "C70_quantised", "C70_idempotent", "C70_order", "C70_stable_partial", "C70_weak", "C70_refuted", "C70_refuted_f32"], "exact arithmetic; the stability is proved when the energies of the prediction errors are positive, which holds for weak correlations, and refuted in general, in exact arithmetic and in single precision"),
"C71": ("proved", ["C71_elc3", "C71_elc3_refused", "C71_elc3_undefined_iff", "C71_elc3_refuted", "C71_dlc3", "C71_dlc3_refused", "C71_atoi", "C71_duration", "C71_duration_accepted", "C71_elc3_main", "C71_dlc3_main"], "numbers in hexadecimal, infinities and NaN of strtod are not modelled (counted as not representable); the command lines that are undefined are characterised for elc3, the loop of dlc3 is the same"),
"C72": ("proved", ["C72_encoder", "C72_encoder_run", "C72_decoder"], "any arithmetic; the whole state is compared"),
"C73": ("proved", ["C73_fft", "C73_forward", "C73_inverse", "C73_forward_agree", "C73_inverse_agree"], "operations rounded to binary32, the fused ones once; the square root of the scaling is a parameter within half a unit in the last place, the same on both processors"),
"C74": ("proved", ["C74_stable"], "operations rounded to 24 bits with unbounded exponents, or exact"),
"C75": ("proved", ["C75_tns_thresholds", "C75_tns_values", "C75_dct", "C75_tilt", "C75_gain", "C75_lag_window", "C75_resample", "C75_hp50", "C75_interpolate", "C75_correlation", "C75_post_filter"], "the interpolation of the correlation in exact arithmetic; the prototypes of the resampling and of the interpolations are given by their tables, their frequency responses are not stated"),
"C76": ("proved", ["C76_detect", "C76_refine", "C76_resample_6k4", "C76_activation", "C76_hysteresis"], "any rounding of the operations (monotone for the activation), any function for the square root"),
"C77": ("proved", ["C77_frames", "C77_boundaries", "C77_encoder"], "when the analysis is defined (C39); the high-pass filter is the function hpRun, of the recursion given by C75_hp50"),
"C78": ("proved", ["C78_spectrum", "C78_real"], "exact arithmetic over any ordered field, with the tables of the code; the power of two of the platform has an exact inverse; the condition Fits is the one of C62, not ensured by the analysis (C46, C61)"),
"C79": ("proved", ["C79_finest", "C79_minimum", "C79_delta", "C79_decision"], "the conversion to decibels and the square root are parameters of the arithmetic (C66); the overflow of the int sums gives no result in the model"),
"C80": ("proved", ["C80_truncation", "C80_full", "C80_analysis", "C80_analysis_lsb", "C80_zero"], "a budget of zero disables the limit (C80_zero, a defect of the code)"),
"C81": ("proved", ["C81_search", "C81_distance", "C81_closest", "C81_signs"], ""),
"C82": ("proved", ["C82_formula"], "real arithmetic; with attack see C55_attack"),
"C83": ("partial", ["C83_correlation_partial", "C83_refuted"], "holds when the samples at 12.8 kHz are under 32661 in magnitude; at full scale the interpolation wraps in 16 bits (C83_refuted)"),
"C84": ("proved", ["C84_overlap", "C84_round_trip", "C84_samples", "C84_real"], "the transforms in binary32; the whole codec on an ordered field and on the reals, for frames where the rate control keeps all coefficients and the post-filter is off"),
"C85": ("proved", ["C85_bounded", "C85_state", "C85_platform"], "any rounding with the accuracy of binary32 up to 2^126, arbitrary above; sqrtf is assumed within half a unit, lc3_exp2f is the one of C66"),
"C86": ("partial", ["C86_output_partial", "C86_refuted"], "a frame of 20 bytes at 8 kHz makes the conversion to int of the 16 and 24-bit formats undefined (C86_refuted); what holds covers every sample under 2^31 - 129 after scaling, and the float format without limit of magnitude"),
"C87": ("proved", ["C87_fade", "C87_level", "C87_silent"], "single precision by its bound of error (Single); the call must be the second of the burst or a later one, the first one mixes the overlap of the last good frame"),
"C88": ("proved", ["C88_replay"], "any arithmetic; from the second loss of the burst, the first one overlaps the frame accepted and may be post-filtered"),
"C89": ("partial", ["C89_float_partial", "C89_refuted", "long_loss"], "false at this commit: long_loss runs a decoder on a frame and 556 losses, the last one is written at full scale; what holds covers the samples out of the interval from 2^-126 to 2^-112"),
"C90": ("proved", ["C90_silence", "C90_frame", "C90_formats"], "arithmetic rounded as binary32, with or without the limits of the exponent, or exact; the calls that return 0"),
"C91": ("proved", ["C91_encoder", "C91_stream"], "arithmetic rounded as binary32, with or without the limits of the exponent, or exact; the functions of the library constrained by GainSane, met by floatMath"),
"C92": ("partial", ["C92_encode_partial", "C92_sample_partial", "C92_decode", "C92_output_partial", "C92_refuted", "square_pitch"], "false at this commit between float and 24 bits for negative samples that are not integers on 16 bits: C92_refuted gives a signal whose third frame differs; proved for all the others, and for every pair of integer formats; output out of the exceptions of C32 and C33"),
"C93": ("proved", ["C93_encoder"], "for any number of silent frames and any later calls, in single precision (RoundF), by the invariant that silence keeps the state of the setup: detector, pitch lag, correlations, filters, rate control, overlap and histories; the buffer of the samples is overwritten"),
"C94": ("proved", ["C94_resume", "rotated_step", "rotated_run"], "simulation between two decoders at different positions of their circular memories, through the post-filter, in any arithmetic; the number of common frames is derived from the length of the history; the number of losses before fixes the position in the pseudo-random sequence"),
"C95": ("proved", ["C95_decoder"], "for any number of silent frames and any later calls, in single precision (RoundF): the memory of the decoder remains null, at another position, and the simulation of C94 applies; with C93, silence before a signal has no effect from end to end; frames lost among the silence move the pseudo-random sequence, and the later frames must then be accepted"),
"C96": ("proved", ["C96_corrupted", "C96_missing"], "for all sequences of calls that differ only by the way the frames are missing, UB (the counter of losses after 2^31 calls) included: the same values returned and the same samples; C96_missing: the calls that return 1 are exactly these ones"),
"C97": ("partial", ["C97_refuted", "C97_pause_partial"], "refuted with the pitch analysis: the high-pass filter rounds down and keeps an offset for ever, whatever the length of the pause, and a square wave after it has a frame without the pitch that a new encoder finds. Proved with the pitch analysis disabled (lc3_encoder_disable_ltpf): 7 frames of digital silence are enough, in all the configurations, of sizes where the detector of attacks runs if it runs in the configuration"),
"C98": ("proved", ["C98_encoder", "C98_decoder"], "by induction on the calls, for every state, reachable or not, UB included: the run without the calls of sizes out of the limits is the run where the values -1 are removed, with the same final state and memory"),
"C99": ("proved", ["C99_disable"], "by induction on the calls, from every state: the run after lc3_encoder_disable_ltpf gives the same values and frames, when the frame data of the calls have no pitch"),
"C100": ("proved", ["C100_dry", "C100_after"], "by induction on the calls, keeping the state of the post-filter inactive: the run gives the values and the samples of a synthesis written without the post-filter; in the middle of a stream, one call that does not activate the filter is enough (C100_after)"),
"C101": ("proved", ["C101_dry", "C101_pitch"], "by induction on the calls: the run in high-resolution mode is the one of the synthesis written without the post-filter, and two streams that differ only by the pitch give equal runs, with equal states"),
"C102": ("partial", ["C102_off_partial"], "the frame is read back without pitch (C62) and the post-filter is then inert (C100), for streams of any length with losses; missing: the frames whose bits do not fit in their size (Fits, not ensured by the encoder, see C46 and C61)"),
}
