{
 "claims": [
  {
   "property": "C01",
   "status": "proved",
   "theorems": [
    "LC3.C01_frame_samples_exact",
    "LC3.C01_frame_samples_error",
    "LC3.C01_frame_samples_standard"
   ],
   "note": "all int arguments"
  },
  {
   "property": "C02",
   "status": "proved",
   "theorems": [
    "LC3.C02_valid",
    "LC3.C02_error_iff",
    "LC3.C02_monotone",
    "LC3.C02_no_overflow",
    "LC3.C02_standard"
   ],
   "note": "all int arguments"
  },
  {
   "property": "C03",
   "status": "proved",
   "theorems": [
    "LC3.C03_resolve_bitrate_least",
    "LC3.C03_error_iff",
    "LC3.C03_round_trip",
    "LC3.C03_monotone",
    "LC3.C03_standard"
   ],
   "note": "all int arguments"
  },
  {
   "property": "C04",
   "status": "proved",
   "theorems": [
    "LC3.C04_block_split",
    "LC3.C04_tiling"
   ],
   "note": "all channel counts and bitrates"
  },
  {
   "property": "C05",
   "status": "proved",
   "theorems": [
    "LC3.C05_delay",
    "LC3.C05_delay_standard",
    "LC3.C05_macros_agree"
   ],
   "note": ""
  },
  {
   "property": "C06",
   "status": "proved",
   "theorems": [
    "LC3.C06_setup_encoder",
    "LC3.C06_setup_decoder"
   ],
   "note": "sizeof of the structures is a parameter"
  },
  {
   "property": "C07",
   "status": "proved",
   "theorems": [
    "LC3.C07_static_memory",
    "LC3.C07_not_monotone_above_48k"
   ],
   "note": "the second theorem records that the macro types are not monotone above 48 kHz"
  },
  {
   "property": "C08",
   "status": "proved",
   "theorems": [
    "LC3.C08_window"
   ],
   "note": "any sequence of calls on a decoder just set up"
  },
  {
   "property": "C09",
   "status": "proved",
   "theorems": [
    "LC3.C09_encode_rejected",
    "LC3.C09_encode_accepted",
    "LC3.C09_decode_rejected",
    "LC3.C09_decode_accepted",
    "LC3.C09_decode_reject_iff"
   ],
   "note": "encoder and decoder, after any sequence of calls"
  },
  {
   "property": "C10",
   "status": "proved",
   "theorems": [
    "LC3.C10_plain_round_trip",
    "LC3.C11_round_trip",
    "LC3.C10_get_32_undefined"
   ],
   "note": "frames of at least 4 bytes (the API only accepts 20 and more); fields of 1 to 31 bits, the last theorem shows that 32 is undefined"
  },
  {
   "property": "C11",
   "status": "proved",
   "theorems": [
    "LC3.C11_round_trip"
   ],
   "note": "frames of at least 4 bytes; any well-formed models"
  },
  {
   "property": "C12",
   "status": "proved",
   "theorems": [
    "LC3.C12_writer_in_frame",
    "LC3.C12_plain_keeps_coded"
   ],
   "note": "any amount of writes, any frame length"
  },
  {
   "property": "C13",
   "status": "proved",
   "theorems": [
    "LC3.C13_reader_in_frame"
   ],
   "note": "any content, any frame length"
  },
  {
   "property": "C14",
   "status": "partial",
   "theorems": [
    "LC3.C14_shift_by_32",
    "LC3.C14_hostile_frame",
    "LC3.C14_reading_defined_partial"
   ],
   "note": "false at this commit: the first two theorems are counter-examples, the second one with a complete frame of 20 bytes given to the decoder; the last one covers reads of less plain bits than the frame holds"
  },
  {
   "property": "C15",
   "status": "proved",
   "theorems": [
    "LC3.C15_bits_left_agree",
    "LC3.C15_field_cost",
    "LC3.C15_never_increases"
   ],
   "note": ""
  },
  {
   "property": "C16",
   "status": "proved",
   "theorems": [
    "LC3.C16_round_trip",
    "LC3.C16_any_frame"
   ],
   "note": "field at any point of any frame"
  },
  {
   "property": "C17",
   "status": "proved",
   "theorems": [
    "LC3.C17_round_trip",
    "LC3.C17_any_frame"
   ],
   "note": "field at any point of any frame"
  },
  {
   "property": "C18",
   "status": "proved",
   "theorems": [
    "LC3.C18_round_trip",
    "LC3.C18_any_frame",
    "LC3.C18_weighting"
   ],
   "note": "data at any point of any frame"
  },
  {
   "property": "C19",
   "status": "proved",
   "theorems": [
    "LC3.C19_round_trip",
    "LC3.C19_every_index",
    "LC3.C19_distinct",
    "LC3.C19_no_pulse",
    "LC3.C19_shape_round_trip",
    "LC3.C19_shape_every_index",
    "LC3.mcount_recurrence"
   ],
   "note": "vectors up to 16 values and 10 pulses, the limits of the table"
  },
  {
   "property": "C20",
   "status": "proved",
   "theorems": [
    "LC3.C20_round_trip",
    "LC3.C20_any_frame"
   ],
   "note": "data at any point of any frame; the vector indices are those of C19"
  },
  {
   "property": "C21",
   "status": "proved",
   "theorems": [
    "LC3.C21_index_round_trip",
    "LC3.C21_search_range",
    "LC3.C21_range",
    "LC3.C21_strictly_increasing",
    "LC3.C21_injective",
    "LC3.C21_segments"
   ],
   "note": "any signal, any state of the encoder, any floating point implementation"
  },
  {
   "property": "C22",
   "status": "proved",
   "theorems": [
    "LC3.C22_synthesis_in_history",
    "LC3.C22_size_overflow"
   ],
   "note": "any sequence of frames up to 400 bytes; the second theorem shows that a huge number of bytes given for a lost frame overflows"
  },
  {
   "property": "C23",
   "status": "proved",
   "theorems": [
    "LC3.C23_normal_round_trip",
    "LC3.C23_lsb_round_trip",
    "LC3.C23_modes"
   ],
   "note": "at any point of any frame that fits; same number of bits given to the LSB stage on both sides, see C15 and C25"
  },
  {
   "property": "C24",
   "status": "proved",
   "theorems": [
    "LC3.C24_residual",
    "LC3.C24_float_sync",
    "LC3.C24_float",
    "LC3.C24_float_desync"
   ],
   "note": "error bounds in exact arithmetic; with the rounding of binary32 the bits are those written in normal mode, and the last theorem shows that this fails in high-resolution mode"
  },
  {
   "property": "C25",
   "status": "proved",
   "theorems": [
    "LC3.C25_round_trip",
    "LC3.C25_error"
   ],
   "note": "any configuration, side information and spectrum with at least one coded pair; frames without coefficient are C26"
  },
  {
   "property": "C26",
   "status": "partial",
   "theorems": [
    "LC3.C26_silent_partial",
    "LC3.C26_digital_silence_partial",
    "LC3.C26_not_silent"
   ],
   "note": "false in general at this commit: the last theorem is a counter-example with a TNS filter; proved for frames without TNS filter, of 20 bytes or more"
  },
  {
   "property": "C27",
   "status": "proved",
   "theorems": [
    "LC3.C27_any_frame",
    "LC3.C27_accepted_defined"
   ],
   "note": "any byte string of a valid size, any configuration"
  },
  {
   "property": "C28",
   "status": "proved",
   "theorems": [
    "LC3.C28_filter_inverse",
    "LC3.C28_untouched",
    "LC3.C28_analyze_defined",
    "LC3.C28_synthesize_defined",
    "LC3.C28_round_trip"
   ],
   "note": "inversion in exact arithmetic, the rest in any arithmetic"
  },
  {
   "property": "C29",
   "status": "proved",
   "theorems": [
    "LC3.C29_disabled",
    "LC3.C29_detects",
    "LC3.C29_history",
    "LC3.C29_constant"
   ],
   "note": "any 16-bit samples, any number of frames"
  },
  {
   "property": "C30",
   "status": "proved",
   "theorems": [
    "LC3.C30_noise_visits_all",
    "LC3.C30_noise_period",
    "LC3.C30_plc_visits_all",
    "LC3.C30_plc_period",
    "LC3.C30_no_overflow"
   ],
   "note": ""
  },
  {
   "property": "C31",
   "status": "proved",
   "theorems": [
    "LC3.C31_burst",
    "LC3.C31_schedule",
    "LC3.C31_decreasing",
    "LC3.C31_rounded",
    "LC3.C31_float"
   ],
   "note": "any arithmetic for the structure; closed form and strict decrease in exact arithmetic; decrease in binary32"
  },
  {
   "property": "C32",
   "status": "partial",
   "theorems": [
    "LC3.C32_store_s16_partial",
    "LC3.C32_store_s24_partial",
    "LC3.C32_half_exception",
    "LC3.C32_undefined",
    "LC3.C32_load_s16",
    "LC3.C32_load_s24",
    "LC3.C32_packed",
    "LC3.C32_packed_store",
    "LC3.C32_interleave",
    "LC3.C32_interleave_packed"
   ],
   "note": "false at this commit for two samples next to one half and for samples beyond the range of int, given by the exception theorems; proved for all the others, in binary32 arithmetic; packing and interleaving proved in full"
  },
  {
   "property": "C33",
   "status": "partial",
   "theorems": [
    "LC3.C33_refuted",
    "LC3.C33_wrap",
    "LC3.C33_float_partial",
    "LC3.C33_load"
   ],
   "note": "false at this commit: the first theorems give the range of samples that come out at full scale or overflow; proved out of this range"
  },
  {
   "property": "C34",
   "status": "proved",
   "theorems": [
    "LC3.C34_header",
    "LC3.C34_header_supported",
    "LC3.C34_file",
    "LC3.C34_read_fits",
    "LC3.C34_read_undefined",
    "LC3.C34_negative_undefined"
   ],
   "note": "any configuration, any sequence of blocks; the two last theorems give the files, and the counts, on which the functions are undefined"
  },
  {
   "property": "C35",
   "status": "partial",
   "theorems": [
    "LC3.C35_chunks_skipped_partial",
    "LC3.C35_round_trip",
    "LC3.C35_write_defined",
    "LC3.C35_defined",
    "LC3.C35_format_size_refuted",
    "LC3.C35_padding_refuted"
   ],
   "note": "the round trip is proved; the skipping of chunks is false at this commit for format chunks of other sizes than 16 and 40 bytes and for chunks of odd size: the refuted theorems; proved for the others"
  },
  {
   "property": "C36",
   "status": "partial",
   "theorems": [
    "LC3.C36_encode",
    "LC3.C36_encode_run",
    "LC3.C36_decode_partial",
    "LC3.C36_decode_run_partial",
    "LC3.C36_new_encoder",
    "LC3.C36_new_decoder",
    "LC3.C36_lost_undefined",
    "LC3.C36_new_negative_undefined",
    "LC3.C36_decode_int32_refuted",
    "LC3.C36_decode_int32_overlap"
   ],
   "note": "proved for the encoder and, for the decoder, for all the formats but int32_t; false at this commit for the int32_t output, for a lost block of several channels with its size, and for a negative sr_pcm_hz: the last four theorems"
  },
  {
   "property": "C37",
   "status": "proved",
   "theorems": [
    "LC3.C37_fft_is_dft",
    "LC3.C37_tables",
    "LC3.C37_tables_missing",
    "LC3.C37_twiddles_bf2",
    "LC3.C37_twiddles_bf3",
    "LC3.C37_rotations",
    "LC3.C37_constants"
   ],
   "note": "transform in exact arithmetic with exact twiddle factors; each entry of the tables of the code within 1.2e-8 of them"
  },
  {
   "property": "C38",
   "status": "proved",
   "theorems": [
    "LC3.C38_tables",
    "LC3.C38_written_in_budget",
    "LC3.C38_count",
    "LC3.C38_tns",
    "LC3.C38_no_overflow"
   ],
   "note": "costs compared with the real logarithm; spectra of any values and any positive budget, or no budget"
  },
  {
   "property": "C39",
   "status": "partial",
   "theorems": [
    "LC3.C39_resample_partial",
    "LC3.C39_analysis_partial",
    "LC3.C39_overflow",
    "LC3.C39_level"
   ],
   "note": "false at this commit: the rounding after the high-pass filter overflows, C39_overflow gives the signal; all the other operations and accesses are proved, and the whole analysis for any signal that does not exceed 15600, over any number of frames"
  },
  {
   "property": "C40",
   "status": "proved",
   "theorems": [
    "LC3.C40_pulses",
    "LC3.C40_pulses_any",
    "LC3.C40_analyze",
    "LC3.C40_signs"
   ],
   "note": "any outcome of the comparisons; hypothesis on the relative rounding error of the projection"
  },
  {
   "property": "C41",
   "status": "partial",
   "theorems": [
    "LC3.C41_zero_gives_min",
    "LC3.C41_int_max_gives_max_partial",
    "LC3.C41_int_max_not_max"
   ],
   "note": "false as documented: INT_MAX does not give the maximum at 2.5 ms with 5 channels or more; proved elsewhere"
  },
  {
   "property": "C42",
   "status": "proved",
   "theorems": [
    "LC3.C42_filter_equation",
    "LC3.C42_fade_out",
    "LC3.C42_cross_fade",
    "LC3.C42_inactive"
   ],
   "note": "exact arithmetic for the equations; C42_inactive in any arithmetic"
  },
  {
   "property": "C43",
   "status": "proved",
   "theorems": [
    "LC3.C23_normal_round_trip",
    "LC3.C23_lsb_round_trip"
   ],
   "note": "seed of the final spectrum, in both modes"
  },
  {
   "property": "C44",
   "status": "proved",
   "theorems": [
    "LC3.C44_filled",
    "LC3.C44_estimated",
    "LC3.C44_frame"
   ],
   "note": "filling with any arithmetic; estimation and end to end statement in exact arithmetic"
  },
  {
   "property": "C45",
   "status": "partial",
   "theorems": [
    "LC3.C45_counter_overflow",
    "LC3.C45_defined_partial"
   ],
   "note": "false at this commit: the first theorem is a counter-example; the second one covers bursts of less than 2^31 - 1 losses"
  },
  {
   "property": "C46",
   "status": "partial",
   "theorems": [
    "LC3.C46_refuted",
    "LC3.C46_refuted_from_analysis",
    "LC3.C46_fits_partial",
    "LC3.C46_analysis_partial"
   ],
   "note": "false at this commit: the first theorems are a counter-example, selected by the gain estimation of the first frame, and refused by the decoder whatever the compiler; the last ones hold when the number of symbols is within 44 times the number of spare bits"
  },
  {
   "property": "C47",
   "status": "proved",
   "theorems": [
    "LC3.C47_decision",
    "LC3.C47_adjust"
   ],
   "note": "any floating point implementation; when the analysis is defined, see C48"
  },
  {
   "property": "C48",
   "status": "partial",
   "theorems": [
    "LC3.C48_refuted",
    "LC3.C48_refuted_48k",
    "LC3.C48_slope",
    "LC3.C48_defined_partial",
    "LC3.C48_bounds",
    "LC3.C48_offset"
   ],
   "note": "false at this commit in high-resolution mode: the first theorems are counter-examples; the partial theorem gives the levels below which it holds, 143 dB up to 32 kHz"
  },
  {
   "property": "C49",
   "status": "proved",
   "theorems": [
    "LC3.C49_forward_safe",
    "LC3.C49_inverse_safe",
    "LC3.C49_spectrum"
   ],
   "note": "accesses in any arithmetic with the tables of the code; values in exact arithmetic with exact twiddle factors"
  },
  {
   "property": "C50",
   "status": "proved",
   "theorems": [
    "LC3.C50_reconstruction",
    "LC3.C50_exact",
    "LC3.C50_windows",
    "LC3.C50_code_windows",
    "LC3.C50_delay"
   ],
   "note": "exact arithmetic and exact twiddle factors, windows of the code"
  },
  {
   "property": "C51",
   "status": "proved",
   "theorems": [
    "LC3.C51_safe",
    "LC3.C51_energy",
    "LC3.C51_silent"
   ],
   "note": "accesses in any arithmetic, values in exact arithmetic"
  },
  {
   "property": "C52",
   "status": "proved",
   "theorems": [
    "LC3.C52_safe",
    "LC3.C52_bandwidth",
    "LC3.C52_keeps_signal"
   ],
   "note": "accesses and range in any arithmetic, decision in exact arithmetic"
  },
  {
   "property": "C53",
   "status": "proved",
   "theorems": [
    "LC3.C53_synthesis",
    "LC3.C53_gain",
    "LC3.C53_inverse"
   ],
   "note": "accesses and structure in any arithmetic; values in the real numbers with the exact exponential"
  },
  {
   "property": "C54",
   "status": "proved",
   "theorems": [
    "LC3.C54_analysis",
    "LC3.C54_transparent",
    "LC3.candidatesOk_rounds",
    "LC3.candidatesOk_real"
   ],
   "note": "any arithmetic in which the candidates have their pulses (C40), any functions sqrt, exp2, log2; the inversion in the real numbers"
  },
  {
   "property": "C55",
   "status": "proved",
   "theorems": [
    "LC3.C55_zero_mean",
    "LC3.C55_level",
    "LC3.C55_attack",
    "LC3.C55_nearest",
    "LC3.C55_least_error",
    "LC3.C55_dct"
   ],
   "note": "real numbers with the exact logarithm; the searches with any distances that have an order"
  },
  {
   "property": "C56",
   "status": "proved",
   "theorems": [
    "LC3.C56_defined",
    "LC3.C56_no_ub"
   ],
   "note": "exact condition; the conversions to the output format are C32 and C33, the value of the shift by 32 of C14 is a parameter"
  },
  {
   "property": "C57",
   "status": "proved",
   "theorems": [
    "LC3.C57_uninitialised"
   ],
   "note": "the whole state, not only the samples"
  },
  {
   "property": "C58",
   "status": "proved",
   "theorems": [
    "LC3.C58_resync"
   ],
   "note": ""
  },
  {
   "property": "C59",
   "status": "partial",
   "theorems": [
    "LC3.C59_encode_partial",
    "LC3.C59_level_partial"
   ],
   "note": "exact condition of undefinedness; missing: the two computations that can overflow, refuted by C39 and C48; the first one never does for samples that do not exceed 15600"
  },
  {
   "property": "C60",
   "status": "proved",
   "theorems": [
    "LC3.C60_deterministic"
   ],
   "note": "any pair of sequences with the same samples; the whole state, not only the frames"
  },
  {
   "property": "C61",
   "status": "partial",
   "theorems": [
    "LC3.C61_gain",
    "LC3.C61_magnitudes_partial",
    "LC3.C61_level_refuted"
   ],
   "note": "gain proved; the bound of the magnitudes is false at this commit above a level of the spectrum (counter-example refused by the decoder), proved up to this level"
  },
  {
   "property": "C62",
   "status": "partial",
   "theorems": [
    "LC3.C62_frame",
    "LC3.C62_accepted_partial",
    "LC3.C62_level_partial"
   ],
   "note": "the frame is proved to be the one of a valid side information and of the quantised spectrum, for any history; the acceptance is false in general at this commit (C46, C61, C26), proved for frames satisfying the conditions named Fits, any history of the decoder"
  },
  {
   "property": "C63",
   "status": "partial",
   "theorems": [
    "LC3.C63_encode",
    "LC3.C63_decode",
    "LC3.C63_enough_blocks",
    "LC3.C63_round_trip",
    "LC3.C63_encode_undefined",
    "LC3.C63_decode_short",
    "LC3.C63_refused_indeterminate"
   ],
   "note": "proved for any codec, file and rates up to 2147.48 s of audio and when the frames are accepted; the last three theorems refute the rest of the claim"
  },
  {
   "property": "C64",
   "status": "partial",
   "theorems": [
    "LC3.C64_encode_partial",
    "LC3.C64_encode_refused",
    "LC3.C64_decode",
    "LC3.C64_decode_refused",
    "LC3.C64_frame_bytes",
    "LC3.C64_level_mono",
    "LC3.C64_short_refuted",
    "LC3.C64_level_refuted",
    "LC3.C64_frame_bytes_refuted"
   ],
   "note": "proved for samples of 16 and 24 bits, and for floating point samples that fill the frame of one channel at a mean level under 2; the refuted theorems give the cases where the documentation is wrong"
  },
  {
   "property": "C65",
   "status": "partial",
   "theorems": [
    "LC3.C65_simd32",
    "LC3.C65_neon_partial",
    "LC3.C65_neon_dot_partial",
    "LC3.C65_neon_wraps",
    "LC3.ltpfAnalyseK_generic"
   ],
   "note": "SIMD32: proved for any signal; Neon: proved for any signal that does not exceed 15600; C65_neon_wraps refutes the equality of neon_dot and dot in general"
  },
  {
   "property": "C66",
   "status": "partial",
   "theorems": [
    "LC3.C66_exp2",
    "LC3.C66_frexp",
    "LC3.C66_log2",
    "LC3.C66_db_square",
    "LC3.C66_db",
    "LC3.C66_db_mono",
    "LC3.C66_exp2_undefined",
    "LC3.C66_log2_subnormal",
    "LC3.C66_log2_one"
   ],
   "note": "proved on all the operands of the documented ranges with two's complement shifts, normal operands and an error of 1.8e-4 for the logarithm; the last three theorems refute the rest of the documentation"
  },
  {
   "property": "C67",
   "status": "proved",
   "theorems": [
    "LC3.C67_fft_is_dft",
    "LC3.C67_forward_same",
    "LC3.C67_inverse_same",
    "LC3.C67_spectrum",
    "LC3.C67_frame_same",
    "LC3.C67_forward_safe",
    "LC3.C67_inverse_safe",
    "LC3.C67_odd_length"
   ],
   "note": "equality in exact arithmetic, accesses in any arithmetic; the differences of rounding between both codes are bounded by C73"
  },
  {
   "property": "C68",
   "status": "proved",
   "theorems": [
    "LC3.C68_fft",
    "LC3.C68_forward",
    "LC3.C68_inverse",
    "LC3.sqrt_exists"
   ],
   "note": "operations rounded to binary32 one by one, in the order of the code, without contraction nor reassociation; the square root of the scaling is a parameter within half a unit in the last place"
  },
  {
   "property": "C69",
   "status": "proved",
   "theorems": [
    "LC3.C69_bounded",
    "LC3.C69_silence",
    "LC3.C69_forget",
    "LC3.C69_floor"
   ],
   "note": "single precision with unbounded exponents for the bound; any arithmetic where the operations on zeros give zero for the reset; exact arithmetic for the noise floor"
  },
  {
   "property": "C70",
   "status": "partial",
   "theorems": [
    "LC3.C70_optimal",
    "LC3.C70_lattice",
    "LC3.C70_frame",
    "LC3.C70_corr2",
    "LC3.C70_corr3",
    "LC3.C70_quantised",
    "LC3.C70_idempotent",
    "LC3.C70_order",
    "LC3.C70_stable_partial",
    "LC3.C70_weak",
    "LC3.C70_refuted",
    "LC3.C70_refuted_f32"
   ],
   "note": "exact arithmetic; the stability is proved when the energies of the prediction errors are positive, which holds for weak correlations, and refuted in general, in exact arithmetic and in single precision"
  },
  {
   "property": "C71",
   "status": "proved",
   "theorems": [
    "LC3.C71_elc3",
    "LC3.C71_elc3_refused",
    "LC3.C71_elc3_undefined_iff",
    "LC3.C71_elc3_refuted",
    "LC3.C71_dlc3",
    "LC3.C71_dlc3_refused",
    "LC3.C71_atoi",
    "LC3.C71_duration",
    "LC3.C71_duration_accepted",
    "LC3.C71_elc3_main",
    "LC3.C71_dlc3_main"
   ],
   "note": "numbers in hexadecimal, infinities and NaN of strtod are not modelled (counted as not representable); the command lines that are undefined are characterised for elc3, the loop of dlc3 is the same"
  },
  {
   "property": "C72",
   "status": "proved",
   "theorems": [
    "LC3.C72_encoder",
    "LC3.C72_encoder_run",
    "LC3.C72_decoder"
   ],
   "note": "any arithmetic; the whole state is compared"
  },
  {
   "property": "C73",
   "status": "proved",
   "theorems": [
    "LC3.C73_fft",
    "LC3.C73_forward",
    "LC3.C73_inverse",
    "LC3.C73_forward_agree",
    "LC3.C73_inverse_agree"
   ],
   "note": "operations rounded to binary32, the fused ones once; the square root of the scaling is a parameter within half a unit in the last place, the same on both processors"
  },
  {
   "property": "C74",
   "status": "proved",
   "theorems": [
    "LC3.C74_stable"
   ],
   "note": "operations rounded to 24 bits with unbounded exponents, or exact"
  },
  {
   "property": "C75",
   "status": "proved",
   "theorems": [
    "LC3.C75_tns_thresholds",
    "LC3.C75_tns_values",
    "LC3.C75_dct",
    "LC3.C75_tilt",
    "LC3.C75_gain",
    "LC3.C75_lag_window",
    "LC3.C75_resample",
    "LC3.C75_hp50",
    "LC3.C75_interpolate",
    "LC3.C75_correlation",
    "LC3.C75_post_filter"
   ],
   "note": "the interpolation of the correlation in exact arithmetic; the prototypes of the resampling and of the interpolations are given by their tables, their frequency responses are not stated"
  },
  {
   "property": "C76",
   "status": "proved",
   "theorems": [
    "LC3.C76_detect",
    "LC3.C76_refine",
    "LC3.C76_resample_6k4",
    "LC3.C76_activation",
    "LC3.C76_hysteresis"
   ],
   "note": "any rounding of the operations (monotone for the activation), any function for the square root"
  },
  {
   "property": "C77",
   "status": "proved",
   "theorems": [
    "LC3.C77_frames",
    "LC3.C77_boundaries",
    "LC3.C77_encoder"
   ],
   "note": "when the analysis is defined (C39); the high-pass filter is the function hpRun, of the recursion given by C75_hp50"
  },
  {
   "property": "C78",
   "status": "proved",
   "theorems": [
    "LC3.C78_spectrum",
    "LC3.C78_real"
   ],
   "note": "exact arithmetic over any ordered field, with the tables of the code; the power of two of the platform has an exact inverse; the condition Fits is the one of C62, not ensured by the analysis (C46, C61)"
  },
  {
   "property": "C79",
   "status": "proved",
   "theorems": [
    "LC3.C79_finest",
    "LC3.C79_minimum",
    "LC3.C79_delta",
    "LC3.C79_decision"
   ],
   "note": "the conversion to decibels and the square root are parameters of the arithmetic (C66); the overflow of the int sums gives no result in the model"
  },
  {
   "property": "C80",
   "status": "proved",
   "theorems": [
    "LC3.C80_truncation",
    "LC3.C80_full",
    "LC3.C80_analysis",
    "LC3.C80_analysis_lsb",
    "LC3.C80_zero"
   ],
   "note": "a budget of zero disables the limit (C80_zero, a defect of the code)"
  },
  {
   "property": "C81",
   "status": "proved",
   "theorems": [
    "LC3.C81_search",
    "LC3.C81_distance",
    "LC3.C81_closest",
    "LC3.C81_signs"
   ],
   "note": ""
  },
  {
   "property": "C82",
   "status": "proved",
   "theorems": [
    "LC3.C82_formula"
   ],
   "note": "real arithmetic; with attack see C55_attack"
  },
  {
   "property": "C83",
   "status": "partial",
   "theorems": [
    "LC3.C83_correlation_partial",
    "LC3.C83_refuted"
   ],
   "note": "holds when the samples at 12.8 kHz are under 32661 in magnitude; at full scale the interpolation wraps in 16 bits (C83_refuted)"
  },
  {
   "property": "C84",
   "status": "proved",
   "theorems": [
    "LC3.C84_overlap",
    "LC3.C84_round_trip",
    "LC3.C84_samples",
    "LC3.C84_real"
   ],
   "note": "the transforms in binary32; the whole codec on an ordered field and on the reals, for frames where the rate control keeps all coefficients and the post-filter is off"
  },
  {
   "property": "C85",
   "status": "proved",
   "theorems": [
    "LC3.C85_bounded",
    "LC3.C85_state",
    "LC3.C85_platform"
   ],
   "note": "any rounding with the accuracy of binary32 up to 2^126, arbitrary above; sqrtf is assumed within half a unit, lc3_exp2f is the one of C66"
  },
  {
   "property": "C86",
   "status": "partial",
   "theorems": [
    "LC3.C86_output_partial",
    "LC3.C86_refuted"
   ],
   "note": "a frame of 20 bytes at 8 kHz makes the conversion to int of the 16 and 24-bit formats undefined (C86_refuted); what holds covers every sample under 2^31 - 129 after scaling, and the float format without limit of magnitude"
  },
  {
   "property": "C87",
   "status": "proved",
   "theorems": [
    "LC3.C87_fade",
    "LC3.C87_level",
    "LC3.C87_silent"
   ],
   "note": "single precision by its bound of error (Single); the call must be the second of the burst or a later one, the first one mixes the overlap of the last good frame"
  },
  {
   "property": "C88",
   "status": "proved",
   "theorems": [
    "LC3.C88_replay"
   ],
   "note": "any arithmetic; from the second loss of the burst, the first one overlaps the frame accepted and may be post-filtered"
  },
  {
   "property": "C89",
   "status": "partial",
   "theorems": [
    "LC3.C89_float_partial",
    "LC3.C89_refuted",
    "LC3.long_loss"
   ],
   "note": "false at this commit: long_loss runs a decoder on a frame and 556 losses, the last one is written at full scale; what holds covers the samples out of the interval from 2^-126 to 2^-112"
  },
  {
   "property": "C90",
   "status": "proved",
   "theorems": [
    "LC3.C90_silence",
    "LC3.C90_frame",
    "LC3.C90_formats"
   ],
   "note": "arithmetic rounded as binary32, with or without the limits of the exponent, or exact; the calls that return 0"
  },
  {
   "property": "C91",
   "status": "proved",
   "theorems": [
    "LC3.C91_encoder",
    "LC3.C91_stream"
   ],
   "note": "arithmetic rounded as binary32, with or without the limits of the exponent, or exact; the functions of the library constrained by GainSane, met by floatMath"
  },
  {
   "property": "C92",
   "status": "partial",
   "theorems": [
    "LC3.C92_encode_partial",
    "LC3.C92_sample_partial",
    "LC3.C92_decode",
    "LC3.C92_output_partial",
    "LC3.C92_refuted",
    "LC3.square_pitch"
   ],
   "note": "false at this commit between float and 24 bits for negative samples that are not integers on 16 bits: C92_refuted gives a signal whose third frame differs; proved for all the others, and for every pair of integer formats; output out of the exceptions of C32 and C33"
  },
  {
   "property": "C93",
   "status": "proved",
   "theorems": [
    "LC3.C93_encoder"
   ],
   "note": "for any number of silent frames and any later calls, in single precision (RoundF), by the invariant that silence keeps the state of the setup: detector, pitch lag, correlations, filters, rate control, overlap and histories; the buffer of the samples is overwritten"
  },
  {
   "property": "C94",
   "status": "proved",
   "theorems": [
    "LC3.C94_resume",
    "LC3.rotated_step",
    "LC3.rotated_run"
   ],
   "note": "simulation between two decoders at different positions of their circular memories, through the post-filter, in any arithmetic; the number of common frames is derived from the length of the history; the number of losses before fixes the position in the pseudo-random sequence"
  },
  {
   "property": "C95",
   "status": "proved",
   "theorems": [
    "LC3.C95_decoder"
   ],
   "note": "for any number of silent frames and any later calls, in single precision (RoundF): the memory of the decoder remains null, at another position, and the simulation of C94 applies; with C93, silence before a signal has no effect from end to end; frames lost among the silence move the pseudo-random sequence, and the later frames must then be accepted"
  },
  {
   "property": "C96",
   "status": "proved",
   "theorems": [
    "LC3.C96_corrupted",
    "LC3.C96_missing"
   ],
   "note": "for all sequences of calls that differ only by the way the frames are missing, UB (the counter of losses after 2^31 calls) included: the same values returned and the same samples; C96_missing: the calls that return 1 are exactly these ones"
  },
  {
   "property": "C97",
   "status": "partial",
   "theorems": [
    "LC3.C97_refuted",
    "LC3.C97_pause_partial"
   ],
   "note": "refuted with the pitch analysis: the high-pass filter rounds down and keeps an offset for ever, whatever the length of the pause, and a square wave after it has a frame without the pitch that a new encoder finds. Proved with the pitch analysis disabled (lc3_encoder_disable_ltpf): 7 frames of digital silence are enough, in all the configurations, of sizes where the detector of attacks runs if it runs in the configuration"
  },
  {
   "property": "C98",
   "status": "proved",
   "theorems": [
    "LC3.C98_encoder",
    "LC3.C98_decoder"
   ],
   "note": "by induction on the calls, for every state, reachable or not, UB included: the run without the calls of sizes out of the limits is the run where the values -1 are removed, with the same final state and memory"
  },
  {
   "property": "C99",
   "status": "proved",
   "theorems": [
    "LC3.C99_disable"
   ],
   "note": "by induction on the calls, from every state: the run after lc3_encoder_disable_ltpf gives the same values and frames, when the frame data of the calls have no pitch"
  },
  {
   "property": "C100",
   "status": "proved",
   "theorems": [
    "LC3.C100_dry",
    "LC3.C100_after"
   ],
   "note": "by induction on the calls, keeping the state of the post-filter inactive: the run gives the values and the samples of a synthesis written without the post-filter; in the middle of a stream, one call that does not activate the filter is enough (C100_after)"
  },
  {
   "property": "C101",
   "status": "proved",
   "theorems": [
    "LC3.C101_dry",
    "LC3.C101_pitch"
   ],
   "note": "by induction on the calls: the run in high-resolution mode is the one of the synthesis written without the post-filter, and two streams that differ only by the pitch give equal runs, with equal states"
  },
  {
   "property": "C102",
   "status": "partial",
   "theorems": [
    "LC3.C102_off_partial"
   ],
   "note": "the frame is read back without pitch (C62) and the post-filter is then inert (C100), for streams of any length with losses; missing: the frames whose bits do not fit in their size (Fits, not ensured by the encoder, see C46 and C61)"
  }
 ]
}