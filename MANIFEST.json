{
 "claims": [
  {
   "property": "C01",
   "status": "proved",
   "theorems": [
    "NR.c01_counts_differences",
    "NR.c01_symmetric",
    "NR.c01_zero_iff_eq",
    "NR.c01_zero_iff_eq_bytes",
    "NR.c01_triangle",
    "NR.c01_le_length",
    "NR.c01_bytes_popcount",
    "NR.c01_int_popcount",
    "NR.c01_int_byte_agree",
    "NR.c01_append",
    "NR.c01_arrays",
    "NR.c01_representations"
   ],
   "note": "hamming_distance counts differing positions; metric laws; bytes/ints/bit sequences agree."
  },
  {
   "property": "C02",
   "status": "proved",
   "theorems": [
    "NR.c02_length_mismatch",
    "NR.c02_length_mismatch_bytes",
    "NR.c02_int_out_of_range",
    "NR.c02_unsupported",
    "NR.c02_returns_iff",
    "NR.c02_convertible"
   ],
   "note": "Exact success condition and the raised errors."
  },
  {
   "property": "C03",
   "status": "proved",
   "theorems": [
    "NR.c03_buffer",
    "NR.c03_accepts_iff",
    "NR.c03_reads_back",
    "NR.c03_nonUint8_iff",
    "NR.c03_nonExistent_iff"
   ],
   "note": "Construction accepted exactly for 0..255 fields and known ids; serialised layout; properties read back."
  },
  {
   "property": "C04",
   "status": "proved",
   "theorems": [
    "NR.c04_valid_iff_constructible"
   ],
   "note": "A 6-byte string is a valid header iff it is the buffer of some constructible header."
  },
  {
   "property": "C05",
   "status": "proved",
   "theorems": [
    "NR.c05_round_trip",
    "NR.c05_repair",
    "NR.c05_forced",
    "NR.c05_wrong_length",
    "NR.c05_unknown_id"
   ],
   "note": "Parsing: round trip, repair of marker/length, forced id, errors."
  },
  {
   "property": "C06",
   "status": "proved",
   "theorems": [
    "NR.c06_nearest",
    "NR.c06_zero_iff_valid",
    "NR.c06_wrong_length",
    "NR.c06_first"
   ],
   "note": "Nearest valid header without limit: attained, minimal, zero iff valid, first of the nearest, wrong length raises."
  },
  {
   "property": "C07",
   "status": "proved",
   "theorems": [
    "NR.c07_limited_nearest",
    "NR.c07_limited_nearest_false",
    "NR.c07_limited_excluded"
   ],
   "note": "c07_limited_nearest (no exact match beyond the limit) and c07_limited_excluded (exact match beyond the limit) cover all inputs; c07_limited_nearest_false refutes the unrestricted expectation; c06_first (ties) holds with limits too."
  },
  {
   "property": "C08",
   "status": "proved",
   "theorems": [
    "NR.c08_no_arrays",
    "NR.c08_arrays",
    "NR.c08_array_types",
    "NR.c08_all_types_false"
   ],
   "note": "Metadata length equals the wire payload length exactly for the types without array fields; c08_all_types_false refutes the unrestricted reading."
  },
  {
   "property": "C09",
   "status": "proved",
   "theorems": [
    "NR.c09_each_once",
    "NR.c09_wire_order"
   ],
   "note": "Names are a permutation of the fields without repetition; the payload is the concatenation in metadata order of each field's encoding in its listed type."
  },
  {
   "property": "C10",
   "status": "proved",
   "theorems": [
    "NR.c10_round_trip",
    "NR.c10_round_trip_exact"
   ],
   "note": "All message types and all in-range values, including arrays and character arrays; c10_round_trip_exact gives identical values for types without character fields."
  },
  {
   "property": "C11",
   "status": "proved",
   "theorems": [
    "NR.c11_burst",
    "NR.c11_checksum",
    "NR.c11_single_bit",
    "NR.c11_single_bit_false"
   ],
   "note": "Burst (<=16 bits), checksum-only and single-bit errors. The single-bit claim has exactly one exception in the whole table (ids 4/6 at payload length 208); c11_single_bit_false shows the exception is real."
  },
  {
   "property": "C12",
   "status": "proved",
   "theorems": [
    "NR.c12_only_maverror",
    "NR.c12_empty"
   ],
   "note": "decode on every non-empty byte string returns or raises MAVError; the empty string raises IndexError."
  },
  {
   "property": "C13",
   "status": "proved",
   "theorems": [
    "NR.c13_accept_iff",
    "NR.c13_reject"
   ],
   "note": "Exact acceptance condition for v1 frames."
  },
  {
   "property": "C14",
   "status": "proved",
   "theorems": [
    "NR.c14_chunks",
    "NR.c14_bytes_needed",
    "NR.c14_bytes",
    "NR.c14_packed",
    "NR.c14_not_robust_false"
   ],
   "note": "Robust mode, no native parser, no callbacks. All chunkings: same items, leftover, counters, bytes_needed; termination of parse_buffer's loop is part of c14_chunks. c14_not_robust_false: without robust parsing the claim fails."
  },
  {
   "property": "C15",
   "status": "proved",
   "theorems": [
    "NR.c15_sequence",
    "NR.c15_send",
    "NR.c15_received"
   ],
   "note": "All histories of sends including failing ones (exception caught by the caller). file.write assumed to succeed. c15_received composes sender and receiver."
  },
  {
   "property": "C16",
   "status": "proved",
   "theorems": [
    "NR.c16_genuine",
    "NR.c16_fits"
   ],
   "note": "All buffers; arbitrary parser for c16_genuine, the dialect's decoder for c16_fits (an arbitrary parser may accept a truncated slice, then the frame need not fit)."
  },
  {
   "property": "C17",
   "status": "proved",
   "theorems": [
    "NR.c17_ordered_disjoint"
   ],
   "note": "All buffers, arbitrary parser."
  },
  {
   "property": "C18",
   "status": "proved",
   "theorems": [
    "NR.c18_labels",
    "NR.c18_validity"
   ],
   "note": "All buffers, arbitrary parser: labels per byte and validity per bit."
  },
  {
   "property": "C19",
   "status": "proved",
   "theorems": [
    "NR.c19_greedy",
    "NR.c19_unknown"
   ],
   "note": "All buffers, arbitrary parser; characterises the reported structure by an iff."
  },
  {
   "property": "C20",
   "status": "proved",
   "theorems": [
    "NR.c20_raises",
    "NR.c20_propagates",
    "NR.c20_never_raises"
   ],
   "note": "c20_never_raises is for the dialect's decoder; c20_raises / c20_propagates say for an arbitrary parser exactly which exceptions escape."
  },
  {
   "property": "C21",
   "status": "proved",
   "theorems": [
    "NR.c21_concatenation"
   ],
   "note": "All lists of packed messages of array-free types, through the dialect's decoder."
  },
  {
   "property": "C22",
   "status": "proved",
   "theorems": [
    "NR.c22_prefix"
   ],
   "note": "All pairs of buffers with a fully recovered first part."
  },
  {
   "property": "C23",
   "status": "proved",
   "theorems": [
    "NR.c23_arrays_missed",
    "NR.c23_every_message_found_false"
   ],
   "note": "All message types with an array or string field: accepted by the decoder, never reported by segment_buffer. c23_every_message_found_false refutes the general expectation."
  },
  {
   "property": "C24",
   "status": "proved",
   "theorems": [
    "NR.c24_idx",
    "NR.c24_parts",
    "NR.c24_after_segmentation"
   ],
   "note": "All label vectors as long as the buffer; c24_after_segmentation composes it with segment_buffer."
  },
  {
   "property": "C25",
   "status": "proved",
   "theorems": [
    "NR.c25_fields",
    "NR.c25_key",
    "NR.c25_nothing"
   ],
   "note": "c25_fields: the whole result, message by message; field_key by c25_key (names of the form message_field; a message having a text field called name shows that text). c25_nothing: the bare empty dict. Also shows get_msg_fields never raises when the segmenter uses the same decoder."
  },
  {
   "property": "C26",
   "status": "proved",
   "theorems": [
    "NR.c26_register",
    "NR.c26_history",
    "NR.c26_equality",
    "NR.c26_equal_iff",
    "NR.c26_equal_buffers",
    "NR.c26_own_buffer"
   ],
   "note": "c26_register decides each registration; c26_history for all histories; c26_equality, c26_equal_iff, c26_equal_buffers; c26_own_buffer: a structure found in a buffer accepts that buffer."
  },
  {
   "property": "C27",
   "status": "proved",
   "theorems": [
    "NR.c27_window",
    "NR.c27_size",
    "NR.c27_types"
   ],
   "note": "Any history of additions and reads; the samples are windowed by Spec.windowed. A window of 0 keeps everything, as in the code (a slice [-0:])."
  },
  {
   "property": "C28",
   "status": "proved",
   "theorems": [
    "NR.c28_cache_invisible"
   ],
   "note": "The fitting routine is an arbitrary parameter (StatOps); the answer to every read equals the answer recomputed from the full window."
  },
  {
   "property": "C29",
   "status": "proved",
   "theorems": [
    "NR.c29_classify",
    "NR.c29_probability"
   ],
   "note": "c29_classify, c29_probability. Over the reals (for rounding see C128), with erf defined by its integral in Spec/Gauss and the normal distribution of Mathlib in Spec/Normal; Lemmas/Normal proves its distribution function from the integral."
  },
  {
   "property": "C30",
   "status": "proved",
   "theorems": [
    "NR.c30_step",
    "NR.c30_history",
    "NR.c30_calls"
   ],
   "note": "Any history of add_buffer calls, including raising ones. The domain in which a call succeeds is exactly Addable."
  },
  {
   "property": "C31",
   "status": "proved",
   "theorems": [
    "NR.c31_map",
    "NR.c31_overlap",
    "NR.c31_returns_iff"
   ],
   "note": "Bit b belongs to field k exactly when byte b/8 lies in place k of the wire layout; raises exactly outside the stated domain."
  },
  {
   "property": "C32",
   "status": "proved",
   "theorems": [
    "NR.c32_values",
    "NR.c32_aligned",
    "NR.c32_bits",
    "NR.c32_raises"
   ],
   "note": "Byte buffers, bit buffers, and the exact domain in which the call returns."
  },
  {
   "property": "C33",
   "status": "proved",
   "theorems": [
    "NR.c33_number",
    "NR.c33_integer",
    "NR.c33_float",
    "NR.c33_raises",
    "NR.c33_constant_field"
   ],
   "note": "Numbers are rationals plus infinities, NaN and strings; the conversion to single precision is a parameter."
  },
  {
   "property": "C34",
   "status": "proved",
   "theorems": [
    "NR.c34_roundtrip",
    "NR.c34_foreign",
    "NR.c34_save_ok"
   ],
   "note": "The JSON text is identified with what json.load reads back from json.dump output (C114 proves this for the text itself); statistics routine arbitrary except that it raises on non-numbers. All add_buffer histories, any description. c34_foreign: a file without a dict of field models."
  },
  {
   "property": "C35",
   "status": "proved",
   "theorems": [
    "NR.c35_field_at",
    "NR.c35_damaged"
   ],
   "note": "Non-overlapping array-free messages inside the buffer; error positions are non-negative."
  },
  {
   "property": "C36",
   "status": "proved",
   "theorems": [
    "NR.c36_predict",
    "NR.c36_raises"
   ],
   "note": "The statistics routine is a parameter assumed not to raise; scores are expressed from the add_buffer history."
  },
  {
   "property": "C37",
   "status": "proved",
   "theorems": [
    "NR.c37_counts",
    "NR.c37_no_raise",
    "NR.c37_constant_false"
   ],
   "note": "Proved for histories whose clusters all start from non-constant buffers; c37_constant_false exhibits the failure for constant ones."
  },
  {
   "property": "C38",
   "status": "proved",
   "theorems": [
    "NR.c38_protocol",
    "NR.c38_raises",
    "NR.c38_returns"
   ],
   "note": "Metric values, comparisons and merge distances are arbitrary (NaN included). c38_returns shows that no call raises if the training buffers are non-constant and the metric does not raise."
  },
  {
   "property": "C39",
   "status": "proved",
   "theorems": [
    "NR.c39_hamming",
    "NR.c39_log_likelihood",
    "NR.c39_first_call",
    "NR.c39_reachable"
   ],
   "note": "Log-likelihoods are over the reals; numpy's rounding is not modelled. c39_reachable discharges the state hypotheses."
  },
  {
   "property": "C40",
   "status": "proved",
   "theorems": [
    "NR.c40_hard_bits_any",
    "NR.c40_majority_false"
   ],
   "note": "The majority property is false of the code (c40_majority_false); c40_hard_bits_any is what holds."
  },
  {
   "property": "C41",
   "status": "proved",
   "theorems": [
    "NR.c41_counts",
    "NR.c41_initial_context",
    "NR.c41_pieces",
    "NR.c41_out_of_range",
    "NR.c41_reset",
    "NR.c41_k_zero"
   ],
   "note": "Decision function and alphabet are arbitrary."
  },
  {
   "property": "C42",
   "status": "proved",
   "theorems": [
    "NR.c42_threshold",
    "NR.c42_no_noise"
   ],
   "note": "Over the reals; np.linalg.inv is the matrix inverse."
  },
  {
   "property": "C43",
   "status": "proved",
   "theorems": [
    "NR.c43_prob_vector",
    "NR.c43_smoothing"
   ],
   "note": "Over the reals. c43_smoothing states exactly what the smoothing computes."
  },
  {
   "property": "C44",
   "status": "proved",
   "theorems": [
    "NR.c44_counts",
    "NR.c44_sample"
   ],
   "note": "Symbols in range(alphabet_size)."
  },
  {
   "property": "C45",
   "status": "proved",
   "theorems": [
    "NR.c45_model",
    "NR.c45_inverts_channel",
    "NR.c45_same_side",
    "NR.c45_reset",
    "NR.c45_negative_window"
   ],
   "note": "Over the reals. For f = 1/2 the code divides by zero; the model returns 0 there."
  },
  {
   "property": "C46",
   "status": "proved",
   "theorems": [
    "NR.c46_predict",
    "NR.c46_no_mutation",
    "NR.c46_only_structural",
    "NR.c46_hard_output",
    "NR.c46_warm_up",
    "NR.c46_cost",
    "NR.c46_direction",
    "NR.c46_hard_input",
    "NR.c46_learns_input",
    "NR.c46_sequence",
    "NR.c46_run"
   ],
   "note": "Arrays live in an explicit store, so copies and in-place updates are visible. c46_run: no exception on any sequence of equally long soft buffers."
  },
  {
   "property": "C47",
   "status": "proved",
   "theorems": [
    "NR.c47_prob2",
    "NR.c47_prob1",
    "NR.c47_binary_columns",
    "NR.c47_raises"
   ],
   "note": "Exact rational frequencies."
  },
  {
   "property": "C48",
   "status": "proved",
   "theorems": [
    "NR.c48_entropy",
    "NR.c48_rows",
    "NR.c48_scale"
   ],
   "note": "Over the reals."
  },
  {
   "property": "C49",
   "status": "proved",
   "theorems": [
    "NR.c49_hellinger",
    "NR.c49_rows"
   ],
   "note": "Over the reals; float rounding can make the radicand slightly negative in practice."
  },
  {
   "property": "C50",
   "status": "proved",
   "theorems": [
    "NR.c50_typical"
   ],
   "note": "Over the reals; overflow of floats is not modelled."
  },
  {
   "property": "C51",
   "status": "proved",
   "theorems": [
    "NR.c51_responsibilities",
    "NR.c51_posterior",
    "NR.c51_step_valid",
    "NR.c51_fit",
    "NR.c51_fit_empty",
    "NR.c51_predict",
    "NR.c51_score_nonpos"
   ],
   "note": "Over the reals. The NaN branch of fit is shown unreachable in exact arithmetic."
  },
  {
   "property": "C52",
   "status": "proved",
   "theorems": [
    "NR.c52_monotone",
    "NR.c52_bounded_loss",
    "NR.c52_fit"
   ],
   "note": "Over the reals; also the unconditional bound c52_bounded_loss."
  },
  {
   "property": "C53",
   "status": "proved",
   "theorems": [
    "NR.c53_window",
    "NR.c53_learned",
    "NR.c53_returned",
    "NR.c53_others",
    "NR.c53_distribution",
    "NR.c53_predefined",
    "NR.c53_raises",
    "NR.c53_returns"
   ],
   "note": "Entropy decoder, any LDPC decoder and classifier (functions with hidden state). c53_window covers calls that raise too; c53_returned reads the learned vectors off arguments and return values. Needs model bits as many as model_length (otherwise every learning call raises, c53_raises). A window with a single letter raises IndexError after storing the sample (c53_raises, c53_returns)."
  },
  {
   "property": "C54",
   "status": "proved",
   "theorems": [
    "NR.c54_training_passthrough",
    "NR.c54_negative_label",
    "NR.c54_mavlink_passthrough",
    "NR.c54_mavlink_false"
   ],
   "note": "Entropy decoder: c54_passthrough/c54_learns_nothing family. MAVLink decoder: the passthrough half holds (c54_mavlink_passthrough), the 'learns nothing' half is false and its negation is proved (c54_mavlink_false): label -1 is the last cluster, whose structure is set."
  },
  {
   "property": "C55",
   "status": "proved",
   "theorems": [
    "NR.c55_reachable",
    "NR.c55_handed",
    "NR.c55_bounded",
    "NR.c55_decode",
    "NR.c55_decode_bounded",
    "NR.c55_direction"
   ],
   "note": "Log-SPA path. c55_handed gives the word position by position; c55_bounded the bound and the collapse of an all-negative word; c55_reachable shows the well-formedness hypothesis of reachable states. If the only low-entropy bit is codeword bit 0 the model is ignored. c55_decode and c55_decode_bounded tie the word to the call: it is what the LDPC decoder is given, and the call returns the LDPC decoder's answer."
  },
  {
   "property": "C56",
   "status": "proved",
   "theorems": [
    "NR.c56_round_robin",
    "NR.c56_mavlink_round_robin",
    "NR.c56_mavlink_false"
   ],
   "note": "Calls that raise count too. MAVLink decoder: holds with one segmentation iteration (c56_mavlink_round_robin); with two and a failing LDPC decoder the first call carries label 1 (c56_mavlink_false)."
  },
  {
   "property": "C57",
   "status": "proved",
   "theorems": [
    "NR.c57_learned",
    "NR.c57_fixed",
    "NR.c57_set_structures",
    "NR.c57_frozen",
    "NR.c57_returned",
    "NR.c57_no_structure",
    "NR.c57_no_iterations"
   ],
   "note": "Any LDPC decoder, classifier and segmentation of the information bytes; calls that raise are included. c57_learned determines structures, model size and field windows from the runs of the LDPC decoder, c57_returned ties those runs to what calls return. The debug analysis is not modelled."
  },
  {
   "property": "C58",
   "status": "proved",
   "theorems": [
    "NR.c58_result",
    "NR.c58_success_iff",
    "NR.c58_debug",
    "NR.c58_raises",
    "NR.C58.c58_any"
   ],
   "note": "The two constituent decoders are arbitrary functions with hidden state (Soft/SoftDec); numbers are reals. c58_any gives the result and the states left behind for decoders that may raise in any round; c58_result gives the result of the first successful half-round, c58_debug the debug counters, c58_raises the exception path."
  },
  {
   "property": "C59",
   "status": "proved",
   "theorems": [
    "NR.c59_counts",
    "NR.c59_totals",
    "NR.c59_perfect"
   ],
   "note": "Proved for the only confusion function of the repository (mavlink_decoder.py)."
  },
  {
   "property": "C60",
   "status": "proved",
   "theorems": [
    "NR.c60_counts",
    "NR.c60_zero_iff",
    "NR.c60_out_of_range"
   ],
   "note": "Proved for error positions in any order, repeated or negative; an out-of-range position raises."
  },
  {
   "property": "C61",
   "status": "proved",
   "theorems": [
    "NR.c61_signed",
    "NR.c61_uint8",
    "NR.c61_uint8_false"
   ],
   "note": "Over rationals: the property holds for signed arrays (c61_signed); the exact value for unsigned bytes is c61_uint8, and c61_uint8_false shows it exceeding 1."
  },
  {
   "property": "C62",
   "status": "proved",
   "theorems": [
    "NR.c62_recall",
    "NR.c62_precision",
    "NR.c62_f1",
    "NR.c62_absent_class",
    "NR.c62_labels"
   ],
   "note": "Over rationals, NaN as none. The branches meant to score an absent class are never taken (c62_absent_class)."
  },
  {
   "property": "C63",
   "status": "proved",
   "theorems": [
    "NR.c63_rows",
    "NR.c63_all_zero",
    "NR.c63_false"
   ],
   "note": "The positive claim is false: c63_rows says which row is used for every sample, c63_all_zero its consequence, c63_false refutes the claim on a concrete chain. The random choice is an arbitrary function with hidden state."
  },
  {
   "property": "C64",
   "status": "proved",
   "theorems": [
    "NR.c64_windowed",
    "NR.c64_ready",
    "NR.c64_frozen",
    "NR.c64_returned",
    "NR.c64_never_learns",
    "NR.c64_model_bits",
    "NR.c64_not_ready",
    "NR.c64_prediction",
    "NR.c64_predefined",
    "NR.c64_one_letter",
    "NR.c64_flip",
    "NR.c64_flip_false"
   ],
   "note": "c64_windowed/c64_frozen: the distribution after any history; c64_returned: the learned words are model bits of returned estimates; c64_never_learns and c64_model_bits: when learning is possible at all; c64_not_ready, c64_prediction: what is handed to the second LDPC run; c64_one_letter: a first word of only one letter raises IndexError after the data was stored; c64_flip for the flipping decoder when model bits are the first codeword bits, c64_flip_false refutes the claim otherwise. The LDPC decoder is an arbitrary stateful function."
  },
  {
   "property": "C65",
   "status": "proved",
   "theorems": [
    "NR.c65_positive",
    "NR.c65_floor",
    "NR.c65_exact",
    "NR.c65_probabilities",
    "NR.c65_step",
    "NR.c65_mismatch",
    "NR.c65_needs_window",
    "NR.c65_max_false",
    "NR.c65_rescaled_exceeds",
    "NR.c65_floor_elsewhere_false"
   ],
   "note": "Invariant over all histories (calls may raise): c65_positive, c65_floor, c65_exact, c65_probabilities; c65_step describes one update from any positive counters (ratio kept, floor after rescaling); c65_mismatch/c65_needs_window: misconfigured decoders. c65_max_false: the maximum is not enforced (total k+2 after k words, any window); c65_rescaled_exceeds: rescaling equal counts gives 2*window+2; c65_floor_elsewhere_false: other bits fall below the minimum."
  },
  {
   "property": "C66",
   "status": "proved",
   "theorems": [
    "NR.c66_buffer",
    "NR.c66_exact_length_false",
    "NR.c66_data"
   ],
   "note": "Holds for every buffer whose length is not exactly k (c66_buffer, c66_data); a buffer of exactly k bits makes the call raise (c66_exact_length_false), because bitstring refuses an unsigned integer of length 0. The encoder and the random generator are parameters."
  },
  {
   "property": "C67",
   "status": "proved",
   "theorems": [
    "NR.c67_total",
    "NR.c67_majority",
    "NR.c67_one_to_one_iff",
    "NR.c67_two_classes",
    "NR.c67_false",
    "NR.c67_recovers"
   ],
   "note": "The claim as stated is false (c67_false); c67_total, c67_majority, c67_one_to_one_iff and c67_two_classes say what holds, and c67_recovers that a pure renaming is undone."
  },
  {
   "property": "C68",
   "status": "proved",
   "theorems": [
    "NR.c68_never_returns",
    "NR.c68_incorrect_length",
    "NR.c68_always_raises",
    "NR.c68_training",
    "NR.c68_fits_returns",
    "NR.c68_window",
    "NR.c68_learned",
    "NR.c68_distribution",
    "NR.c68_mavlink",
    "NR.c68_handed",
    "NR.c68_entropy",
    "NR.c68_same_prediction",
    "NR.c68_whole_word_idx",
    "NR.c68_unified_mismatch",
    "NR.c68_unified_once"
   ],
   "note": "Both decoders modelled with debug off. c68_never_returns / c68_incorrect_length / c68_always_raises: the whole-codeword problem. c68_fits_returns, c68_window, c68_learned, c68_distribution, c68_mavlink: what is learned. c68_training, c68_handed, c68_entropy, c68_same_prediction: what is handed over. c68_unified_mismatch, c68_unified_once: too few model bit indices."
  },
  {
   "property": "C69",
   "status": "proved",
   "theorems": [
    "NR.c69_mean",
    "NR.c69_unseen",
    "NR.c69_constant"
   ],
   "note": "The constant-buffer theorem uses an exact rational mean; float fields are assumed to survive conversion from and to single precision."
  },
  {
   "property": "C70",
   "status": "proved",
   "theorems": [
    "NR.c70_merge_closest"
   ],
   "note": "The distance must not raise and take values in a linear order (no NaN)."
  },
  {
   "property": "C71",
   "status": "proved",
   "theorems": [
    "NR.c71_models",
    "NR.c71_windows",
    "NR.c71_one_letter",
    "NR.c71_returned",
    "NR.c71_unchanged",
    "NR.c71_prediction",
    "NR.c71_confidences",
    "NR.c71_variance_weight",
    "NR.c71_scheme_two",
    "NR.c71_variance_scheme",
    "NR.c71_clipped"
   ],
   "note": "c71_models (both estimators), c71_windows (MLE, all calls returned), c71_one_letter (exactly when an MLE update raises), c71_unchanged, c71_prediction, c71_clipped (bound, and collapse of all-negative words), c71_confidences, c71_variance_weight, c71_scheme_two, c71_variance_scheme. bit_flip = 1/2 (division by zero) is outside the model. c71_returned: what is handed to the LDPC decoder and returned by a call."
  },
  {
   "property": "C72",
   "status": "proved",
   "theorems": [
    "NR.c72_combines",
    "NR.c72_returns",
    "NR.c72_training",
    "NR.c72_returned",
    "NR.c72_first",
    "NR.c72_no_flip",
    "NR.c72_input_changed",
    "NR.c72_never_returns",
    "NR.c72_round_robin",
    "NR.c72_constructor"
   ],
   "note": "Context length 0 is not covered (the denoisers then change their own context length, see c41_k_zero). c72_returned: a call returns the LDPC decoder's answer to the handed word."
  },
  {
   "property": "C73",
   "status": "proved",
   "theorems": [
    "NR.c73_confusion",
    "NR.c73_fields",
    "NR.c73_negatives_false",
    "NR.c73_forcing",
    "NR.c73_balance",
    "NR.c73_forcing_range"
   ],
   "note": "Error positions are non-negative integers; a word is a list of bits."
  },
  {
   "property": "C74",
   "status": "proved",
   "theorems": [
    "NR.c74_needs_structure",
    "NR.c74_exception",
    "NR.c74_first_call",
    "NR.c74_same",
    "NR.c74_reports"
   ],
   "note": "The combined decoders contain the same analysis code (combined_decoder.py:205-246, combined_unified_decoder.py:235-276); their calls with debug on are C105. c74_exception says which exception a call for a cluster without a structure raises."
  },
  {
   "property": "C75",
   "status": "proved",
   "theorems": [
    "NR.c75_no_key",
    "NR.c75_accept_iff",
    "NR.c75_result",
    "NR.c75_refused",
    "NR.c75_mark_fixed",
    "NR.c75_replay",
    "NR.c75_first_frame",
    "NR.c75_forged_frame",
    "NR.c75_clock",
    "NR.c75_counts",
    "NR.c75_each_count",
    "NR.c75_replay_false",
    "NR.c75_sender",
    "NR.c75_sender_unreadable"
   ],
   "note": "SHA-256 is an arbitrary function H; where its length matters, H returns at least 6 bytes. c75_replay_false refutes replay protection on a concrete history; c75_first_frame / c75_forged_frame are the shut-out."
  },
  {
   "property": "C76",
   "status": "proved",
   "theorems": [
    "NR.c76_eq_iff",
    "NR.c76_none",
    "NR.c76_ne",
    "NR.c76_symm",
    "NR.c76_trans",
    "NR.c76_refl",
    "NR.c76_round_trip",
    "NR.c76_frames",
    "NR.c76_to_dict",
    "NR.c76_self_false",
    "NR.c76_frames_false",
    "NR.c76_text_false"
   ],
   "note": "c76_eq_iff (Spec/MsgEq.lean gives the value of a 32-bit pattern independently of the model's comparison), c76_none, c76_ne, c76_symm, c76_trans, c76_refl, c76_round_trip, c76_frames, c76_to_dict; c76_self_false, c76_frames_false, c76_text_false are the failures. Attribute objects shared between the two messages (identity shortcut of list comparison) are not modelled."
  },
  {
   "property": "C77",
   "status": "proved",
   "theorems": [
    "NR.c77_row",
    "NR.c77_buffer",
    "NR.c77_segment",
    "NR.c77_sequence",
    "NR.c77_times",
    "NR.c77_latest_false"
   ],
   "note": "c77_row, c77_buffer, c77_segment, c77_sequence, c77_times; c77_latest_false is the failure. Reading the mat files and the float conversion of the recorded values are not modelled: a recording holds the values passed to the constructors."
  },
  {
   "property": "C78",
   "status": "proved",
   "theorems": [
    "NR.c78_parts",
    "NR.c78_words",
    "NR.c78_too_long",
    "NR.c78_padding",
    "NR.c78_padding_false",
    "NR.c78_multiply"
   ],
   "note": "c78_parts, c78_words, c78_padding, c78_multiply; c78_padding_false is the failure. The random generator is an arbitrary state machine; the encoder is external. c78_too_long."
  },
  {
   "property": "C79",
   "status": "proved",
   "theorems": [
    "NR.c79_shares",
    "NR.c79_distribution",
    "NR.c79_empty",
    "NR.c79_shares_false"
   ],
   "note": "c79_shares, c79_distribution, c79_empty; c79_shares_false is the failure. Rational numbers stand for floats."
  },
  {
   "property": "C80",
   "status": "proved",
   "theorems": [
    "NR.c80_learned",
    "NR.c80_predefined",
    "NR.c80_handed",
    "NR.c80_decisions"
   ],
   "note": "c80_learned and c80_predefined say what is handed over after any calls; c80_handed ties it to the first run of the LDPC decoder of a call; c80_decisions gives the hard decisions. The statistics package is a parameter; fitting and rendering the means of the fields must not raise."
  },
  {
   "property": "C81",
   "status": "proved",
   "theorems": [
    "NR.c81_classifier",
    "NR.c81_unmodelled",
    "NR.c81_forcing",
    "NR.c81_residual"
   ],
   "note": "c81_classifier and c81_unmodelled for the classifier; c81_forcing and c81_residual for the forcing. Scores are real numbers; numpy set operations are modelled as filters on sorted distinct lists."
  },
  {
   "property": "C82",
   "status": "proved",
   "theorems": [
    "NR.c82_word",
    "NR.c82_words",
    "NR.c82_learn_false",
    "NR.c82_outside",
    "NR.c82_split",
    "NR.c82_rate"
   ],
   "note": "c82_words and c82_word; c82_outside for errors outside a word; c82_split and c82_rate for the counts; c82_learn_false shows that --learn 1 always raises. Loading the model from the file is not modelled: the model is given by the buffers it was made from."
  },
  {
   "property": "C83",
   "status": "proved",
   "theorems": [
    "NR.c83_step",
    "NR.c83_bounds",
    "NR.c83_empty",
    "NR.c83_channel",
    "NR.c83_options_false"
   ],
   "note": "c83_step, c83_bounds, c83_channel, c83_empty; c83_options_false for the unassigned model. Decoders are arbitrary stateful functions; rates are exact rationals."
  },
  {
   "property": "C84",
   "status": "proved",
   "theorems": [
    "NR.c84_run",
    "NR.c84_unknown",
    "NR.c84_success_false"
   ],
   "note": "c84_run and c84_unknown; c84_success_false for the meaning of the success rate. Decoders are arbitrary stateful functions; the second one gets the hint about the errors of each script."
  },
  {
   "property": "C85",
   "status": "proved",
   "theorems": [
    "NR.c85_learned",
    "NR.c85_predefined",
    "NR.c85_decisions"
   ],
   "note": "c85_learned and c85_predefined give the whole word for both decoders; c85_decisions the hard decisions of the unified one before the entropy ratios are added. Calls that raise inside the entropy update are excluded (C68 covers them)."
  },
  {
   "property": "C86",
   "status": "proved",
   "theorems": [
    "NR.c86_estimate",
    "NR.c86_half",
    "NR.c86_emle",
    "NR.c86_entropy",
    "NR.c86_combined",
    "NR.c86_bayes"
   ],
   "note": "c86_estimate is the statement about the estimator itself, for any words and position; c86_emle, c86_entropy, c86_combined and c86_bayes apply it to what the decoders store; c86_half covers the excluded flip probability."
  },
  {
   "property": "C87",
   "status": "proved",
   "theorems": [
    "NR.c87_pack",
    "NR.c87_decode",
    "NR.c87_round_trip",
    "NR.c87_single_bit",
    "NR.c87_parse_buffer",
    "NR.c87_stream"
   ],
   "note": "The message table of the minimal dialect is generated from its text; the codec is modelled with the table as a parameter and is, with the HC table, the model of C10-C15 (decodeWith_hc, parseBufferWith_hc)."
  },
  {
   "property": "C88",
   "status": "proved",
   "theorems": [
    "NR.c88_llr",
    "NR.c88_hard",
    "NR.c88_bit_flip",
    "NR.c88_delta",
    "NR.c88_slices",
    "NR.c88_errors_false",
    "NR.c88_step",
    "NR.c88_scale",
    "NR.c88_expected",
    "NR.c88_empty",
    "NR.c88_inputs"
   ],
   "note": "c88_errors_false: `errors` holds truth values, yet is compared with the number of information bits as if it held positions. Densities and the normal distribution are those of Mathlib; erfc is the mathematical function. The normal numbers drawn are a parameter of the model and independent in c88_expected."
  },
  {
   "property": "C89",
   "status": "proved",
   "theorems": [
    "NR.c89_parts",
    "NR.c89_buffers",
    "NR.c89_ragged_false",
    "NR.c89_rate_false",
    "NR.c89_clean_test_false",
    "NR.c89_scores",
    "NR.c89_recovers",
    "NR.c89_saved",
    "NR.c89_saved_false",
    "NR.c89_classes"
   ],
   "note": "c89_ragged_false, c89_rate_false, c89_clean_test_false and c89_saved_false are the parts that do not hold. Random numbers are parameters; the mixture model run on the same split is not part of this model, and that shuffling keeps the shares of the classes is not modelled. c89_classes."
  },
  {
   "property": "C90",
   "status": "proved",
   "theorems": [
    "NR.c90_silent",
    "NR.c90_sum",
    "NR.c90_sum_decisions",
    "NR.c90_priors",
    "NR.c90_priors_bounded",
    "NR.c90_forced",
    "NR.c90_forced_letter",
    "NR.c90_forced_false",
    "NR.c90_forced_samples_false",
    "NR.c90_no_window"
   ],
   "note": "c90_forced_false and c90_forced_samples_false are the parts that do not hold. Sums that are zero throughout (the code divides zero by zero) are excluded from c90_sum. That learned states have the lengths asked for is c55_reachable."
  },
  {
   "property": "C91",
   "status": "proved",
   "theorems": [
    "NR.c91_methods",
    "NR.c91_encode",
    "NR.c91_send",
    "NR.c91_received"
   ],
   "note": "The table of the 155 constructors and 310 methods is generated from the text of HC_dialect.py; the checks made while generating are listed at its head."
  },
  {
   "property": "C92",
   "status": "proved",
   "theorems": [
    "NR.c92_read",
    "NR.c92_unreadable",
    "NR.c92_cut_at_marker",
    "NR.c92_crash",
    "NR.c92_cut_early",
    "NR.c92_line_ends",
    "NR.c92_payload_false"
   ],
   "note": "int and datetime.strptime are parameters. The texts between the markers are assumed to contain no A, d, t and no carriage return (digits, blanks and underscores in practice). c92_payload_false is the part that does not hold."
  },
  {
   "property": "C93",
   "status": "proved",
   "theorems": [
    "NR.c93_trained",
    "NR.c93_stops",
    "NR.c93_first_unidentified",
    "NR.c93_learns_false",
    "NR.c93_checked_false"
   ],
   "note": "Reading the csv files and saving (C34) are outside; entries above 9 are treated like 2. c93_learns_false and c93_checked_false are what one might expect but does not hold."
  },
  {
   "property": "C94",
   "status": "proved",
   "theorems": [
    "NR.c94_row",
    "NR.c94_no_trials",
    "NR.c94_most_likely",
    "NR.c94_ignorant",
    "NR.c94_corrected"
   ],
   "note": "Random draws are arguments; expectations are finite sums over all draws of n pairs of bits. Floats are reals; plotting is not modelled."
  },
  {
   "property": "C95",
   "status": "proved",
   "theorems": [
    "NR.c95_words",
    "NR.c95_short_false",
    "NR.c95_results",
    "NR.c95_after_training",
    "NR.c95_each_class",
    "NR.c95_order"
   ],
   "note": "Random draws are arguments; labels are those of the classifier model of C38/C39. c95_short_false is what one might expect but does not hold."
  },
  {
   "property": "C96",
   "status": "proved",
   "theorems": [
    "NR.c96_report",
    "NR.c96_rate_false",
    "NR.c96_fixed",
    "NR.c96_counts",
    "NR.c96_emle_false"
   ],
   "note": "The entropy aided denoiser is an arbitrary function on matrices; OnlineDude is the model of C61. Plotting is not modelled. c96_rate_false and c96_emle_false are what one might expect but does not hold."
  },
  {
   "property": "C97",
   "status": "proved",
   "theorems": [
    "NR.c97_order",
    "NR.c97_listing",
    "NR.c97_complete",
    "NR.c97_broken",
    "NR.c97_minflip_false"
   ],
   "note": "Pickling and plotting are not modelled; a pickle either is a step or lacks its entries. c97_minflip_false is what one might expect but does not hold."
  },
  {
   "property": "C98",
   "status": "proved",
   "theorems": [
    "NR.c98_capacity",
    "NR.c98_modified",
    "NR.c98_threshold",
    "NR.c98_curves",
    "NR.c98_entropy",
    "NR.c98_measured_false"
   ],
   "note": "Floats are reals; plotting is not modelled. c98_measured_false is what one might expect but does not hold."
  },
  {
   "property": "C99",
   "status": "proved",
   "theorems": [
    "NR.c99_probabilities",
    "NR.c99_step",
    "NR.c99_raw",
    "NR.c99_reversed_false",
    "NR.c99_same",
    "NR.c99_none",
    "NR.c99_index",
    "NR.c99_index_false"
   ],
   "note": "Decoders are parameters and deterministic; worker processes are forked and share the globals. c99_reversed_false and c99_index_false are what one might expect but does not hold."
  },
  {
   "property": "C100",
   "status": "proved",
   "theorems": [
    "NR.c100_hellinger",
    "NR.c100_kl",
    "NR.c100_length",
    "NR.c100_distance",
    "NR.c100_single",
    "NR.c100_first_merge",
    "NR.c100_constant_false"
   ],
   "note": "Floats are reals; scipy entropy with two arguments is modelled from its documentation (rel_entr, normalisation, broadcasting), with infinite values. c100_constant_false is what one might expect but does not hold."
  },
  {
   "property": "C101",
   "status": "proved",
   "theorems": [
    "NR.c101_repeats",
    "NR.c101_count",
    "NR.c101_lost",
    "NR.c101_kept",
    "NR.c101_forgotten_false",
    "NR.c101_exit",
    "NR.c101_words"
   ],
   "note": "The options and commands of the scripts are tables generated by tools/gen_commands.py. argparse is modelled from its documentation (abbreviations, negative numbers, type conversion, last value counting); floats are abstract with float(str(x)) = x. c101_forgotten_false, c101_exit and c101_words are where the expected property fails."
  },
  {
   "property": "C102",
   "status": "proved",
   "theorems": [
    "NR.c102_alone",
    "NR.c102_joint",
    "NR.c102_rates",
    "NR.c102_combined",
    "NR.c102_pretrained",
    "NR.c102_awgn_alone",
    "NR.c102_awgn",
    "NR.c102_example",
    "NR.c102_awgn_example",
    "NR.c102_pretrained_false"
   ],
   "note": "Decoders are parameters with hidden state; they share no objects in the scripts (each gets its own inner decoder). c102_pretrained and c102_pretrained_false are where the expected property fails."
  },
  {
   "property": "C103",
   "status": "proved",
   "theorems": [
    "NR.c103_history",
    "NR.c103_schedule",
    "NR.c103_limit",
    "NR.c103_limit_enough",
    "NR.c103_limit_first",
    "NR.c103_limit_false",
    "NR.c103_noise",
    "NR.c103_same_noise"
   ],
   "note": "Pool.map is modelled from its documentation: one queue, so every process handles its points in their order; any assignment is allowed. Processes may start with any globals; c103_same_noise is about forked ones (the default on Linux). c103_limit_false and c103_same_noise are where the expected independence fails."
  },
  {
   "property": "C104",
   "status": "proved",
   "theorems": [
    "NR.c104_last",
    "NR.c104_five",
    "NR.c104_five_models",
    "NR.c104_example",
    "NR.c104_false"
   ],
   "note": "The plain decoder belongs to a library; that it returns six values, the last one an array, is taken from the code that unpacks its results (decoders/entropy_bitwise_decoder.py:68). c104_five and c104_false are where the expected property fails."
  },
  {
   "property": "C105",
   "status": "proved",
   "theorems": [
    "NR.c105_no_errors",
    "NR.c105_returns",
    "NR.c105_lost",
    "NR.c105_needs_structure",
    "NR.c105_errors_required",
    "NR.c105_run",
    "NR.c105_never_learns",
    "NR.c105_predefined",
    "NR.c105_transparent_false"
   ],
   "note": "c105_returns and c105_run are equalities of the whole effect, caches of the field models included; their hypothesis KeysOk says that the names of the field models are the keys of a dict, which holds for new models and is kept by all calls (new_keys, addAll_keys, debug_keys). c105_lost, c105_needs_structure, c105_errors_required and c105_never_learns say when the call raises; c105_transparent_false refutes transparency on a concrete decoder; c105_predefined is the case where debug changes nothing. Error positions are non-negative integers."
  },
  {
   "property": "C106",
   "status": "proved",
   "theorems": [
    "NR.C106.c106_messages",
    "NR.C106.c106_minimal_messages",
    "NR.C106.c106_pack",
    "NR.C106.c106_decode",
    "NR.C106.c106_minimal_pack",
    "NR.C106.c106_minimal_decode",
    "NR.C106.c106_minimal_sub",
    "NR.C106.c106_enums",
    "NR.C106.c106_minimal_enums"
   ],
   "note": "Spec/XmlDefs.lean states the wire order, the signature with its checksum and the frame from the definition alone; c106_messages and c106_minimal_messages compare the tables (kernel evaluation over both files), c106_pack, c106_decode and their minimal counterparts are about all values. c106_enums and c106_minimal_enums give the dictionaries and the constants in both directions. Model/XmlTables.lean is generated by tools/gen_xml.py from the text of the XML files and of the enum sections of the Python files. Descriptions of messages, fields and entries are not compared."
  },
  {
   "property": "C107",
   "status": "proved",
   "theorems": [
    "NR.C107.c107_classifier",
    "NR.C107.c107_mav",
    "NR.C107.c107_clustering",
    "NR.C107.c107_range",
    "NR.C107.c107_increasing",
    "NR.C107.c107_repeats",
    "NR.C107.c107_dude",
    "NR.C107.c107_runner",
    "NR.C107.c107_called_false"
   ],
   "note": "c107_classifier, c107_mav, c107_clustering, c107_dude and c107_runner give the runs and their settings; c107_range, c107_increasing and c107_repeats what the sweeps of numbers look like. c107_called_false: batch_run_mav_decoder.sh names a script that is not in its directory. Hypothesis Decimals: float() of a decimal number between 0 and 1 is its value, rounded in the way literals are. Shell arguments are taken to be whole numbers, not negative for the counters; word splitting of other texts is not modelled."
  },
  {
   "property": "C108",
   "status": "proved",
   "theorems": [
    "NR.C108.c108_any",
    "NR.C108.c108_decided",
    "NR.C108.c108_lines",
    "NR.C108.c108_returns",
    "NR.C108.c108_repeated",
    "NR.C108.c108_once_false"
   ],
   "note": "c108_any with c108_decided for all loggers and histories, c108_lines for loggers that were set up, c108_returns, c108_repeated; c108_once_false is the failing expectation. Python's logging is modelled by its documentation (table of loggers by name, ancestors by dotted name, levels, propagation); two dots in a row in a name, where the library skips an ancestor, and the output to standard error of records without any handler are not modelled."
  },
  {
   "property": "C109",
   "status": "proved",
   "theorems": [
    "NR.c109_encode",
    "NR.c109_send",
    "NR.c109_signed",
    "NR.c109_array",
    "NR.c109_parser",
    "NR.c109_array_false"
   ],
   "note": "c109_encode and c109_send by comparing the generated tables of both dialects (kernel evaluation over all six messages) and C91; c109_signed, c109_array, c109_parser; c109_array_false is the failing expectation, on a properly signed HEARTBEAT for any digest function of at least 6 bytes. That array.array has no tostring from Python 3.9 on is taken from Python's documentation."
  },
  {
   "property": "C110",
   "status": "proved",
   "theorems": [
    "NR.C110.c110_summary",
    "NR.C110.c110_metrics",
    "NR.C110.c110_informedness",
    "NR.C110.c110_fscore",
    "NR.C110.c110_fscore_false",
    "NR.C110.c110_functions",
    "NR.C110.c110_confusion",
    "NR.C110.c110_mixed",
    "NR.C110.c110_quality"
   ],
   "note": "c110_summary links the rows to the step of C82; c110_metrics, c110_informedness, c110_functions, c110_confusion, c110_mixed, c110_quality; c110_fscore says what the F-score column is, c110_fscore_false that it is not F0.5. MATLAB's implicit growth of matrices is modelled; doubles are reals, quotients by zero NaN."
  },
  {
   "property": "C111",
   "status": "proved",
   "theorems": [
    "NR.C111.c111_mle",
    "NR.C111.c111_range",
    "NR.C111.c111_study",
    "NR.C111.c111_share",
    "NR.C111.c111_shrink",
    "NR.C111.c111_window_false",
    "NR.C111.c111_points_false"
   ],
   "note": "c111_mle compares with the Python study of C94; c111_study, c111_range, c111_share, c111_shrink; c111_window_false and c111_points_false are the failing expectations. Random draws are arguments, doubles are reals."
  },
  {
   "property": "C112",
   "status": "proved",
   "theorems": [
    "NR.C112.c112_missions",
    "NR.C112.c112_used",
    "NR.C112.c112_read",
    "NR.C112.c112_copy",
    "NR.C112.c112_search",
    "NR.C112.c112_rows",
    "NR.C112.c112_nearest_false",
    "NR.C112.c112_clean_false"
   ],
   "note": "c112_missions, c112_used, c112_read, c112_copy, c112_search, c112_rows; c112_nearest_false and c112_clean_false are the failing expectations. xcorr is taken to be exact and its maximum the first one; the decoder is an arbitrary function; time stamps are whole seconds."
  },
  {
   "property": "C113",
   "status": "proved",
   "theorems": [
    "NR.C113.c113_bins",
    "NR.C113.c113_totals",
    "NR.C113.c113_days"
   ],
   "note": "c113_bins, c113_totals and c113_days. Doubles are reals: the edges are exact multiples of the width, so rounding at an edge is outside the model. The modem's error rates are -1 or at least 0 (hypothesis of c113_days)."
  },
  {
   "property": "C114",
   "status": "proved",
   "theorems": [
    "NR.C114.c114_text",
    "NR.C114.c114_roundtrip",
    "NR.C114.c114_crash",
    "NR.C114.c114_raising",
    "NR.C114.c114_history",
    "NR.C114.c114_old_lost",
    "NR.C114.c114_foreign",
    "NR.C114.c114_no_type",
    "NR.C114.c114_ascii"
   ],
   "note": "c114_text (writer and reader of JSON are inverse), c114_roundtrip (C34 without identifying the text with the value), c114_crash (every point of interruption), c114_raising, c114_history, c114_ascii (a character is a byte), c114_old_lost (the expectation that fails, for every earlier file). Python's json package is modelled (indent=4, ensure_ascii, sorted keys; white space, escapes, numbers, surrogate pairs); float repr/parse are parameters assumed inverse to each other, and a telemetry float survives the way into a Python float and back when finite. The characters reach the file in order. c114_foreign and c114_no_type say what load raises on a file that holds JSON but no model."
  },
  {
   "property": "C115",
   "status": "proved",
   "theorems": [
    "NR.C115.c115_separate",
    "NR.C115.c115_order",
    "NR.C115.c115_keep",
    "NR.C115.c115_untouched",
    "NR.C115.c115_own_log",
    "NR.C115.c115_shared_log",
    "NR.C115.c115_sequential",
    "NR.C115.c115_stamp",
    "NR.C115.c115_stamp_torn",
    "NR.C115.c115_stamp_order_false",
    "NR.C115.c115_side_by_side_false",
    "NR.C115.c115_clustering_log_false",
    "NR.C115.c115_step_pickle_false"
   ],
   "note": "c115_separate, c115_order, c115_keep, c115_untouched (all 18 scripts), c115_own_log, c115_shared_log (any past, one run acting), c115_sequential, c115_stamp; the failing expectations with witnesses: c115_side_by_side_false, c115_clustering_log_false, c115_step_pickle_false, c115_stamp_torn, c115_stamp_order_false. The file system is modelled as directories, files (writer, closed or not) and append-only logs which a move renames while they stay open, as on Linux; os.mkdir is atomic. Writing a file is one opening and one closing; records of pool processes count as the run's."
  },
  {
   "property": "C116",
   "status": "proved",
   "theorems": [
    "NR.C116.c116_values",
    "NR.C116.c116_learned",
    "NR.C116.c116_readable"
   ],
   "note": "c116_values (one buffer), c116_learned (any history of buffers), c116_readable (exactly when the values can be read). Spec/Numbers.lean says which numbers a decoded message has under which names. A message with an array can be found, an AUTH_KEY for instance, and then the whole buffer is lost to the model."
  },
  {
   "property": "C117",
   "status": "proved",
   "theorems": [
    "NR.C117.c117_learned",
    "NR.C117.c117_mission",
    "NR.C117.c117_poisoned",
    "NR.C117.c117_padding_false"
   ],
   "note": "c117_learned (any words made of frames and padding), c117_mission (the mission, joining C77, C78, C57 and C116), c117_poisoned (nothing is learned after an array message in the first decoded word), c117_padding_false (a mission word whose padding is an AUTH_KEY frame). Which words arrive is a hypothesis on the runs of the LDPC decoder, which is external."
  },
  {
   "property": "C118",
   "status": "proved",
   "theorems": [
    "NR.C118.c118_curves",
    "NR.C118.c118_rising",
    "NR.C118.c118_labels",
    "NR.C118.c118_three_clusters_false",
    "NR.C118.c118_three_rows_false",
    "NR.C118.c118_three_metrics_false",
    "NR.C118.c118_own_errors_false",
    "NR.C118.c118_single_rate_false"
   ],
   "note": "c118_curves (every point of every curve, from the fields as received), c118_rising (the curves rise), c118_labels (the legend), c118_own_errors_false (runs with errors of their own), c118_three_clusters_false, c118_three_rows_false and c118_three_metrics_false (three clusters: structures, counts, metrics), c118_single_rate_false. Built on c110_summary and the metrics of C110. `Bits` indexed like bytes are modelled as bytes 0 and 1."
  },
  {
   "property": "C119",
   "status": "proved",
   "theorems": [
    "NR.Fix.c119_parts",
    "NR.Fix.c119_returns",
    "NR.Fix.c119_raises",
    "NR.Fix.c119_rescue"
   ],
   "note": "c119_parts (what the three files hold), c119_returns (exactly when the script returns), c119_rescue (the files it reads, from the model of the results directory of C115). That pickle, lzma and savemat keep values is not modelled. scripts/buffer_segmentation_example.py is not modelled: it unpacks the three values of `predict` into two names and so raises ValueError before it trains a model; cluster_mnist.py overwrites the classifier it has just saved. c119_raises says which exception is raised for the first step without a table of data."
  },
  {
   "property": "C120",
   "status": "proved",
   "theorems": [
    "NR.C120.c120_gaps",
    "NR.C120.c120_resync",
    "NR.C120.c120_silent",
    "NR.C120.c120_bound_false"
   ],
   "note": "c120_gaps (noise without markers), c120_resync (before, and from 279 bytes after any noise), c120_silent and c120_bound_false (a receiver that never gets back in step). Same parser model as C14; robust mode, no native parser, no callbacks."
  },
  {
   "property": "C121",
   "status": "proved",
   "theorems": [
    "NR.C121.c121_lost",
    "NR.C121.c121_damaged",
    "NR.C121.c121_single_bit",
    "NR.C121.c121_intact_false",
    "NR.C121.c121_sent_false"
   ],
   "note": "c121_lost (no acceptable frame starts with the damaged bytes), c121_damaged (damage the decoder notices), c121_single_bit, c121_intact_false and c121_sent_false (a frame uncovered inside a payload). ExactlyLost is the specification of what segmentation returns."
  },
  {
   "property": "C122",
   "status": "proved",
   "theorems": [
    "NR.C122.c122_learned",
    "NR.C122.c122_predefined",
    "NR.C122.c122_repaired",
    "NR.C122.c122_change_false"
   ],
   "note": "c122_learned, c122_predefined (the decisions on every bit), c122_repaired (wrong bits before and after), c122_change_false (one wrong bit received, two handed over). Builds on C80 and C33. Statistics are a parameter that must be exact on windows of one repeated number (ExactFor): trueOps_exact shows this for mean and deviation over the reals, C128 for 64-bit floats."
  },
  {
   "property": "C123",
   "status": "proved",
   "theorems": [
    "NR.C123.c123_accept_iff",
    "NR.C123.c123_other",
    "NR.C123.c123_same",
    "NR.C123.c123_padding",
    "NR.C123.c123_only_frames",
    "NR.C123.c123_signature_false",
    "NR.C123.c123_payload_false"
   ],
   "note": "c123_accept_iff, c123_only_frames (every accepted string is a frame2), c123_same, c123_padding, c123_other, c123_signature_false, c123_payload_false. No signing key is set (C75 treats keys)."
  },
  {
   "property": "C124",
   "status": "proved",
   "theorems": [
    "NR.C124.c124_version1",
    "NR.C124.c124_version2_false",
    "NR.C124.c124_marker",
    "NR.C124.c124_mixed",
    "NR.C124.c124_flags_false"
   ],
   "note": "c124_version1 (ties the model of this file to packMsg and packMsgS), c124_mixed, c124_flags_false, c124_version2_false, c124_marker. WIRE_PROTOCOL_VERSION is a parameter. SHA-256 is an arbitrary function with digests of at least 6 bytes (c124_marker); robust mode, no native parser, no callbacks."
  },
  {
   "property": "C125",
   "status": "proved",
   "theorems": [
    "NR.C125.c125_seen",
    "NR.C125.c125_returned_false",
    "NR.C125.c125_send",
    "NR.C125.c125_numbers",
    "NR.C125.c125_unsent_false"
   ],
   "note": "c125_seen (receiving), c125_send and c125_numbers (sending), c125_returned_false, c125_unsent_false. logged / tapped only write down what the callback and the line are called with. Callbacks do not use the MAVLink object they are set on; robust mode, no native parser."
  },
  {
   "property": "C126",
   "status": "proved",
   "theorems": [
    "NR.C126.c126_words",
    "NR.C126.c126_mission"
   ],
   "note": "c126_words (words made of frames and padding), c126_mission (the mission, joining C77, C78, C117, C122 and C80). Which words arrive is a hypothesis on the runs of the LDPC decoder, which is external; statistics must be exact on windows of one repeated number (ExactFor) and must not raise on the fields of the model (Fitted); C128 derives both for 64-bit floats. An example runs it on the sample recording with real statistics."
  },
  {
   "property": "C127",
   "status": "proved",
   "theorems": [
    "NR.C127.c127_calls",
    "NR.C127.c127_bytewise",
    "NR.C127.c127_catch_up",
    "NR.C127.c127_buffer",
    "NR.C127.c127_buffer_sound",
    "NR.C127.c127_clean",
    "NR.C127.c127_lost_false",
    "NR.C127.c127_none_false"
   ],
   "note": "c127_calls (parse_char, any cut), c127_bytewise, c127_catch_up, c127_buffer (parse_buffer, call by call), c127_buffer_sound, c127_clean; c127_lost_false and c127_none_false hold for every packed frame. Complaints counts refused frames and unbroken runs of stray bytes. No native parser, no callbacks."
  },
  {
   "property": "C128",
   "status": "proved",
   "theorems": [
    "NR.C128.c128_constant",
    "NR.C128.c128_exact_int",
    "NR.C128.c128_exact_float",
    "NR.C128.c128_varied",
    "NR.C128.c128_decides",
    "NR.C128.c128_exact_small",
    "NR.C128.c128_stops",
    "NR.C128.c128_judges",
    "NR.C128.c128_floats",
    "NR.C128.c128_constant_false",
    "NR.C128.c128_ones_false",
    "NR.C128.c128_zero_false",
    "NR.C128.c128_mission"
   ],
   "note": "c128_constant, c128_varied (the arithmetic), c128_decides (integer fields up to 32 bits), c128_floats, c128_exact_int, c128_exact_small, c128_exact_float (the exactness C122 and C126 ask for), c128_mission; c128_constant_false, c128_ones_false and c128_zero_false hold on every machine. The machine (rounding, order, packing of floats) is a parameter; machine_exists shows that one meets the assumptions. Rounding saturates instead of overflowing, which plays no part below 2^1023. Scores of varying fields stay over the reals. c128_stops, c128_judges."
  },
  {
   "property": "C129",
   "status": "proved",
   "theorems": [
    "NR.C129.c129_sign",
    "NR.C129.c129_sign_range",
    "NR.C129.c129_sign_always_false",
    "NR.C129.c129_significant",
    "NR.C129.c129_significant_always_false",
    "NR.C129.c129_quiet"
   ],
   "note": "c129_sign, c129_sign_range, c129_significant, c129_quiet; c129_sign_always_false and c129_significant_always_false say exactly when the answer is an exception or NaN. Over the reals; the difference between the Python integers before the first fit and the NumPy doubles after it is modelled. The three methods are marked as unfinished in the code and nothing in the repository calls them."
  },
  {
   "property": "C130",
   "status": "proved",
   "theorems": [
    "NR.C130.c130_points",
    "NR.C130.c130_count",
    "NR.C130.c130_nested",
    "NR.C130.c130_near",
    "NR.C130.c130_share",
    "NR.C130.c130_whole_false"
   ],
   "note": "c130_points, c130_near, c130_count, c130_nested, c130_share; c130_whole_false is the lost error, for every nearest rounding. NumPy's linspace is modelled operation by operation from its documentation and source, it is not part of the repository."
  },
  {
   "property": "C131",
   "status": "proved",
   "theorems": [
    "NR.C131.c131_word",
    "NR.C131.c131_decisions",
    "NR.C131.c131_repaired",
    "NR.C131.c131_centre",
    "NR.C131.c131_untouched",
    "NR.C131.c131_errors",
    "NR.C131.c131_bayes",
    "NR.C131.c131_given",
    "NR.C131.c131_ties",
    "NR.C131.c131_change_false"
   ],
   "note": "c131_word (the word), c131_decisions, c131_repaired, c131_centre, c131_untouched, c131_errors, c131_bayes, c131_given (predefined model); c131_change_false is the refuted part; c131_ties covers bit-flipping decoders, over the reals: in floats the zero can be a rounding error of either sign. A word without a positive ratio collapses (C55)."
  },
  {
   "property": "C132",
   "status": "proved",
   "theorems": [
    "NR.C132.c132_profile",
    "NR.C132.c132_dive_false",
    "NR.C132.c132_slope_false",
    "NR.C132.c132_joints",
    "NR.C132.c132_negative",
    "NR.C132.c132_noise_false"
   ],
   "note": "c132_profile, c132_joints; c132_dive_false, c132_slope_false, c132_noise_false are the refuted parts; c132_negative. Over the reals. Standard normal draws are parameters. The file opened by the script is not modelled: nothing is written to it."
  },
  {
   "property": "C133",
   "status": "proved",
   "theorems": [
    "NR.C133.c133_same",
    "NR.C133.c133_log_likelihood",
    "NR.C133.c133_hamming",
    "NR.C133.c133_unchanged",
    "NR.C133.c133_lengths",
    "NR.C133.c133_constant",
    "NR.C133.c133_lost_false",
    "NR.C133.c133_recovers",
    "NR.C133.c133_labels",
    "NR.C133.c133_absorbed",
    "NR.C133.c133_lost_forever",
    "NR.C133.c133_settling_log_likelihood",
    "NR.C133.c133_settling_hamming",
    "NR.C133.c133_settles"
   ],
   "note": "c133_same says that the model of the states left behind agrees with the model of the values returned (Model/Clustering.lean); c133_labels, c133_absorbed, c133_unchanged, c133_recovers, c133_lengths, c133_constant, c133_settles; c133_log_likelihood, c133_hamming, c133_settling_log_likelihood and c133_settling_hamming say that the metrics of the code meet the hypothesis of the theorems; c133_lost_false and c133_lost_forever are the refuted part. Buffers of one bit are left out: numpy would broadcast them."
  },
  {
   "property": "C134",
   "status": "proved",
   "theorems": [
    "NR.C134.c134_posterior",
    "NR.C134.c134_posterior_range",
    "NR.C134.c134_bayes",
    "NR.C134.c134_bayes_range",
    "NR.C134.c134_mle",
    "NR.C134.c134_weights",
    "NR.C134.c134_weight",
    "NR.C134.c134_bayes_weight",
    "NR.C134.c134_second"
   ],
   "note": "c134_posterior computes the integrals of Spec/Posterior.lean; c134_bayes, c134_bayes_range, c134_mle are about the two estimators; c134_weights, c134_weight, c134_bayes_weight about scheme 4; c134_second says what the second attempt is given, end to end from the history. The example decodes a heartbeat first."
  },
  {
   "property": "C135",
   "status": "proved",
   "theorems": [
    "NR.C135.c135_influence",
    "NR.C135.c135_second",
    "NR.C135.c135_decisions",
    "NR.C135.c135_repaired",
    "NR.C135.c135_one_model",
    "NR.C135.c135_seasoned",
    "NR.C135.c135_centre",
    "NR.C135.c135_untouched"
   ],
   "note": "c135_second says what the second attempt is given, c135_decisions its signs, c135_repaired and c135_one_model the repair, c135_influence and c135_seasoned bound the influences, c135_centre is the repair by seasoned models, c135_untouched the other bits. The example has seen two heartbeats and receives a word that is wrong wherever a one was sent."
  },
  {
   "property": "C136",
   "status": "proved",
   "theorems": [
    "NR.C136.c136_constant",
    "NR.C136.c136_bounded",
    "NR.C136.c136_wins",
    "NR.C136.c136_loses",
    "NR.C136.c136_alone",
    "NR.C136.c136_repaired",
    "NR.C136.c136_no_structure",
    "NR.C136.c136_learned"
   ],
   "note": "The words of C85 (what is handed to the LDPC decoder after any history) are the subject of c136_wins, c136_loses, c136_alone and c136_repaired; c136_no_structure and c136_learned are about clusters without a structure, end to end. The example has decoded two words and receives one that says the opposite at both model bits."
  },
  {
   "property": "C137",
   "status": "proved",
   "theorems": [
    "NR.C137.c137_overruled",
    "NR.C137.c137_others",
    "NR.C137.c137_evidence",
    "NR.C137.c137_default",
    "NR.C137.c137_constant",
    "NR.C137.c137_fresh"
   ],
   "note": "Built on c72_combines. c137_overruled is the exact rule, c137_evidence the evidence it needs, c137_default the default channel, c137_constant bits that never changed, c137_fresh new contexts, c137_others the remaining bits. In the example a one of magnitude 1/4 is overruled after 102 zeros."
  },
  {
   "property": "C138",
   "status": "proved",
   "theorems": [
    "NR.C138.c138_learned",
    "NR.C138.c138_agrees",
    "NR.C138.c138_headers",
    "NR.C138.c138_nothing"
   ],
   "note": "c138_learned is the content after any training, c138_agrees the comparison with add_buffer (c116_learned), c138_headers which names get a model, c138_nothing the buffer without messages. Messages with arrays are excluded, as in C116: add_buffer cannot read them. The example trains on a buffer of two heartbeats with noise."
  },
  {
   "property": "C139",
   "status": "proved",
   "theorems": [
    "NR.C139.c139_runs",
    "NR.C139.c139_learned",
    "NR.C139.c139_repeats",
    "NR.C139.c139_echo",
    "NR.C139.c139_round_robin",
    "NR.C139.c139_hard"
   ],
   "note": "c139_runs is the course of a call for any two decoders, c139_learned what the entropy decoder holds after one, c139_repeats after any sequence of words that are never decoded, c139_echo the case of a second decoder that adds nothing, c139_round_robin the clusters used, c139_hard the exception. What the models learn is stated for one cluster. The example calls three rounds on a word seen once before: the window then holds it four times."
  },
  {
   "property": "C140",
   "status": "proved",
   "theorems": [
    "NR.C140.c140_odd",
    "NR.C140.c140_three",
    "NR.C140.c140_four",
    "NR.C140.c140_lost",
    "NR.C140.c140_stream",
    "NR.C140.c140_stream_silent",
    "NR.C140.c140_silent",
    "NR.C140.c140_id_false"
   ],
   "note": "c140_odd and c140_three are the error patterns that are noticed, c140_four shows that four is the limit in every frame with three payload bytes, c140_id_false that the id must be spared, c140_lost and c140_silent are the consequences for the segmentation, c140_stream and c140_stream_silent for a receiver of the stream. The order of the generator polynomial is computed by the kernel for the at most 2104 bits of a frame."
  },
  {
   "property": "C141",
   "status": "proved",
   "theorems": [
    "NR.C141.c141_repairs",
    "NR.C141.c141_header",
    "NR.C141.c141_single_iff",
    "NR.C141.c141_count",
    "NR.C141.c141_wrong"
   ],
   "note": "c141_repairs and c141_header are the general bound, from the triangle inequality; c141_single_iff is the exact boundary for single errors (c141_count counts it) and c141_wrong the failure. The distances between the 155 types are computed by the kernel."
  },
  {
   "property": "C142",
   "status": "proved",
   "theorems": [
    "NR.C142.c142_load",
    "NR.C142.c142_learns_nothing",
    "NR.C142.c142_resave",
    "NR.C142.c142_size",
    "NR.C142.c142_sized",
    "NR.C142.c142_decodes"
   ],
   "note": "c142_load, c142_learns_nothing, c142_resave for files without a size, c142_decodes for decoders with learning off, c142_sized for files with one. The model keeps the size None apart from 0, which Model/SaveLoad.lean does not."
  },
  {
   "property": "C143",
   "status": "proved",
   "theorems": [
    "NR.C143.c143_stuck",
    "NR.C143.c143_combined",
    "NR.C143.c143_fresh",
    "NR.C143.c143_fresh_combined",
    "NR.C143.c143_field_trained",
    "NR.C143.c143_unused",
    "NR.C143.c143_unused_returns"
   ],
   "note": "c143_stuck and c143_combined are the general claims, c143_fresh and c143_fresh_combined name the exception for new models, c143_field_trained ties it to the models of C138; c143_unused and c143_unused_returns are about predefined models without structures. That decoders whose model knows all fields go through is C80 and C85."
  },
  {
   "property": "C144",
   "status": "proved",
   "theorems": [
    "NR.C144.c144_moments",
    "NR.C144.c144_single",
    "NR.C144.c144_copies",
    "NR.C144.c144_names",
    "NR.C144.c144_twins",
    "NR.C144.c144_one_feature_false",
    "NR.C144.c144_constant"
   ],
   "note": "c144_moments, c144_single, c144_copies (order and repetition of samples), c144_names, c144_constant, c144_twins; c144_one_feature_false is the failing expectation, for all data. Over the reals; the random starting values are a parameter."
  },
  {
   "property": "C145",
   "status": "proved",
   "theorems": [
    "NR.C145.c145_log_likelihood",
    "NR.C145.c145_hamming",
    "NR.C145.c145_copies",
    "NR.C145.c145_noise",
    "NR.C145.c145_noise_none",
    "NR.C145.c145_noise_hamming_false",
    "NR.C145.c145_weights_false"
   ],
   "note": "c145_log_likelihood, c145_hamming, c145_copies, c145_noise, c145_noise_none; c145_weights_false is the failing variant without the condition on the weights, c145_noise_hamming_false the one for Hamming distance with wrong bits. Distances and likelihoods over the reals."
  },
  {
   "property": "C146",
   "status": "proved",
   "theorems": [
    "NR.C146.c146_two_sided",
    "NR.C146.c146_needed",
    "NR.C146.c146_online",
    "NR.C146.c146_constant",
    "NR.C146.c146_telling_false"
   ],
   "note": "c146_two_sided, c146_needed, c146_constant, c146_online; c146_telling_false is the failing variant. Decisions over the reals as in C42."
  },
  {
   "property": "C147",
   "status": "proved",
   "theorems": [
    "NR.C147.c147_repaired",
    "NR.C147.c147_failing",
    "NR.C147.c147_forever"
   ],
   "note": "c147_repaired, c147_failing, c147_forever. The decoder model runs the classifier model itself; the LDPC decoder is any function with a state, in c147_forever one that corrects up to T errors. Numbers are reals."
  },
  {
   "property": "C148",
   "status": "proved",
   "theorems": [
    "NR.C148.c148_forever"
   ],
   "note": "c148_forever. The LDPC decoder is any function with a state that corrects T and detects E errors. Numbers are reals."
  },
  {
   "property": "C149",
   "status": "proved",
   "theorems": [
    "NR.C149.c149_told",
    "NR.C149.c149_left",
    "NR.C149.c149_misled",
    "NR.C149.c149_budget"
   ],
   "note": "c149_told, c149_left, c149_misled, c149_budget. The LDPC decoder is any function with a state that corrects T errors and returns words that contain the model bits. Numbers are reals."
  },
  {
   "property": "C150",
   "status": "proved",
   "theorems": [
    "NR.C150.c150_rates"
   ],
   "note": "c150_rates. The LDPC decoder is any function with a state that corrects T errors and returns words of N bits; the loop and the rates are those of C83. Numbers are reals, rates rationals."
  },
  {
   "property": "C151",
   "status": "proved",
   "theorems": [
    "NR.C151.c151_forever",
    "NR.C151.c151_spared",
    "NR.C151.c151_mission"
   ],
   "note": "c151_forever for any words and classifier, c151_spared for which bits are never hard, c151_mission for buffers made from a recording. The LDPC decoder is any function with a state that corrects T errors of the code; the exactness of the statistics is that of C122. Numbers are reals."
  },
  {
   "property": "C152",
   "status": "proved",
   "theorems": [
    "NR.C152.c152_rates",
    "NR.C152.c152_defaults_false",
    "NR.C152.c152_learning_false"
   ],
   "note": "c152_rates for a decoder that is given structures, c152_defaults_false for the default options, c152_learning_false for learning without clustering; the fourth combination of the two options is c83_options_false. The model loaded is one made with add_buffer from any buffers (C34 is about saving and loading); words, errors and the LDPC decoders are parameters. Statistics are over the reals, rates rational numbers."
  },
  {
   "property": "C153",
   "status": "proved",
   "theorems": [
    "NR.C153.c153_forever",
    "NR.C153.c153_hard",
    "NR.C153.c153_heard"
   ],
   "note": "c153_forever is the sequence of calls, c153_hard and c153_heard say which bits count. The example: any number of words, each with 120 of 136 bits received wrong, for an LDPC decoder that corrects none. Numbers are reals; the LDPC decoder and the classifier are parameters."
  },
  {
   "property": "C154",
   "status": "proved",
   "theorems": [
    "NR.C154.c154_forever"
   ],
   "note": "c154_forever; c153_hard applies to the same words. The example: a heartbeat received right and one with three wrong bits, for an LDPC decoder that corrects none. Numbers are reals; the LDPC decoder, the classifier and the statistics are parameters."
  },
  {
   "property": "C155",
   "status": "proved",
   "theorems": [
    "NR.C155.c155_rates",
    "NR.C155.c155_learning_false"
   ],
   "note": "c155_rates for the predefined model, c155_learning_false for learning. The example: any number of words, each with 60 of 136 bits inverted, for an LDPC decoder that corrects none; alone it decodes no word, the combined decoder all of them. Numbers are reals; the LDPC decoders, the classifier and the other decoders are parameters."
  },
  {
   "property": "C156",
   "status": "proved",
   "theorems": [
    "NR.C156.c156_pair",
    "NR.C156.c156_converse",
    "NR.C156.c156_awgn"
   ],
   "note": "c156_pair from the comparison to the simulation of two, c156_converse the other way round, c156_awgn over the channel with Gaussian noise. That the decoders are the same ones is said by what they return for the words of the channel, so the two scripts may keep different states. The inverted positions are distinct and inside the word, which rng.choice without replacement guarantees. The example: decoders that decode all, half and none of the words."
  },
  {
   "property": "C157",
   "status": "proved",
   "theorems": [
    "NR.C157.c157_repaired",
    "NR.C157.c157_decodes",
    "NR.C157.c157_run"
   ],
   "note": "c157_repaired for one bit of any cluster, c157_decodes for one call, c157_run for every word of a run with one cluster. The example: 202 words, both model bits wrong in the first and in the last one, and an LDPC decoder that corrects nothing; the last word is decoded. Numbers are reals."
  },
  {
   "property": "C158",
   "status": "proved",
   "theorems": [
    "NR.C158.c158_needed",
    "NR.C158.c158_bsc",
    "NR.C158.c158_signs"
   ],
   "note": "c158_needed for any received word, c158_bsc for the binary symmetric channel, c158_signs for LDPC decoders that look only at signs. The bound says when overruling is impossible; C137 says exactly when it happens. Numbers are reals."
  },
  {
   "property": "C159",
   "status": "proved",
   "theorems": [
    "NR.C159.c159_word",
    "NR.C159.c159_loop",
    "NR.C159.c159_same",
    "NR.C159.c159_reports"
   ],
   "note": "c159_word for one call, c159_loop for the loop, c159_same for the report, c159_reports that it does report. The recover rate is that of simulated_data_mavlink_decoding.py; the DUDE script reports the two rates only. The sum-product decoder does not look only at signs and is not covered. Numbers are reals."
  },
  {
   "property": "C160",
   "status": "proved",
   "theorems": [
    "NR.C160.c160_repaired",
    "NR.C160.c160_decodes",
    "NR.C160.c160_run"
   ],
   "note": "c160_repaired for one bit and c160_decodes for one call in any cluster, c160_run for a run with one cluster over the binary symmetric channel. The bound log(2^52 + 1) comes from the machine epsilon the code adds to the probabilities. Numbers are reals."
  },
  {
   "property": "C161",
   "status": "proved",
   "theorems": [
    "NR.C161.c161_rate"
   ],
   "note": "c161_rate. The example: 2 M words of zeros and one with both model bits wrong, with an LDPC decoder that corrects nothing. Numbers are reals; the rate is an exact fraction."
  }
 ]
}