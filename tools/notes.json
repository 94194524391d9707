{
 "C01": {
  "note": "hamming_distance counts differing positions; metric laws; bytes/ints/bit sequences agree."
 },
 "C02": {
  "note": "Exact success condition and the raised errors."
 },
 "C03": {
  "note": "Construction accepted exactly for 0..255 fields and known ids; serialised layout; properties read back."
 },
 "C04": {
  "note": "A 6-byte string is a valid header iff it is the buffer of some constructible header."
 },
 "C05": {
  "note": "Parsing: round trip, repair of marker/length, forced id, errors."
 },
 "C06": {
  "note": "Nearest valid header without limit: attained, minimal, zero iff valid, first of the nearest, wrong length raises."
 },
 "C07": {
  "note": "c07_limited_nearest (no exact match beyond the limit) and c07_limited_excluded (exact match beyond the limit) cover all inputs; c07_limited_nearest_false refutes the unrestricted expectation; c06_first (ties) holds with limits too."
 },
 "C10": {
  "note": "All message types and all in-range values, including arrays and character arrays; c10_round_trip_exact gives identical values for types without character fields."
 },
 "C11": {
  "note": "Burst (<=16 bits), checksum-only and single-bit errors. The single-bit claim has exactly one exception in the whole table (ids 4/6 at payload length 208); c11_single_bit_false shows the exception is real.",
  "status": "proved"
 },
 "C12": {
  "note": "decode on every non-empty byte string returns or raises MAVError; the empty string raises IndexError."
 },
 "C13": {
  "note": "Exact acceptance condition for v1 frames."
 },
 "C08": {
  "note": "Metadata length equals the wire payload length exactly for the types without array fields; c08_all_types_false refutes the unrestricted reading.",
  "status": "proved"
 },
 "C09": {
  "note": "Names are a permutation of the fields without repetition; the payload is the concatenation in metadata order of each field's encoding in its listed type."
 },
 "C16": {
  "note": "All buffers; arbitrary parser for c16_genuine, the dialect's decoder for c16_fits (an arbitrary parser may accept a truncated slice, then the frame need not fit)."
 },
 "C17": {
  "note": "All buffers, arbitrary parser."
 },
 "C18": {
  "note": "All buffers, arbitrary parser: labels per byte and validity per bit."
 },
 "C19": {
  "note": "All buffers, arbitrary parser; characterises the reported structure by an iff."
 },
 "C20": {
  "note": "c20_never_raises is for the dialect's decoder; c20_raises / c20_propagates say for an arbitrary parser exactly which exceptions escape."
 },
 "C21": {
  "note": "All lists of packed messages of array-free types, through the dialect's decoder."
 },
 "C22": {
  "note": "All pairs of buffers with a fully recovered first part."
 },
 "C23": {
  "note": "All message types with an array or string field: accepted by the decoder, never reported by segment_buffer. c23_every_message_found_false refutes the general expectation."
 },
 "C24": {
  "note": "All label vectors as long as the buffer; c24_after_segmentation composes it with segment_buffer."
 },
 "C14": {
  "note": "Robust mode, no native parser, no callbacks. All chunkings: same items, leftover, counters, bytes_needed; termination of parse_buffer's loop is part of c14_chunks. c14_not_robust_false: without robust parsing the claim fails."
 },
 "C15": {
  "note": "All histories of sends including failing ones (exception caught by the caller). file.write assumed to succeed. c15_received composes sender and receiver."
 },
 "C25": {
  "note": "c25_fields: the whole result, message by message; field_key by c25_key (names of the form message_field; a message having a text field called name shows that text). c25_nothing: the bare empty dict. Also shows get_msg_fields never raises when the segmenter uses the same decoder."
 },
 "C26": {
  "note": "c26_register decides each registration; c26_history for all histories; c26_equality, c26_equal_iff, c26_equal_buffers; c26_own_buffer: a structure found in a buffer accepts that buffer."
 },
 "C27": {
  "note": "Any history of additions and reads; the samples are windowed by Spec.windowed. A window of 0 keeps everything, as in the code (a slice [-0:])."
 },
 "C28": {
  "note": "The fitting routine is an arbitrary parameter (StatOps); the answer to every read equals the answer recomputed from the full window."
 },
 "C29": {
  "note": "c29_classify, c29_probability. Over the reals (for rounding see C128), with erf defined by its integral in Spec/Gauss and the normal distribution of Mathlib in Spec/Normal; Lemmas/Normal proves its distribution function from the integral."
 },
 "C30": {
  "note": "Any history of add_buffer calls, including raising ones. The domain in which a call succeeds is exactly Addable."
 },
 "C31": {
  "note": "Bit b belongs to field k exactly when byte b/8 lies in place k of the wire layout; raises exactly outside the stated domain."
 },
 "C32": {
  "note": "Byte buffers, bit buffers, and the exact domain in which the call returns."
 },
 "C35": {
  "note": "Non-overlapping array-free messages inside the buffer; error positions are non-negative."
 },
 "C36": {
  "note": "The statistics routine is a parameter assumed not to raise; scores are expressed from the add_buffer history."
 },
 "C33": {
  "note": "Numbers are rationals plus infinities, NaN and strings; the conversion to single precision is a parameter."
 },
 "C34": {
  "note": "The JSON text is identified with what json.load reads back from json.dump output (C114 proves this for the text itself); statistics routine arbitrary except that it raises on non-numbers. All add_buffer histories, any description. c34_foreign: a file without a dict of field models."
 },
 "C69": {
  "note": "The constant-buffer theorem uses an exact rational mean; float fields are assumed to survive conversion from and to single precision."
 },
 "C37": {
  "note": "Proved for histories whose clusters all start from non-constant buffers; c37_constant_false exhibits the failure for constant ones."
 },
 "C38": {
  "note": "Metric values, comparisons and merge distances are arbitrary (NaN included). c38_returns shows that no call raises if the training buffers are non-constant and the metric does not raise."
 },
 "C39": {
  "note": "Log-likelihoods are over the reals; numpy's rounding is not modelled. c39_reachable discharges the state hypotheses."
 },
 "C40": {
  "note": "The majority property is false of the code (c40_majority_false); c40_hard_bits_any is what holds."
 },
 "C47": {
  "note": "Exact rational frequencies."
 },
 "C48": {
  "note": "Over the reals."
 },
 "C49": {
  "note": "Over the reals; float rounding can make the radicand slightly negative in practice."
 },
 "C50": {
  "note": "Over the reals; overflow of floats is not modelled."
 },
 "C70": {
  "note": "The distance must not raise and take values in a linear order (no NaN)."
 },
 "C41": {
  "note": "Decision function and alphabet are arbitrary."
 },
 "C42": {
  "note": "Over the reals; np.linalg.inv is the matrix inverse."
 },
 "C43": {
  "note": "Over the reals. c43_smoothing states exactly what the smoothing computes."
 },
 "C44": {
  "note": "Symbols in range(alphabet_size)."
 },
 "C45": {
  "note": "Over the reals. For f = 1/2 the code divides by zero; the model returns 0 there."
 },
 "C46": {
  "note": "Arrays live in an explicit store, so copies and in-place updates are visible. c46_run: no exception on any sequence of equally long soft buffers."
 },
 "C51": {
  "note": "Over the reals. The NaN branch of fit is shown unreachable in exact arithmetic."
 },
 "C52": {
  "note": "Over the reals; also the unconditional bound c52_bounded_loss."
 },
 "C53": {
  "note": "Entropy decoder, any LDPC decoder and classifier (functions with hidden state). c53_window covers calls that raise too; c53_returned reads the learned vectors off arguments and return values. Needs model bits as many as model_length (otherwise every learning call raises, c53_raises). A window with a single letter raises IndexError after storing the sample (c53_raises, c53_returns)."
 },
 "C54": {
  "note": "Entropy decoder: c54_passthrough/c54_learns_nothing family. MAVLink decoder: the passthrough half holds (c54_mavlink_passthrough), the 'learns nothing' half is false and its negation is proved (c54_mavlink_false): label -1 is the last cluster, whose structure is set."
 },
 "C55": {
  "note": "Log-SPA path. c55_handed gives the word position by position; c55_bounded the bound and the collapse of an all-negative word; c55_reachable shows the well-formedness hypothesis of reachable states. If the only low-entropy bit is codeword bit 0 the model is ignored. c55_decode and c55_decode_bounded tie the word to the call: it is what the LDPC decoder is given, and the call returns the LDPC decoder's answer."
 },
 "C56": {
  "note": "Calls that raise count too. MAVLink decoder: holds with one segmentation iteration (c56_mavlink_round_robin); with two and a failing LDPC decoder the first call carries label 1 (c56_mavlink_false)."
 },
 "C58": {
  "note": "The two constituent decoders are arbitrary functions with hidden state (Soft/SoftDec); numbers are reals. c58_any gives the result and the states left behind for decoders that may raise in any round; c58_result gives the result of the first successful half-round, c58_debug the debug counters, c58_raises the exception path."
 },
 "C59": {
  "note": "Proved for the only confusion function of the repository (mavlink_decoder.py)."
 },
 "C60": {
  "note": "Proved for error positions in any order, repeated or negative; an out-of-range position raises."
 },
 "C61": {
  "note": "Over rationals: the property holds for signed arrays (c61_signed); the exact value for unsigned bytes is c61_uint8, and c61_uint8_false shows it exceeding 1."
 },
 "C62": {
  "note": "Over rationals, NaN as none. The branches meant to score an absent class are never taken (c62_absent_class)."
 },
 "C63": {
  "note": "The positive claim is false: c63_rows says which row is used for every sample, c63_all_zero its consequence, c63_false refutes the claim on a concrete chain. The random choice is an arbitrary function with hidden state."
 },
 "C66": {
  "note": "Holds for every buffer whose length is not exactly k (c66_buffer, c66_data); a buffer of exactly k bits makes the call raise (c66_exact_length_false), because bitstring refuses an unsigned integer of length 0. The encoder and the random generator are parameters."
 },
 "C67": {
  "note": "The claim as stated is false (c67_false); c67_total, c67_majority, c67_one_to_one_iff and c67_two_classes say what holds, and c67_recovers that a pure renaming is undone."
 },
 "C57": {
  "note": "Any LDPC decoder, classifier and segmentation of the information bytes; calls that raise are included. c57_learned determines structures, model size and field windows from the runs of the LDPC decoder, c57_returned ties those runs to what calls return. The debug analysis is not modelled."
 },
 "C64": {
  "note": "c64_windowed/c64_frozen: the distribution after any history; c64_returned: the learned words are model bits of returned estimates; c64_never_learns and c64_model_bits: when learning is possible at all; c64_not_ready, c64_prediction: what is handed to the second LDPC run; c64_one_letter: a first word of only one letter raises IndexError after the data was stored; c64_flip for the flipping decoder when model bits are the first codeword bits, c64_flip_false refutes the claim otherwise. The LDPC decoder is an arbitrary stateful function."
 },
 "C65": {
  "note": "Invariant over all histories (calls may raise): c65_positive, c65_floor, c65_exact, c65_probabilities; c65_step describes one update from any positive counters (ratio kept, floor after rescaling); c65_mismatch/c65_needs_window: misconfigured decoders. c65_max_false: the maximum is not enforced (total k+2 after k words, any window); c65_rescaled_exceeds: rescaling equal counts gives 2*window+2; c65_floor_elsewhere_false: other bits fall below the minimum."
 },
 "C71": {
  "note": "c71_models (both estimators), c71_windows (MLE, all calls returned), c71_one_letter (exactly when an MLE update raises), c71_unchanged, c71_prediction, c71_clipped (bound, and collapse of all-negative words), c71_confidences, c71_variance_weight, c71_scheme_two, c71_variance_scheme. bit_flip = 1/2 (division by zero) is outside the model. c71_returned: what is handed to the LDPC decoder and returned by a call."
 },
 "C68": {
  "note": "Both decoders modelled with debug off. c68_never_returns / c68_incorrect_length / c68_always_raises: the whole-codeword problem. c68_fits_returns, c68_window, c68_learned, c68_distribution, c68_mavlink: what is learned. c68_training, c68_handed, c68_entropy, c68_same_prediction: what is handed over. c68_unified_mismatch, c68_unified_once: too few model bit indices."
 },
 "C72": {
  "note": "Context length 0 is not covered (the denoisers then change their own context length, see c41_k_zero). c72_returned: a call returns the LDPC decoder's answer to the handed word."
 },
 "C73": {
  "note": "Error positions are non-negative integers; a word is a list of bits."
 },
 "C74": {
  "note": "The combined decoders contain the same analysis code (combined_decoder.py:205-246, combined_unified_decoder.py:235-276); their calls with debug on are C105. c74_exception says which exception a call for a cluster without a structure raises."
 },
 "C75": {
  "note": "SHA-256 is an arbitrary function H; where its length matters, H returns at least 6 bytes. c75_replay_false refutes replay protection on a concrete history; c75_first_frame / c75_forged_frame are the shut-out."
 },
 "C76": {
  "note": "c76_eq_iff (Spec/MsgEq.lean gives the value of a 32-bit pattern independently of the model's comparison), c76_none, c76_ne, c76_symm, c76_trans, c76_refl, c76_round_trip, c76_frames, c76_to_dict; c76_self_false, c76_frames_false, c76_text_false are the failures. Attribute objects shared between the two messages (identity shortcut of list comparison) are not modelled."
 },
 "C77": {
  "note": "c77_row, c77_buffer, c77_segment, c77_sequence, c77_times; c77_latest_false is the failure. Reading the mat files and the float conversion of the recorded values are not modelled: a recording holds the values passed to the constructors."
 },
 "C78": {
  "note": "c78_parts, c78_words, c78_padding, c78_multiply; c78_padding_false is the failure. The random generator is an arbitrary state machine; the encoder is external. c78_too_long."
 },
 "C79": {
  "note": "c79_shares, c79_distribution, c79_empty; c79_shares_false is the failure. Rational numbers stand for floats."
 },
 "C80": {
  "note": "c80_learned and c80_predefined say what is handed over after any calls; c80_handed ties it to the first run of the LDPC decoder of a call; c80_decisions gives the hard decisions. The statistics package is a parameter; fitting and rendering the means of the fields must not raise."
 },
 "C81": {
  "note": "c81_classifier and c81_unmodelled for the classifier; c81_forcing and c81_residual for the forcing. Scores are real numbers; numpy set operations are modelled as filters on sorted distinct lists."
 },
 "C82": {
  "note": "c82_words and c82_word; c82_outside for errors outside a word; c82_split and c82_rate for the counts; c82_learn_false shows that --learn 1 always raises. Loading the model from the file is not modelled: the model is given by the buffers it was made from."
 },
 "C83": {
  "note": "c83_step, c83_bounds, c83_channel, c83_empty; c83_options_false for the unassigned model. Decoders are arbitrary stateful functions; rates are exact rationals."
 },
 "C84": {
  "note": "c84_run and c84_unknown; c84_success_false for the meaning of the success rate. Decoders are arbitrary stateful functions; the second one gets the hint about the errors of each script."
 },
 "C85": {
  "note": "c85_learned and c85_predefined give the whole word for both decoders; c85_decisions the hard decisions of the unified one before the entropy ratios are added. Calls that raise inside the entropy update are excluded (C68 covers them)."
 },
 "C86": {
  "note": "c86_estimate is the statement about the estimator itself, for any words and position; c86_emle, c86_entropy, c86_combined and c86_bayes apply it to what the decoders store; c86_half covers the excluded flip probability."
 },
 "C87": {
  "note": "The message table of the minimal dialect is generated from its text; the codec is modelled with the table as a parameter and is, with the HC table, the model of C10-C15 (decodeWith_hc, parseBufferWith_hc)."
 },
 "C88": {
  "note": "c88_errors_false: `errors` holds truth values, yet is compared with the number of information bits as if it held positions. Densities and the normal distribution are those of Mathlib; erfc is the mathematical function. The normal numbers drawn are a parameter of the model and independent in c88_expected."
 },
 "C89": {
  "note": "c89_ragged_false, c89_rate_false, c89_clean_test_false and c89_saved_false are the parts that do not hold. Random numbers are parameters; the mixture model run on the same split is not part of this model, and that shuffling keeps the shares of the classes is not modelled. c89_classes."
 },
 "C90": {
  "note": "c90_forced_false and c90_forced_samples_false are the parts that do not hold. Sums that are zero throughout (the code divides zero by zero) are excluded from c90_sum. That learned states have the lengths asked for is c55_reachable."
 },
 "C91": {
  "note": "The table of the 155 constructors and 310 methods is generated from the text of HC_dialect.py; the checks made while generating are listed at its head."
 },
 "C92": {
  "note": "int and datetime.strptime are parameters. The texts between the markers are assumed to contain no A, d, t and no carriage return (digits, blanks and underscores in practice). c92_payload_false is the part that does not hold."
 },
 "C93": {
  "note": "Reading the csv files and saving (C34) are outside; entries above 9 are treated like 2. c93_learns_false and c93_checked_false are what one might expect but does not hold."
 },
 "C94": {
  "note": "Random draws are arguments; expectations are finite sums over all draws of n pairs of bits. Floats are reals; plotting is not modelled."
 },
 "C95": {
  "note": "Random draws are arguments; labels are those of the classifier model of C38/C39. c95_short_false is what one might expect but does not hold."
 },
 "C96": {
  "note": "The entropy aided denoiser is an arbitrary function on matrices; OnlineDude is the model of C61. Plotting is not modelled. c96_rate_false and c96_emle_false are what one might expect but does not hold."
 },
 "C97": {
  "note": "Pickling and plotting are not modelled; a pickle either is a step or lacks its entries. c97_minflip_false is what one might expect but does not hold."
 },
 "C98": {
  "note": "Floats are reals; plotting is not modelled. c98_measured_false is what one might expect but does not hold."
 },
 "C99": {
  "note": "Decoders are parameters and deterministic; worker processes are forked and share the globals. c99_reversed_false and c99_index_false are what one might expect but does not hold."
 },
 "C100": {
  "note": "Floats are reals; scipy entropy with two arguments is modelled from its documentation (rel_entr, normalisation, broadcasting), with infinite values. c100_constant_false is what one might expect but does not hold."
 },
 "C101": {
  "note": "The options and commands of the scripts are tables generated by tools/gen_commands.py. argparse is modelled from its documentation (abbreviations, negative numbers, type conversion, last value counting); floats are abstract with float(str(x)) = x. c101_forgotten_false, c101_exit and c101_words are where the expected property fails."
 },
 "C102": {
  "note": "Decoders are parameters with hidden state; they share no objects in the scripts (each gets its own inner decoder). c102_pretrained and c102_pretrained_false are where the expected property fails."
 },
 "C103": {
  "note": "Pool.map is modelled from its documentation: one queue, so every process handles its points in their order; any assignment is allowed. Processes may start with any globals; c103_same_noise is about forked ones (the default on Linux). c103_limit_false and c103_same_noise are where the expected independence fails."
 },
 "C104": {
  "note": "The plain decoder belongs to a library; that it returns six values, the last one an array, is taken from the code that unpacks its results (decoders/entropy_bitwise_decoder.py:68). c104_five and c104_false are where the expected property fails."
 },
 "C105": {
  "note": "c105_returns and c105_run are equalities of the whole effect, caches of the field models included; their hypothesis KeysOk says that the names of the field models are the keys of a dict, which holds for new models and is kept by all calls (new_keys, addAll_keys, debug_keys). c105_lost, c105_needs_structure, c105_errors_required and c105_never_learns say when the call raises; c105_transparent_false refutes transparency on a concrete decoder; c105_predefined is the case where debug changes nothing. Error positions are non-negative integers."
 },
 "C106": {
  "note": "Spec/XmlDefs.lean states the wire order, the signature with its checksum and the frame from the definition alone; c106_messages and c106_minimal_messages compare the tables (kernel evaluation over both files), c106_pack, c106_decode and their minimal counterparts are about all values. c106_enums and c106_minimal_enums give the dictionaries and the constants in both directions. Model/XmlTables.lean is generated by tools/gen_xml.py from the text of the XML files and of the enum sections of the Python files. Descriptions of messages, fields and entries are not compared."
 },
 "C107": {
  "note": "c107_classifier, c107_mav, c107_clustering, c107_dude and c107_runner give the runs and their settings; c107_range, c107_increasing and c107_repeats what the sweeps of numbers look like. c107_called_false: batch_run_mav_decoder.sh names a script that is not in its directory. Hypothesis Decimals: float() of a decimal number between 0 and 1 is its value, rounded in the way literals are. Shell arguments are taken to be whole numbers, not negative for the counters; word splitting of other texts is not modelled."
 },
 "C108": {
  "note": "c108_any with c108_decided for all loggers and histories, c108_lines for loggers that were set up, c108_returns, c108_repeated; c108_once_false is the failing expectation. Python's logging is modelled by its documentation (table of loggers by name, ancestors by dotted name, levels, propagation); two dots in a row in a name, where the library skips an ancestor, and the output to standard error of records without any handler are not modelled."
 },
 "C109": {
  "note": "c109_encode and c109_send by comparing the generated tables of both dialects (kernel evaluation over all six messages) and C91; c109_signed, c109_array, c109_parser; c109_array_false is the failing expectation, on a properly signed HEARTBEAT for any digest function of at least 6 bytes. That array.array has no tostring from Python 3.9 on is taken from Python's documentation."
 },
 "C110": {
  "note": "c110_summary links the rows to the step of C82; c110_metrics, c110_informedness, c110_functions, c110_confusion, c110_mixed, c110_quality; c110_fscore says what the F-score column is, c110_fscore_false that it is not F0.5. MATLAB's implicit growth of matrices is modelled; doubles are reals, quotients by zero NaN."
 },
 "C111": {
  "note": "c111_mle compares with the Python study of C94; c111_study, c111_range, c111_share, c111_shrink; c111_window_false and c111_points_false are the failing expectations. Random draws are arguments, doubles are reals."
 },
 "C112": {
  "note": "c112_missions, c112_used, c112_read, c112_copy, c112_search, c112_rows; c112_nearest_false and c112_clean_false are the failing expectations. xcorr is taken to be exact and its maximum the first one; the decoder is an arbitrary function; time stamps are whole seconds."
 },
 "C113": {
  "note": "c113_bins, c113_totals and c113_days. Doubles are reals: the edges are exact multiples of the width, so rounding at an edge is outside the model. The modem's error rates are -1 or at least 0 (hypothesis of c113_days)."
 },
 "C114": {
  "note": "c114_text (writer and reader of JSON are inverse), c114_roundtrip (C34 without identifying the text with the value), c114_crash (every point of interruption), c114_raising, c114_history, c114_ascii (a character is a byte), c114_old_lost (the expectation that fails, for every earlier file). Python's json package is modelled (indent=4, ensure_ascii, sorted keys; white space, escapes, numbers, surrogate pairs); float repr/parse are parameters assumed inverse to each other, and a telemetry float survives the way into a Python float and back when finite. The characters reach the file in order. c114_foreign and c114_no_type say what load raises on a file that holds JSON but no model."
 },
 "C115": {
  "note": "c115_separate, c115_order, c115_keep, c115_untouched (all 18 scripts), c115_own_log, c115_shared_log (any past, one run acting), c115_sequential, c115_stamp; the failing expectations with witnesses: c115_side_by_side_false, c115_clustering_log_false, c115_step_pickle_false, c115_stamp_torn, c115_stamp_order_false. The file system is modelled as directories, files (writer, closed or not) and append-only logs which a move renames while they stay open, as on Linux; os.mkdir is atomic. Writing a file is one opening and one closing; records of pool processes count as the run's."
 },
 "C116": {
  "note": "c116_values (one buffer), c116_learned (any history of buffers), c116_readable (exactly when the values can be read). Spec/Numbers.lean says which numbers a decoded message has under which names. A message with an array can be found, an AUTH_KEY for instance, and then the whole buffer is lost to the model."
 },
 "C117": {
  "note": "c117_learned (any words made of frames and padding), c117_mission (the mission, joining C77, C78, C57 and C116), c117_poisoned (nothing is learned after an array message in the first decoded word), c117_padding_false (a mission word whose padding is an AUTH_KEY frame). Which words arrive is a hypothesis on the runs of the LDPC decoder, which is external."
 },
 "C118": {
  "note": "c118_curves (every point of every curve, from the fields as received), c118_rising (the curves rise), c118_labels (the legend), c118_own_errors_false (runs with errors of their own), c118_three_clusters_false, c118_three_rows_false and c118_three_metrics_false (three clusters: structures, counts, metrics), c118_single_rate_false. Built on c110_summary and the metrics of C110. `Bits` indexed like bytes are modelled as bytes 0 and 1."
 },
 "C119": {
  "note": "c119_parts (what the three files hold), c119_returns (exactly when the script returns), c119_rescue (the files it reads, from the model of the results directory of C115). That pickle, lzma and savemat keep values is not modelled. scripts/buffer_segmentation_example.py is not modelled: it unpacks the three values of `predict` into two names and so raises ValueError before it trains a model; cluster_mnist.py overwrites the classifier it has just saved. c119_raises says which exception is raised for the first step without a table of data."
 },
 "C120": {
  "note": "c120_gaps (noise without markers), c120_resync (before, and from 279 bytes after any noise), c120_silent and c120_bound_false (a receiver that never gets back in step). Same parser model as C14; robust mode, no native parser, no callbacks."
 },
 "C121": {
  "note": "c121_lost (no acceptable frame starts with the damaged bytes), c121_damaged (damage the decoder notices), c121_single_bit, c121_intact_false and c121_sent_false (a frame uncovered inside a payload). ExactlyLost is the specification of what segmentation returns."
 },
 "C122": {
  "note": "c122_learned, c122_predefined (the decisions on every bit), c122_repaired (wrong bits before and after), c122_change_false (one wrong bit received, two handed over). Builds on C80 and C33. Statistics are a parameter that must be exact on windows of one repeated number (ExactFor): trueOps_exact shows this for mean and deviation over the reals, C128 for 64-bit floats."
 },
 "C123": {
  "note": "c123_accept_iff, c123_only_frames (every accepted string is a frame2), c123_same, c123_padding, c123_other, c123_signature_false, c123_payload_false. No signing key is set (C75 treats keys)."
 },
 "C124": {
  "note": "c124_version1 (ties the model of this file to packMsg and packMsgS), c124_mixed, c124_flags_false, c124_version2_false, c124_marker. WIRE_PROTOCOL_VERSION is a parameter. SHA-256 is an arbitrary function with digests of at least 6 bytes (c124_marker); robust mode, no native parser, no callbacks."
 },
 "C125": {
  "note": "c125_seen (receiving), c125_send and c125_numbers (sending), c125_returned_false, c125_unsent_false. logged / tapped only write down what the callback and the line are called with. Callbacks do not use the MAVLink object they are set on; robust mode, no native parser."
 },
 "C126": {
  "note": "c126_words (words made of frames and padding), c126_mission (the mission, joining C77, C78, C117, C122 and C80). Which words arrive is a hypothesis on the runs of the LDPC decoder, which is external; statistics must be exact on windows of one repeated number (ExactFor) and must not raise on the fields of the model (Fitted); C128 derives both for 64-bit floats. An example runs it on the sample recording with real statistics."
 },
 "C127": {
  "note": "c127_calls (parse_char, any cut), c127_bytewise, c127_catch_up, c127_buffer (parse_buffer, call by call), c127_buffer_sound, c127_clean; c127_lost_false and c127_none_false hold for every packed frame. Complaints counts refused frames and unbroken runs of stray bytes. No native parser, no callbacks."
 },
 "C128": {
  "note": "c128_constant, c128_varied (the arithmetic), c128_decides (integer fields up to 32 bits), c128_floats, c128_exact_int, c128_exact_small, c128_exact_float (the exactness C122 and C126 ask for), c128_mission; c128_constant_false, c128_ones_false and c128_zero_false hold on every machine. The machine (rounding, order, packing of floats) is a parameter; machine_exists shows that one meets the assumptions. Rounding saturates instead of overflowing, which plays no part below 2^1023. Scores of varying fields stay over the reals. c128_stops, c128_judges."
 },
 "C129": {
  "note": "c129_sign, c129_sign_range, c129_significant, c129_quiet; c129_sign_always_false and c129_significant_always_false say exactly when the answer is an exception or NaN. Over the reals; the difference between the Python integers before the first fit and the NumPy doubles after it is modelled. The three methods are marked as unfinished in the code and nothing in the repository calls them."
 },
 "C130": {
  "note": "c130_points, c130_near, c130_count, c130_nested, c130_share; c130_whole_false is the lost error, for every nearest rounding. NumPy's linspace is modelled operation by operation from its documentation and source, it is not part of the repository."
 },
 "C131": {
  "note": "c131_word (the word), c131_decisions, c131_repaired, c131_centre, c131_untouched, c131_errors, c131_bayes, c131_given (predefined model); c131_change_false is the refuted part; c131_ties covers bit-flipping decoders, over the reals: in floats the zero can be a rounding error of either sign. A word without a positive ratio collapses (C55)."
 },
 "C132": {
  "note": "c132_profile, c132_joints; c132_dive_false, c132_slope_false, c132_noise_false are the refuted parts; c132_negative. Over the reals. Standard normal draws are parameters. The file opened by the script is not modelled: nothing is written to it."
 },
 "C133": {
  "note": "c133_same says that the model of the states left behind agrees with the model of the values returned (Model/Clustering.lean); c133_labels, c133_absorbed, c133_unchanged, c133_recovers, c133_lengths, c133_constant, c133_settles; c133_log_likelihood, c133_hamming, c133_settling_log_likelihood and c133_settling_hamming say that the metrics of the code meet the hypothesis of the theorems; c133_lost_false and c133_lost_forever are the refuted part. Buffers of one bit are left out: numpy would broadcast them."
 },
 "C134": {
  "note": "c134_posterior computes the integrals of Spec/Posterior.lean; c134_bayes, c134_bayes_range, c134_mle are about the two estimators; c134_weights, c134_weight, c134_bayes_weight about scheme 4; c134_second says what the second attempt is given, end to end from the history. The example decodes a heartbeat first."
 },
 "C135": {
  "note": "c135_second says what the second attempt is given, c135_decisions its signs, c135_repaired and c135_one_model the repair, c135_influence and c135_seasoned bound the influences, c135_centre is the repair by seasoned models, c135_untouched the other bits. The example has seen two heartbeats and receives a word that is wrong wherever a one was sent."
 },
 "C136": {
  "note": "The words of C85 (what is handed to the LDPC decoder after any history) are the subject of c136_wins, c136_loses, c136_alone and c136_repaired; c136_no_structure and c136_learned are about clusters without a structure, end to end. The example has decoded two words and receives one that says the opposite at both model bits."
 },
 "C137": {
  "note": "Built on c72_combines. c137_overruled is the exact rule, c137_evidence the evidence it needs, c137_default the default channel, c137_constant bits that never changed, c137_fresh new contexts, c137_others the remaining bits. In the example a one of magnitude 1/4 is overruled after 102 zeros."
 },
 "C138": {
  "note": "c138_learned is the content after any training, c138_agrees the comparison with add_buffer (c116_learned), c138_headers which names get a model, c138_nothing the buffer without messages. Messages with arrays are excluded, as in C116: add_buffer cannot read them. The example trains on a buffer of two heartbeats with noise."
 },
 "C139": {
  "note": "c139_runs is the course of a call for any two decoders, c139_learned what the entropy decoder holds after one, c139_repeats after any sequence of words that are never decoded, c139_echo the case of a second decoder that adds nothing, c139_round_robin the clusters used, c139_hard the exception. What the models learn is stated for one cluster. The example calls three rounds on a word seen once before: the window then holds it four times."
 },
 "C140": {
  "note": "c140_odd and c140_three are the error patterns that are noticed, c140_four shows that four is the limit in every frame with three payload bytes, c140_id_false that the id must be spared, c140_lost and c140_silent are the consequences for the segmentation, c140_stream and c140_stream_silent for a receiver of the stream. The order of the generator polynomial is computed by the kernel for the at most 2104 bits of a frame."
 },
 "C141": {
  "note": "c141_repairs and c141_header are the general bound, from the triangle inequality; c141_single_iff is the exact boundary for single errors (c141_count counts it) and c141_wrong the failure. The distances between the 155 types are computed by the kernel."
 },
 "C142": {
  "note": "c142_load, c142_learns_nothing, c142_resave for files without a size, c142_decodes for decoders with learning off, c142_sized for files with one. The model keeps the size None apart from 0, which Model/SaveLoad.lean does not."
 },
 "C143": {
  "note": "c143_stuck and c143_combined are the general claims, c143_fresh and c143_fresh_combined name the exception for new models, c143_field_trained ties it to the models of C138; c143_unused and c143_unused_returns are about predefined models without structures. That decoders whose model knows all fields go through is C80 and C85."
 },
 "C144": {
  "note": "c144_moments, c144_single, c144_copies (order and repetition of samples), c144_names, c144_constant, c144_twins; c144_one_feature_false is the failing expectation, for all data. Over the reals; the random starting values are a parameter."
 },
 "C145": {
  "note": "c145_log_likelihood, c145_hamming, c145_copies, c145_noise, c145_noise_none; c145_weights_false is the failing variant without the condition on the weights, c145_noise_hamming_false the one for Hamming distance with wrong bits. Distances and likelihoods over the reals."
 },
 "C146": {
  "note": "c146_two_sided, c146_needed, c146_constant, c146_online; c146_telling_false is the failing variant. Decisions over the reals as in C42."
 },
 "C147": {
  "note": "c147_repaired, c147_failing, c147_forever. The decoder model runs the classifier model itself; the LDPC decoder is any function with a state, in c147_forever one that corrects up to T errors. Numbers are reals."
 },
 "C148": {
  "note": "c148_forever. The LDPC decoder is any function with a state that corrects T and detects E errors. Numbers are reals."
 },
 "C149": {
  "note": "c149_told, c149_left, c149_misled, c149_budget. The LDPC decoder is any function with a state that corrects T errors and returns words that contain the model bits. Numbers are reals."
 },
 "C150": {
  "note": "c150_rates. The LDPC decoder is any function with a state that corrects T errors and returns words of N bits; the loop and the rates are those of C83. Numbers are reals, rates rationals."
 },
 "C151": {
  "note": "c151_forever for any words and classifier, c151_spared for which bits are never hard, c151_mission for buffers made from a recording. The LDPC decoder is any function with a state that corrects T errors of the code; the exactness of the statistics is that of C122. Numbers are reals."
 },
 "C152": {
  "note": "c152_rates for a decoder that is given structures, c152_defaults_false for the default options, c152_learning_false for learning without clustering; the fourth combination of the two options is c83_options_false. The model loaded is one made with add_buffer from any buffers (C34 is about saving and loading); words, errors and the LDPC decoders are parameters. Statistics are over the reals, rates rational numbers."
 },
 "C153": {
  "note": "c153_forever is the sequence of calls, c153_hard and c153_heard say which bits count. The example: any number of words, each with 120 of 136 bits received wrong, for an LDPC decoder that corrects none. Numbers are reals; the LDPC decoder and the classifier are parameters."
 },
 "C154": {
  "note": "c154_forever; c153_hard applies to the same words. The example: a heartbeat received right and one with three wrong bits, for an LDPC decoder that corrects none. Numbers are reals; the LDPC decoder, the classifier and the statistics are parameters."
 },
 "C155": {
  "note": "c155_rates for the predefined model, c155_learning_false for learning. The example: any number of words, each with 60 of 136 bits inverted, for an LDPC decoder that corrects none; alone it decodes no word, the combined decoder all of them. Numbers are reals; the LDPC decoders, the classifier and the other decoders are parameters."
 },
 "C156": {
  "note": "c156_pair from the comparison to the simulation of two, c156_converse the other way round, c156_awgn over the channel with Gaussian noise. That the decoders are the same ones is said by what they return for the words of the channel, so the two scripts may keep different states. The inverted positions are distinct and inside the word, which rng.choice without replacement guarantees. The example: decoders that decode all, half and none of the words."
 },
 "C157": {
  "note": "c157_repaired for one bit of any cluster, c157_decodes for one call, c157_run for every word of a run with one cluster. The example: 202 words, both model bits wrong in the first and in the last one, and an LDPC decoder that corrects nothing; the last word is decoded. Numbers are reals."
 },
 "C158": {
  "note": "c158_needed for any received word, c158_bsc for the binary symmetric channel, c158_signs for LDPC decoders that look only at signs. The bound says when overruling is impossible; C137 says exactly when it happens. Numbers are reals."
 },
 "C159": {
  "note": "c159_word for one call, c159_loop for the loop, c159_same for the report, c159_reports that it does report. The recover rate is that of simulated_data_mavlink_decoding.py; the DUDE script reports the two rates only. The sum-product decoder does not look only at signs and is not covered. Numbers are reals."
 },
 "C160": {
  "note": "c160_repaired for one bit and c160_decodes for one call in any cluster, c160_run for a run with one cluster over the binary symmetric channel. The bound log(2^52 + 1) comes from the machine epsilon the code adds to the probabilities. Numbers are reals."
 },
 "C161": {
  "note": "c161_rate. The example: 2 M words of zeros and one with both model bits wrong, with an LDPC decoder that corrects nothing. Numbers are reals; the rate is an exact fraction."
 }
}