# Axioms of the property theorems

Printed by `#print axioms`, collected by tools/axioms.py.

| property | theorem | axioms |
|---|---|---|
| C01 | `NR.c01_counts_differences` | propext, Classical.choice, Quot.sound |
| C01 | `NR.c01_symmetric` | propext, Classical.choice, Quot.sound |
| C01 | `NR.c01_zero_iff_eq` | propext, Classical.choice, Quot.sound |
| C01 | `NR.c01_zero_iff_eq_bytes` | propext, Classical.choice, Quot.sound |
| C01 | `NR.c01_triangle` | propext, Classical.choice, Quot.sound |
| C01 | `NR.c01_le_length` | propext, Classical.choice, Quot.sound |
| C01 | `NR.c01_bytes_popcount` | propext, Classical.choice, Quot.sound |
| C01 | `NR.c01_int_popcount` | propext, Classical.choice, Quot.sound |
| C01 | `NR.c01_int_byte_agree` | propext, Classical.choice, Quot.sound |
| C01 | `NR.c01_append` | propext, Classical.choice, Quot.sound |
| C01 | `NR.c01_arrays` | propext, Classical.choice, Quot.sound |
| C01 | `NR.c01_representations` | propext, Quot.sound |
| C02 | `NR.c02_length_mismatch` | propext |
| C02 | `NR.c02_length_mismatch_bytes` | propext, Quot.sound |
| C02 | `NR.c02_int_out_of_range` | propext, Quot.sound |
| C02 | `NR.c02_unsupported` | propext |
| C02 | `NR.c02_returns_iff` | propext, Classical.choice, Quot.sound |
| C02 | `NR.c02_convertible` | propext, Quot.sound |
| C03 | `NR.c03_buffer` | propext, Classical.choice, Quot.sound |
| C03 | `NR.c03_accepts_iff` | propext, Classical.choice, Quot.sound |
| C03 | `NR.c03_reads_back` | propext, Classical.choice, Quot.sound |
| C03 | `NR.c03_nonUint8_iff` | propext, Classical.choice, Quot.sound |
| C03 | `NR.c03_nonExistent_iff` | propext, Classical.choice, Quot.sound |
| C04 | `NR.c04_valid_iff_constructible` | propext, Classical.choice, Quot.sound |
| C05 | `NR.c05_round_trip` | propext, Classical.choice, Quot.sound |
| C05 | `NR.c05_repair` | propext, Classical.choice, Quot.sound |
| C05 | `NR.c05_forced` | propext, Classical.choice, Quot.sound |
| C05 | `NR.c05_wrong_length` | propext, Quot.sound |
| C05 | `NR.c05_unknown_id` | propext, Classical.choice, Quot.sound |
| C06 | `NR.c06_nearest` | propext, Classical.choice, Quot.sound |
| C06 | `NR.c06_zero_iff_valid` | propext, Classical.choice, Quot.sound |
| C06 | `NR.c06_wrong_length` | propext, Quot.sound |
| C06 | `NR.c06_first` | propext, Classical.choice, Quot.sound |
| C07 | `NR.c07_limited_nearest` | propext, Classical.choice, Quot.sound |
| C07 | `NR.c07_limited_nearest_false` | propext |
| C07 | `NR.c07_limited_excluded` | propext, Classical.choice, Quot.sound |
| C08 | `NR.c08_no_arrays` | propext, Classical.choice, Quot.sound |
| C08 | `NR.c08_arrays` | propext, Classical.choice, Quot.sound |
| C08 | `NR.c08_array_types` | propext, Quot.sound |
| C08 | `NR.c08_all_types_false` | propext, Classical.choice, Quot.sound |
| C09 | `NR.c09_each_once` | propext, Classical.choice, Quot.sound |
| C09 | `NR.c09_wire_order` | propext, Classical.choice, Quot.sound |
| C10 | `NR.c10_round_trip` | propext, Classical.choice, Quot.sound |
| C10 | `NR.c10_round_trip_exact` | propext, Classical.choice, Quot.sound |
| C11 | `NR.c11_burst` | propext, Classical.choice, Quot.sound |
| C11 | `NR.c11_checksum` | propext, Classical.choice, Quot.sound |
| C11 | `NR.c11_single_bit` | propext, Classical.choice, Quot.sound |
| C11 | `NR.c11_single_bit_false` | propext, Quot.sound |
| C12 | `NR.c12_only_maverror` | propext, Classical.choice, Quot.sound |
| C12 | `NR.c12_empty` | propext, Quot.sound |
| C13 | `NR.c13_accept_iff` | propext, Classical.choice, Quot.sound |
| C13 | `NR.c13_reject` | propext, Classical.choice, Quot.sound |
| C14 | `NR.c14_chunks` | propext, Classical.choice, Quot.sound |
| C14 | `NR.c14_bytes_needed` | propext, Classical.choice, Quot.sound |
| C14 | `NR.c14_bytes` | propext, Classical.choice, Quot.sound |
| C14 | `NR.c14_packed` | propext, Classical.choice, Quot.sound |
| C14 | `NR.c14_not_robust_false` | propext, Quot.sound |
| C15 | `NR.c15_sequence` | propext, Classical.choice, Quot.sound |
| C15 | `NR.c15_send` | propext, Classical.choice, Quot.sound |
| C15 | `NR.c15_received` | propext, Classical.choice, Quot.sound |
| C16 | `NR.c16_genuine` | propext, Classical.choice, Quot.sound |
| C16 | `NR.c16_fits` | propext, Classical.choice, Quot.sound |
| C17 | `NR.c17_ordered_disjoint` | propext, Classical.choice, Quot.sound |
| C18 | `NR.c18_labels` | propext, Classical.choice, Quot.sound |
| C18 | `NR.c18_validity` | propext, Classical.choice, Quot.sound |
| C19 | `NR.c19_greedy` | propext, Classical.choice, Quot.sound |
| C19 | `NR.c19_unknown` | propext, Classical.choice, Quot.sound |
| C20 | `NR.c20_raises` | propext, Classical.choice, Quot.sound |
| C20 | `NR.c20_propagates` | propext, Classical.choice, Quot.sound |
| C20 | `NR.c20_never_raises` | propext, Classical.choice, Quot.sound |
| C21 | `NR.c21_concatenation` | propext, Classical.choice, Quot.sound |
| C22 | `NR.c22_prefix` | propext, Classical.choice, Quot.sound |
| C23 | `NR.c23_arrays_missed` | propext, Classical.choice, Quot.sound |
| C23 | `NR.c23_every_message_found_false` | propext, Classical.choice, Quot.sound |
| C24 | `NR.c24_idx` | propext, Classical.choice, Quot.sound |
| C24 | `NR.c24_parts` | propext, Classical.choice, Quot.sound |
| C24 | `NR.c24_after_segmentation` | propext, Classical.choice, Quot.sound |
| C25 | `NR.c25_fields` | propext, Classical.choice, Quot.sound |
| C25 | `NR.c25_key` | propext, Classical.choice, Quot.sound |
| C25 | `NR.c25_nothing` | propext, Classical.choice, Quot.sound |
| C26 | `NR.c26_register` | propext, Classical.choice, Quot.sound |
| C26 | `NR.c26_history` | propext, Classical.choice, Quot.sound |
| C26 | `NR.c26_equality` | propext, Classical.choice, Quot.sound |
| C26 | `NR.c26_equal_iff` | propext, Classical.choice, Quot.sound |
| C26 | `NR.c26_equal_buffers` | propext, Classical.choice, Quot.sound |
| C26 | `NR.c26_own_buffer` | propext, Classical.choice, Quot.sound |
| C27 | `NR.c27_window` | propext, Classical.choice, Quot.sound |
| C27 | `NR.c27_size` | propext, Classical.choice, Quot.sound |
| C27 | `NR.c27_types` | propext, Classical.choice, Quot.sound |
| C28 | `NR.c28_cache_invisible` | propext, Classical.choice, Quot.sound |
| C29 | `NR.c29_classify` | propext, Classical.choice, Quot.sound |
| C29 | `NR.c29_probability` | propext, Classical.choice, Quot.sound |
| C30 | `NR.c30_step` | propext, Classical.choice, Quot.sound |
| C30 | `NR.c30_history` | propext, Classical.choice, Quot.sound |
| C30 | `NR.c30_calls` | propext, Classical.choice, Quot.sound |
| C31 | `NR.c31_map` | propext, Classical.choice, Quot.sound |
| C31 | `NR.c31_overlap` | propext, Classical.choice, Quot.sound |
| C31 | `NR.c31_returns_iff` | propext, Classical.choice, Quot.sound |
| C32 | `NR.c32_values` | propext, Classical.choice, Quot.sound |
| C32 | `NR.c32_aligned` | propext, Classical.choice, Quot.sound |
| C32 | `NR.c32_bits` | propext, Classical.choice, Quot.sound |
| C32 | `NR.c32_raises` | propext, Classical.choice, Quot.sound |
| C33 | `NR.c33_number` | propext, Classical.choice, Quot.sound |
| C33 | `NR.c33_integer` | propext, Classical.choice, Quot.sound |
| C33 | `NR.c33_float` | propext, Classical.choice, Quot.sound |
| C33 | `NR.c33_raises` | propext, Classical.choice, Quot.sound |
| C33 | `NR.c33_constant_field` | propext, Classical.choice, Quot.sound |
| C34 | `NR.c34_roundtrip` | propext, Classical.choice, Quot.sound |
| C34 | `NR.c34_foreign` | propext, Classical.choice, Quot.sound |
| C34 | `NR.c34_save_ok` | propext, Classical.choice, Quot.sound |
| C35 | `NR.c35_field_at` | propext, Classical.choice, Quot.sound |
| C35 | `NR.c35_damaged` | propext, Classical.choice, Quot.sound |
| C36 | `NR.c36_predict` | propext, Classical.choice, Quot.sound |
| C36 | `NR.c36_raises` | propext, Classical.choice, Quot.sound |
| C37 | `NR.c37_counts` | propext, Classical.choice, Quot.sound |
| C37 | `NR.c37_no_raise` | propext, Classical.choice, Quot.sound |
| C37 | `NR.c37_constant_false` | propext, Classical.choice, Quot.sound |
| C38 | `NR.c38_protocol` | propext, Classical.choice, Quot.sound |
| C38 | `NR.c38_raises` | propext, Classical.choice, Quot.sound |
| C38 | `NR.c38_returns` | propext, Classical.choice, Quot.sound |
| C39 | `NR.c39_hamming` | propext, Classical.choice, Quot.sound |
| C39 | `NR.c39_log_likelihood` | propext, Classical.choice, Quot.sound |
| C39 | `NR.c39_first_call` | propext, Classical.choice, Quot.sound |
| C39 | `NR.c39_reachable` | propext, Classical.choice, Quot.sound |
| C40 | `NR.c40_hard_bits_any` | propext, Classical.choice, Quot.sound |
| C40 | `NR.c40_majority_false` | propext, Classical.choice, Quot.sound |
| C41 | `NR.c41_counts` | propext, Classical.choice, Quot.sound |
| C41 | `NR.c41_initial_context` | propext, Classical.choice, Quot.sound |
| C41 | `NR.c41_pieces` | propext |
| C41 | `NR.c41_out_of_range` | propext |
| C41 | `NR.c41_reset` | propext |
| C41 | `NR.c41_k_zero` | propext, Quot.sound |
| C42 | `NR.c42_threshold` | propext, Classical.choice, Quot.sound |
| C42 | `NR.c42_no_noise` | propext, Classical.choice, Quot.sound |
| C43 | `NR.c43_prob_vector` | propext, Classical.choice, Quot.sound |
| C43 | `NR.c43_smoothing` | propext, Classical.choice, Quot.sound |
| C44 | `NR.c44_counts` | propext, Classical.choice, Quot.sound |
| C44 | `NR.c44_sample` | none |
| C45 | `NR.c45_model` | propext, Classical.choice, Quot.sound |
| C45 | `NR.c45_inverts_channel` | propext, Classical.choice, Quot.sound |
| C45 | `NR.c45_same_side` | propext, Classical.choice, Quot.sound |
| C45 | `NR.c45_reset` | propext, Classical.choice, Quot.sound |
| C45 | `NR.c45_negative_window` | propext, Classical.choice, Quot.sound |
| C46 | `NR.c46_predict` | propext, Classical.choice, Quot.sound |
| C46 | `NR.c46_no_mutation` | propext, Classical.choice, Quot.sound |
| C46 | `NR.c46_only_structural` | propext, Classical.choice, Quot.sound |
| C46 | `NR.c46_hard_output` | propext, Classical.choice, Quot.sound |
| C46 | `NR.c46_warm_up` | propext, Classical.choice, Quot.sound |
| C46 | `NR.c46_cost` | propext, Classical.choice, Quot.sound |
| C46 | `NR.c46_direction` | propext, Classical.choice, Quot.sound |
| C46 | `NR.c46_hard_input` | propext, Classical.choice, Quot.sound |
| C46 | `NR.c46_learns_input` | propext, Classical.choice, Quot.sound |
| C46 | `NR.c46_sequence` | propext, Classical.choice, Quot.sound |
| C46 | `NR.c46_run` | propext, Classical.choice, Quot.sound |
| C47 | `NR.c47_prob2` | propext, Classical.choice, Quot.sound |
| C47 | `NR.c47_prob1` | propext, Classical.choice, Quot.sound |
| C47 | `NR.c47_binary_columns` | propext, Classical.choice, Quot.sound |
| C47 | `NR.c47_raises` | propext, Classical.choice, Quot.sound |
| C48 | `NR.c48_entropy` | propext, Classical.choice, Quot.sound |
| C48 | `NR.c48_rows` | propext, Classical.choice, Quot.sound |
| C48 | `NR.c48_scale` | propext, Classical.choice, Quot.sound |
| C49 | `NR.c49_hellinger` | propext, Classical.choice, Quot.sound |
| C49 | `NR.c49_rows` | propext, Classical.choice, Quot.sound |
| C50 | `NR.c50_typical` | propext, Classical.choice, Quot.sound |
| C51 | `NR.c51_responsibilities` | propext, Classical.choice, Quot.sound |
| C51 | `NR.c51_posterior` | propext, Classical.choice, Quot.sound |
| C51 | `NR.c51_step_valid` | propext, Classical.choice, Quot.sound |
| C51 | `NR.c51_fit` | propext, Classical.choice, Quot.sound |
| C51 | `NR.c51_fit_empty` | propext, Classical.choice, Quot.sound |
| C51 | `NR.c51_predict` | propext, Classical.choice, Quot.sound |
| C51 | `NR.c51_score_nonpos` | propext, Classical.choice, Quot.sound |
| C52 | `NR.c52_monotone` | propext, Classical.choice, Quot.sound |
| C52 | `NR.c52_bounded_loss` | propext, Classical.choice, Quot.sound |
| C52 | `NR.c52_fit` | propext, Classical.choice, Quot.sound |
| C53 | `NR.c53_window` | propext, Classical.choice, Quot.sound |
| C53 | `NR.c53_learned` | propext, Classical.choice, Quot.sound |
| C53 | `NR.c53_returned` | propext, Classical.choice, Quot.sound |
| C53 | `NR.c53_others` | propext, Classical.choice, Quot.sound |
| C53 | `NR.c53_distribution` | propext, Classical.choice, Quot.sound |
| C53 | `NR.c53_predefined` | propext, Classical.choice, Quot.sound |
| C53 | `NR.c53_raises` | propext, Classical.choice, Quot.sound |
| C53 | `NR.c53_returns` | propext, Classical.choice, Quot.sound |
| C54 | `NR.c54_training_passthrough` | propext, Classical.choice, Quot.sound |
| C54 | `NR.c54_negative_label` | propext, Classical.choice, Quot.sound |
| C54 | `NR.c54_mavlink_passthrough` | propext, Classical.choice, Quot.sound |
| C54 | `NR.c54_mavlink_false` | propext, Classical.choice, Quot.sound |
| C55 | `NR.c55_reachable` | propext, Classical.choice, Quot.sound |
| C55 | `NR.c55_handed` | propext, Classical.choice, Quot.sound |
| C55 | `NR.c55_bounded` | propext, Classical.choice, Quot.sound |
| C55 | `NR.c55_decode` | propext, Classical.choice, Quot.sound |
| C55 | `NR.c55_decode_bounded` | propext, Classical.choice, Quot.sound |
| C55 | `NR.c55_direction` | propext, Classical.choice, Quot.sound |
| C56 | `NR.c56_round_robin` | propext, Classical.choice, Quot.sound |
| C56 | `NR.c56_mavlink_round_robin` | propext, Classical.choice, Quot.sound |
| C56 | `NR.c56_mavlink_false` | propext, Classical.choice, Quot.sound |
| C57 | `NR.c57_learned` | propext, Classical.choice, Quot.sound |
| C57 | `NR.c57_fixed` | propext, Classical.choice, Quot.sound |
| C57 | `NR.c57_set_structures` | propext, Classical.choice, Quot.sound |
| C57 | `NR.c57_frozen` | propext, Classical.choice, Quot.sound |
| C57 | `NR.c57_returned` | propext, Classical.choice, Quot.sound |
| C57 | `NR.c57_no_structure` | propext, Classical.choice, Quot.sound |
| C57 | `NR.c57_no_iterations` | propext, Classical.choice, Quot.sound |
| C58 | `NR.c58_result` | propext, Classical.choice, Quot.sound |
| C58 | `NR.c58_success_iff` | propext, Classical.choice, Quot.sound |
| C58 | `NR.c58_debug` | propext, Classical.choice, Quot.sound |
| C58 | `NR.c58_raises` | propext, Classical.choice, Quot.sound |
| C58 | `NR.C58.c58_any` | propext, Classical.choice, Quot.sound |
| C59 | `NR.c59_counts` | propext, Classical.choice, Quot.sound |
| C59 | `NR.c59_totals` | propext, Classical.choice, Quot.sound |
| C59 | `NR.c59_perfect` | propext, Classical.choice, Quot.sound |
| C60 | `NR.c60_counts` | propext, Classical.choice, Quot.sound |
| C60 | `NR.c60_zero_iff` | propext, Classical.choice, Quot.sound |
| C60 | `NR.c60_out_of_range` | propext, Quot.sound |
| C61 | `NR.c61_signed` | propext, Classical.choice, Quot.sound |
| C61 | `NR.c61_uint8` | propext, Classical.choice, Quot.sound |
| C61 | `NR.c61_uint8_false` | propext, Classical.choice, Quot.sound |
| C62 | `NR.c62_recall` | propext, Classical.choice, Quot.sound |
| C62 | `NR.c62_precision` | propext, Classical.choice, Quot.sound |
| C62 | `NR.c62_f1` | propext, Classical.choice, Quot.sound |
| C62 | `NR.c62_absent_class` | propext, Classical.choice, Quot.sound |
| C62 | `NR.c62_labels` | propext, Classical.choice, Quot.sound |
| C63 | `NR.c63_rows` | propext, Classical.choice, Quot.sound |
| C63 | `NR.c63_all_zero` | propext, Classical.choice, Quot.sound |
| C63 | `NR.c63_false` | propext, Quot.sound |
| C64 | `NR.c64_windowed` | propext, Classical.choice, Quot.sound |
| C64 | `NR.c64_ready` | propext, Classical.choice, Quot.sound |
| C64 | `NR.c64_frozen` | propext, Classical.choice, Quot.sound |
| C64 | `NR.c64_returned` | propext, Classical.choice, Quot.sound |
| C64 | `NR.c64_never_learns` | propext, Classical.choice, Quot.sound |
| C64 | `NR.c64_model_bits` | propext, Classical.choice, Quot.sound |
| C64 | `NR.c64_not_ready` | propext, Classical.choice, Quot.sound |
| C64 | `NR.c64_prediction` | propext, Classical.choice, Quot.sound |
| C64 | `NR.c64_predefined` | propext, Classical.choice, Quot.sound |
| C64 | `NR.c64_one_letter` | propext, Classical.choice, Quot.sound |
| C64 | `NR.c64_flip` | propext, Classical.choice, Quot.sound |
| C64 | `NR.c64_flip_false` | propext, Classical.choice, Quot.sound |
| C65 | `NR.c65_positive` | propext, Classical.choice, Quot.sound |
| C65 | `NR.c65_floor` | propext, Classical.choice, Quot.sound |
| C65 | `NR.c65_exact` | propext, Classical.choice, Quot.sound |
| C65 | `NR.c65_probabilities` | propext, Classical.choice, Quot.sound |
| C65 | `NR.c65_step` | propext, Classical.choice, Quot.sound |
| C65 | `NR.c65_mismatch` | propext, Classical.choice, Quot.sound |
| C65 | `NR.c65_needs_window` | propext, Classical.choice, Quot.sound |
| C65 | `NR.c65_max_false` | propext, Classical.choice, Quot.sound |
| C65 | `NR.c65_rescaled_exceeds` | propext, Classical.choice, Quot.sound |
| C65 | `NR.c65_floor_elsewhere_false` | propext, Classical.choice, Quot.sound |
| C66 | `NR.c66_buffer` | propext, Classical.choice, Quot.sound |
| C66 | `NR.c66_exact_length_false` | propext, Quot.sound |
| C66 | `NR.c66_data` | propext, Classical.choice, Quot.sound |
| C67 | `NR.c67_total` | propext, Classical.choice, Quot.sound |
| C67 | `NR.c67_majority` | propext, Classical.choice, Quot.sound |
| C67 | `NR.c67_one_to_one_iff` | propext, Classical.choice, Quot.sound |
| C67 | `NR.c67_two_classes` | propext, Classical.choice, Quot.sound |
| C67 | `NR.c67_false` | propext |
| C67 | `NR.c67_recovers` | propext, Classical.choice, Quot.sound |
| C68 | `NR.c68_never_returns` | propext, Classical.choice, Quot.sound |
| C68 | `NR.c68_incorrect_length` | propext, Classical.choice, Quot.sound |
| C68 | `NR.c68_always_raises` | propext, Classical.choice, Quot.sound |
| C68 | `NR.c68_training` | propext, Classical.choice, Quot.sound |
| C68 | `NR.c68_fits_returns` | propext, Classical.choice, Quot.sound |
| C68 | `NR.c68_window` | propext, Classical.choice, Quot.sound |
| C68 | `NR.c68_learned` | propext, Classical.choice, Quot.sound |
| C68 | `NR.c68_distribution` | propext, Classical.choice, Quot.sound |
| C68 | `NR.c68_mavlink` | propext, Classical.choice, Quot.sound |
| C68 | `NR.c68_handed` | propext, Classical.choice, Quot.sound |
| C68 | `NR.c68_entropy` | propext, Classical.choice, Quot.sound |
| C68 | `NR.c68_same_prediction` | propext, Classical.choice, Quot.sound |
| C68 | `NR.c68_whole_word_idx` | propext |
| C68 | `NR.c68_unified_mismatch` | propext, Classical.choice, Quot.sound |
| C68 | `NR.c68_unified_once` | propext, Classical.choice, Quot.sound |
| C69 | `NR.c69_mean` | propext, Classical.choice, Quot.sound |
| C69 | `NR.c69_unseen` | propext, Classical.choice, Quot.sound |
| C69 | `NR.c69_constant` | propext, Classical.choice, Quot.sound |
| C70 | `NR.c70_merge_closest` | propext, Classical.choice, Quot.sound |
| C71 | `NR.c71_models` | propext, Classical.choice, Quot.sound |
| C71 | `NR.c71_windows` | propext, Classical.choice, Quot.sound |
| C71 | `NR.c71_one_letter` | propext, Classical.choice, Quot.sound |
| C71 | `NR.c71_returned` | propext, Classical.choice, Quot.sound |
| C71 | `NR.c71_unchanged` | propext, Classical.choice, Quot.sound |
| C71 | `NR.c71_prediction` | propext, Classical.choice, Quot.sound |
| C71 | `NR.c71_confidences` | propext, Classical.choice, Quot.sound |
| C71 | `NR.c71_variance_weight` | propext, Classical.choice, Quot.sound |
| C71 | `NR.c71_scheme_two` | propext, Classical.choice, Quot.sound |
| C71 | `NR.c71_variance_scheme` | propext, Classical.choice, Quot.sound |
| C71 | `NR.c71_clipped` | propext, Classical.choice, Quot.sound |
| C72 | `NR.c72_combines` | propext, Classical.choice, Quot.sound |
| C72 | `NR.c72_returns` | propext, Classical.choice, Quot.sound |
| C72 | `NR.c72_training` | propext, Classical.choice, Quot.sound |
| C72 | `NR.c72_returned` | propext, Classical.choice, Quot.sound |
| C72 | `NR.c72_first` | propext, Classical.choice, Quot.sound |
| C72 | `NR.c72_no_flip` | propext, Classical.choice, Quot.sound |
| C72 | `NR.c72_input_changed` | propext, Classical.choice, Quot.sound |
| C72 | `NR.c72_never_returns` | propext, Classical.choice, Quot.sound |
| C72 | `NR.c72_round_robin` | propext, Classical.choice, Quot.sound |
| C72 | `NR.c72_constructor` | propext, Classical.choice, Quot.sound |
| C73 | `NR.c73_confusion` | propext, Classical.choice, Quot.sound |
| C73 | `NR.c73_fields` | propext, Classical.choice, Quot.sound |
| C73 | `NR.c73_negatives_false` | propext, Classical.choice, Quot.sound |
| C73 | `NR.c73_forcing` | propext, Classical.choice, Quot.sound |
| C73 | `NR.c73_balance` | propext, Classical.choice, Quot.sound |
| C73 | `NR.c73_forcing_range` | propext, Classical.choice, Quot.sound |
| C74 | `NR.c74_needs_structure` | propext, Classical.choice, Quot.sound |
| C74 | `NR.c74_exception` | propext, Classical.choice, Quot.sound |
| C74 | `NR.c74_first_call` | propext, Classical.choice, Quot.sound |
| C74 | `NR.c74_same` | propext, Classical.choice, Quot.sound |
| C74 | `NR.c74_reports` | propext, Classical.choice, Quot.sound |
| C75 | `NR.c75_no_key` | propext, Classical.choice, Quot.sound |
| C75 | `NR.c75_accept_iff` | propext, Classical.choice, Quot.sound |
| C75 | `NR.c75_result` | propext, Classical.choice, Quot.sound |
| C75 | `NR.c75_refused` | propext, Classical.choice, Quot.sound |
| C75 | `NR.c75_mark_fixed` | propext, Classical.choice, Quot.sound |
| C75 | `NR.c75_replay` | propext, Classical.choice, Quot.sound |
| C75 | `NR.c75_first_frame` | propext, Classical.choice, Quot.sound |
| C75 | `NR.c75_forged_frame` | propext, Classical.choice, Quot.sound |
| C75 | `NR.c75_clock` | propext, Classical.choice, Quot.sound |
| C75 | `NR.c75_counts` | propext, Classical.choice, Quot.sound |
| C75 | `NR.c75_each_count` | propext, Classical.choice, Quot.sound |
| C75 | `NR.c75_replay_false` | propext, Classical.choice, Quot.sound |
| C75 | `NR.c75_sender` | propext, Classical.choice, Quot.sound |
| C75 | `NR.c75_sender_unreadable` | propext, Classical.choice, Quot.sound |
| C76 | `NR.c76_eq_iff` | propext, Classical.choice, Quot.sound |
| C76 | `NR.c76_none` | propext |
| C76 | `NR.c76_ne` | propext, Classical.choice, Quot.sound |
| C76 | `NR.c76_symm` | propext, Classical.choice, Quot.sound |
| C76 | `NR.c76_trans` | propext, Classical.choice, Quot.sound |
| C76 | `NR.c76_refl` | propext, Classical.choice, Quot.sound |
| C76 | `NR.c76_round_trip` | propext, Classical.choice, Quot.sound |
| C76 | `NR.c76_frames` | propext, Classical.choice, Quot.sound |
| C76 | `NR.c76_to_dict` | propext, Classical.choice, Quot.sound |
| C76 | `NR.c76_self_false` | propext, Classical.choice, Quot.sound |
| C76 | `NR.c76_frames_false` | propext, Quot.sound |
| C76 | `NR.c76_text_false` | propext, Classical.choice, Quot.sound |
| C77 | `NR.c77_row` | propext, Classical.choice, Quot.sound |
| C77 | `NR.c77_buffer` | propext, Classical.choice, Quot.sound |
| C77 | `NR.c77_segment` | propext, Classical.choice, Quot.sound |
| C77 | `NR.c77_sequence` | propext, Classical.choice, Quot.sound |
| C77 | `NR.c77_times` | propext, Classical.choice, Quot.sound |
| C77 | `NR.c77_latest_false` | propext |
| C78 | `NR.c78_parts` | propext, Classical.choice, Quot.sound |
| C78 | `NR.c78_words` | propext, Quot.sound |
| C78 | `NR.c78_too_long` | propext, Quot.sound |
| C78 | `NR.c78_padding` | propext, Classical.choice, Quot.sound |
| C78 | `NR.c78_padding_false` | propext, Classical.choice, Quot.sound |
| C78 | `NR.c78_multiply` | propext, Classical.choice, Quot.sound |
| C79 | `NR.c79_shares` | propext, Classical.choice, Quot.sound |
| C79 | `NR.c79_distribution` | propext, Classical.choice, Quot.sound |
| C79 | `NR.c79_empty` | propext, Classical.choice, Quot.sound |
| C79 | `NR.c79_shares_false` | propext, Classical.choice, Quot.sound |
| C80 | `NR.c80_learned` | propext, Classical.choice, Quot.sound |
| C80 | `NR.c80_predefined` | propext, Classical.choice, Quot.sound |
| C80 | `NR.c80_handed` | propext, Classical.choice, Quot.sound |
| C80 | `NR.c80_decisions` | propext, Classical.choice, Quot.sound |
| C81 | `NR.c81_classifier` | propext, Classical.choice, Quot.sound |
| C81 | `NR.c81_unmodelled` | propext, Classical.choice, Quot.sound |
| C81 | `NR.c81_forcing` | propext, Classical.choice, Quot.sound |
| C81 | `NR.c81_residual` | propext, Classical.choice, Quot.sound |
| C82 | `NR.c82_word` | propext, Classical.choice, Quot.sound |
| C82 | `NR.c82_words` | propext, Classical.choice, Quot.sound |
| C82 | `NR.c82_learn_false` | propext, Classical.choice, Quot.sound |
| C82 | `NR.c82_outside` | propext, Classical.choice, Quot.sound |
| C82 | `NR.c82_split` | propext, Quot.sound |
| C82 | `NR.c82_rate` | propext, Classical.choice, Quot.sound |
| C83 | `NR.c83_step` | propext, Classical.choice, Quot.sound |
| C83 | `NR.c83_bounds` | propext, Classical.choice, Quot.sound |
| C83 | `NR.c83_empty` | propext, Classical.choice, Quot.sound |
| C83 | `NR.c83_channel` | propext, Classical.choice, Quot.sound |
| C83 | `NR.c83_options_false` | propext |
| C84 | `NR.c84_run` | propext, Classical.choice, Quot.sound |
| C84 | `NR.c84_unknown` | propext, Classical.choice, Quot.sound |
| C84 | `NR.c84_success_false` | propext, Classical.choice, Quot.sound |
| C85 | `NR.c85_learned` | propext, Classical.choice, Quot.sound |
| C85 | `NR.c85_predefined` | propext, Classical.choice, Quot.sound |
| C85 | `NR.c85_decisions` | propext, Classical.choice, Quot.sound |
| C86 | `NR.c86_estimate` | propext, Classical.choice, Quot.sound |
| C86 | `NR.c86_half` | propext, Classical.choice, Quot.sound |
| C86 | `NR.c86_emle` | propext, Classical.choice, Quot.sound |
| C86 | `NR.c86_entropy` | propext, Classical.choice, Quot.sound |
| C86 | `NR.c86_combined` | propext, Classical.choice, Quot.sound |
| C86 | `NR.c86_bayes` | propext, Classical.choice, Quot.sound |
| C87 | `NR.c87_pack` | propext, Quot.sound |
| C87 | `NR.c87_decode` | propext, Classical.choice, Quot.sound |
| C87 | `NR.c87_round_trip` | propext, Classical.choice, Quot.sound |
| C87 | `NR.c87_single_bit` | propext, Classical.choice, Quot.sound |
| C87 | `NR.c87_parse_buffer` | propext, Classical.choice, Quot.sound |
| C87 | `NR.c87_stream` | propext, Classical.choice, Quot.sound |
| C88 | `NR.c88_llr` | propext, Classical.choice, Quot.sound |
| C88 | `NR.c88_hard` | propext, Classical.choice, Quot.sound |
| C88 | `NR.c88_bit_flip` | propext, Classical.choice, Quot.sound |
| C88 | `NR.c88_delta` | propext, Classical.choice, Quot.sound |
| C88 | `NR.c88_slices` | propext, Classical.choice, Quot.sound |
| C88 | `NR.c88_errors_false` | propext, Classical.choice, Quot.sound |
| C88 | `NR.c88_step` | propext, Classical.choice, Quot.sound |
| C88 | `NR.c88_scale` | propext, Classical.choice, Quot.sound |
| C88 | `NR.c88_expected` | propext, Classical.choice, Quot.sound |
| C88 | `NR.c88_empty` | propext, Classical.choice, Quot.sound |
| C88 | `NR.c88_inputs` | propext, Classical.choice, Quot.sound |
| C89 | `NR.c89_parts` | propext, Classical.choice, Quot.sound |
| C89 | `NR.c89_buffers` | propext, Classical.choice, Quot.sound |
| C89 | `NR.c89_ragged_false` | propext, Classical.choice, Quot.sound |
| C89 | `NR.c89_rate_false` | propext, Classical.choice, Quot.sound |
| C89 | `NR.c89_clean_test_false` | propext, Classical.choice, Quot.sound |
| C89 | `NR.c89_scores` | propext, Classical.choice, Quot.sound |
| C89 | `NR.c89_recovers` | propext, Classical.choice, Quot.sound |
| C89 | `NR.c89_saved` | propext, Classical.choice, Quot.sound |
| C89 | `NR.c89_saved_false` | propext, Classical.choice, Quot.sound |
| C89 | `NR.c89_classes` | propext, Classical.choice, Quot.sound |
| C90 | `NR.c90_silent` | propext, Classical.choice, Quot.sound |
| C90 | `NR.c90_sum` | propext, Classical.choice, Quot.sound |
| C90 | `NR.c90_sum_decisions` | propext, Classical.choice, Quot.sound |
| C90 | `NR.c90_priors` | propext, Classical.choice, Quot.sound |
| C90 | `NR.c90_priors_bounded` | propext, Classical.choice, Quot.sound |
| C90 | `NR.c90_forced` | propext, Classical.choice, Quot.sound |
| C90 | `NR.c90_forced_letter` | propext, Classical.choice, Quot.sound |
| C90 | `NR.c90_forced_false` | propext, Classical.choice, Quot.sound |
| C90 | `NR.c90_forced_samples_false` | propext, Classical.choice, Quot.sound |
| C90 | `NR.c90_no_window` | propext, Classical.choice, Quot.sound |
| C91 | `NR.c91_methods` | propext, Classical.choice, Quot.sound |
| C91 | `NR.c91_encode` | propext, Classical.choice, Quot.sound |
| C91 | `NR.c91_send` | propext, Classical.choice, Quot.sound |
| C91 | `NR.c91_received` | propext, Classical.choice, Quot.sound |
| C92 | `NR.c92_read` | propext, Classical.choice, Quot.sound |
| C92 | `NR.c92_unreadable` | propext, Classical.choice, Quot.sound |
| C92 | `NR.c92_cut_at_marker` | propext, Classical.choice, Quot.sound |
| C92 | `NR.c92_crash` | propext, Classical.choice, Quot.sound |
| C92 | `NR.c92_cut_early` | propext, Classical.choice, Quot.sound |
| C92 | `NR.c92_line_ends` | propext, Classical.choice, Quot.sound |
| C92 | `NR.c92_payload_false` | propext, Classical.choice, Quot.sound |
| C93 | `NR.c93_trained` | propext, Classical.choice, Quot.sound |
| C93 | `NR.c93_stops` | propext, Classical.choice, Quot.sound |
| C93 | `NR.c93_first_unidentified` | propext, Classical.choice, Quot.sound |
| C93 | `NR.c93_learns_false` | propext, Classical.choice, Quot.sound |
| C93 | `NR.c93_checked_false` | propext, Classical.choice, Quot.sound |
| C94 | `NR.c94_row` | propext, Classical.choice, Quot.sound |
| C94 | `NR.c94_no_trials` | propext, Classical.choice, Quot.sound |
| C94 | `NR.c94_most_likely` | propext, Classical.choice, Quot.sound |
| C94 | `NR.c94_ignorant` | propext, Classical.choice, Quot.sound |
| C94 | `NR.c94_corrected` | propext, Classical.choice, Quot.sound |
| C95 | `NR.c95_words` | propext, Classical.choice, Quot.sound |
| C95 | `NR.c95_short_false` | propext, Classical.choice, Quot.sound |
| C95 | `NR.c95_results` | propext, Classical.choice, Quot.sound |
| C95 | `NR.c95_after_training` | propext, Classical.choice, Quot.sound |
| C95 | `NR.c95_each_class` | propext, Quot.sound |
| C95 | `NR.c95_order` | propext, Classical.choice, Quot.sound |
| C96 | `NR.c96_report` | propext, Classical.choice, Quot.sound |
| C96 | `NR.c96_rate_false` | propext, Classical.choice, Quot.sound |
| C96 | `NR.c96_fixed` | propext, Classical.choice, Quot.sound |
| C96 | `NR.c96_counts` | propext, Classical.choice, Quot.sound |
| C96 | `NR.c96_emle_false` | none |
| C97 | `NR.c97_order` | propext, Classical.choice, Quot.sound |
| C97 | `NR.c97_listing` | propext, Classical.choice, Quot.sound |
| C97 | `NR.c97_complete` | propext, Classical.choice, Quot.sound |
| C97 | `NR.c97_broken` | propext, Classical.choice, Quot.sound |
| C97 | `NR.c97_minflip_false` | propext, Classical.choice, Quot.sound |
| C98 | `NR.c98_capacity` | propext, Classical.choice, Quot.sound |
| C98 | `NR.c98_modified` | propext, Classical.choice, Quot.sound |
| C98 | `NR.c98_threshold` | propext, Classical.choice, Quot.sound |
| C98 | `NR.c98_curves` | propext, Classical.choice, Quot.sound |
| C98 | `NR.c98_entropy` | propext, Classical.choice, Quot.sound |
| C98 | `NR.c98_measured_false` | propext, Classical.choice, Quot.sound |
| C99 | `NR.c99_probabilities` | propext, Classical.choice, Quot.sound |
| C99 | `NR.c99_step` | propext, Classical.choice, Quot.sound |
| C99 | `NR.c99_raw` | propext, Classical.choice, Quot.sound |
| C99 | `NR.c99_reversed_false` | propext, Classical.choice, Quot.sound |
| C99 | `NR.c99_same` | propext, Classical.choice, Quot.sound |
| C99 | `NR.c99_none` | propext, Classical.choice, Quot.sound |
| C99 | `NR.c99_index` | propext, Classical.choice, Quot.sound |
| C99 | `NR.c99_index_false` | propext, Quot.sound |
| C100 | `NR.c100_hellinger` | propext, Classical.choice, Quot.sound |
| C100 | `NR.c100_kl` | propext, Classical.choice, Quot.sound |
| C100 | `NR.c100_length` | propext, Classical.choice, Quot.sound |
| C100 | `NR.c100_distance` | propext, Classical.choice, Quot.sound |
| C100 | `NR.c100_single` | propext, Classical.choice, Quot.sound |
| C100 | `NR.c100_first_merge` | propext, Classical.choice, Quot.sound |
| C100 | `NR.c100_constant_false` | propext, Classical.choice, Quot.sound |
| C101 | `NR.c101_repeats` | propext, Classical.choice, Quot.sound |
| C101 | `NR.c101_count` | propext, Classical.choice, Quot.sound |
| C101 | `NR.c101_lost` | propext, Classical.choice, Quot.sound |
| C101 | `NR.c101_kept` | propext, Classical.choice, Quot.sound |
| C101 | `NR.c101_forgotten_false` | propext, Classical.choice, Quot.sound |
| C101 | `NR.c101_exit` | propext, Classical.choice, Quot.sound |
| C101 | `NR.c101_words` | propext, Classical.choice, Quot.sound |
| C102 | `NR.c102_alone` | propext, Classical.choice, Quot.sound |
| C102 | `NR.c102_joint` | propext, Classical.choice, Quot.sound |
| C102 | `NR.c102_rates` | propext, Classical.choice, Quot.sound |
| C102 | `NR.c102_combined` | propext, Classical.choice, Quot.sound |
| C102 | `NR.c102_pretrained` | propext, Classical.choice, Quot.sound |
| C102 | `NR.c102_awgn_alone` | propext, Classical.choice, Quot.sound |
| C102 | `NR.c102_awgn` | propext, Classical.choice, Quot.sound |
| C102 | `NR.c102_example` | propext, Classical.choice, Quot.sound |
| C102 | `NR.c102_awgn_example` | propext, Classical.choice, Quot.sound |
| C102 | `NR.c102_pretrained_false` | propext, Classical.choice, Quot.sound |
| C103 | `NR.c103_history` | propext, Classical.choice, Quot.sound |
| C103 | `NR.c103_schedule` | propext, Classical.choice, Quot.sound |
| C103 | `NR.c103_limit` | propext, Classical.choice, Quot.sound |
| C103 | `NR.c103_limit_enough` | propext, Classical.choice, Quot.sound |
| C103 | `NR.c103_limit_first` | propext, Classical.choice, Quot.sound |
| C103 | `NR.c103_limit_false` | propext, Classical.choice, Quot.sound |
| C103 | `NR.c103_noise` | propext, Classical.choice, Quot.sound |
| C103 | `NR.c103_same_noise` | propext, Classical.choice, Quot.sound |
| C104 | `NR.c104_last` | propext, Classical.choice, Quot.sound |
| C104 | `NR.c104_five` | propext, Classical.choice, Quot.sound |
| C104 | `NR.c104_five_models` | propext, Classical.choice, Quot.sound |
| C104 | `NR.c104_example` | propext, Classical.choice, Quot.sound |
| C104 | `NR.c104_false` | propext, Classical.choice, Quot.sound |
| C105 | `NR.c105_no_errors` | propext, Classical.choice, Quot.sound |
| C105 | `NR.c105_returns` | propext, Classical.choice, Quot.sound |
| C105 | `NR.c105_lost` | propext, Classical.choice, Quot.sound |
| C105 | `NR.c105_needs_structure` | propext, Classical.choice, Quot.sound |
| C105 | `NR.c105_errors_required` | propext, Classical.choice, Quot.sound |
| C105 | `NR.c105_run` | propext, Classical.choice, Quot.sound |
| C105 | `NR.c105_never_learns` | propext, Classical.choice, Quot.sound |
| C105 | `NR.c105_predefined` | propext, Classical.choice, Quot.sound |
| C105 | `NR.c105_transparent_false` | propext, Classical.choice, Quot.sound |
| C106 | `NR.C106.c106_messages` | propext, Classical.choice, Quot.sound |
| C106 | `NR.C106.c106_minimal_messages` | propext, Classical.choice, Quot.sound |
| C106 | `NR.C106.c106_pack` | propext, Classical.choice, Quot.sound |
| C106 | `NR.C106.c106_decode` | propext, Classical.choice, Quot.sound |
| C106 | `NR.C106.c106_minimal_pack` | propext, Classical.choice, Quot.sound |
| C106 | `NR.C106.c106_minimal_decode` | propext, Classical.choice, Quot.sound |
| C106 | `NR.C106.c106_minimal_sub` | propext |
| C106 | `NR.C106.c106_enums` | propext, Classical.choice, Quot.sound |
| C106 | `NR.C106.c106_minimal_enums` | propext, Classical.choice, Quot.sound |
| C107 | `NR.C107.c107_classifier` | propext, Classical.choice, Quot.sound |
| C107 | `NR.C107.c107_mav` | propext, Classical.choice, Quot.sound |
| C107 | `NR.C107.c107_clustering` | propext, Classical.choice, Quot.sound |
| C107 | `NR.C107.c107_range` | propext, Classical.choice, Quot.sound |
| C107 | `NR.C107.c107_increasing` | propext, Classical.choice, Quot.sound |
| C107 | `NR.C107.c107_repeats` | propext, Classical.choice, Quot.sound |
| C107 | `NR.C107.c107_dude` | propext, Classical.choice, Quot.sound |
| C107 | `NR.C107.c107_runner` | propext, Classical.choice, Quot.sound |
| C107 | `NR.C107.c107_called_false` | propext, Classical.choice, Quot.sound |
| C108 | `NR.C108.c108_any` | propext, Classical.choice, Quot.sound |
| C108 | `NR.C108.c108_decided` | propext, Classical.choice, Quot.sound |
| C108 | `NR.C108.c108_lines` | propext, Classical.choice, Quot.sound |
| C108 | `NR.C108.c108_returns` | propext, Classical.choice, Quot.sound |
| C108 | `NR.C108.c108_repeated` | propext, Classical.choice, Quot.sound |
| C108 | `NR.C108.c108_once_false` | propext, Classical.choice, Quot.sound |
| C109 | `NR.c109_encode` | propext, Classical.choice, Quot.sound |
| C109 | `NR.c109_send` | propext, Classical.choice, Quot.sound |
| C109 | `NR.c109_signed` | propext, Classical.choice, Quot.sound |
| C109 | `NR.c109_array` | propext, Classical.choice, Quot.sound |
| C109 | `NR.c109_parser` | propext, Classical.choice, Quot.sound |
| C109 | `NR.c109_array_false` | propext, Classical.choice, Quot.sound |
| C110 | `NR.C110.c110_summary` | propext, Classical.choice, Quot.sound |
| C110 | `NR.C110.c110_metrics` | propext, Classical.choice, Quot.sound |
| C110 | `NR.C110.c110_informedness` | propext, Classical.choice, Quot.sound |
| C110 | `NR.C110.c110_fscore` | propext, Classical.choice, Quot.sound |
| C110 | `NR.C110.c110_fscore_false` | propext, Classical.choice, Quot.sound |
| C110 | `NR.C110.c110_functions` | propext, Classical.choice, Quot.sound |
| C110 | `NR.C110.c110_confusion` | propext, Classical.choice, Quot.sound |
| C110 | `NR.C110.c110_mixed` | propext, Classical.choice, Quot.sound |
| C110 | `NR.C110.c110_quality` | propext, Classical.choice, Quot.sound |
| C111 | `NR.C111.c111_mle` | propext, Classical.choice, Quot.sound |
| C111 | `NR.C111.c111_range` | propext, Classical.choice, Quot.sound |
| C111 | `NR.C111.c111_study` | propext, Classical.choice, Quot.sound |
| C111 | `NR.C111.c111_share` | propext, Classical.choice, Quot.sound |
| C111 | `NR.C111.c111_shrink` | propext, Classical.choice, Quot.sound |
| C111 | `NR.C111.c111_window_false` | propext, Classical.choice, Quot.sound |
| C111 | `NR.C111.c111_points_false` | propext, Classical.choice, Quot.sound |
| C112 | `NR.C112.c112_missions` | propext, Classical.choice, Quot.sound |
| C112 | `NR.C112.c112_used` | propext, Classical.choice, Quot.sound |
| C112 | `NR.C112.c112_read` | propext, Classical.choice, Quot.sound |
| C112 | `NR.C112.c112_copy` | propext, Classical.choice, Quot.sound |
| C112 | `NR.C112.c112_search` | propext, Classical.choice, Quot.sound |
| C112 | `NR.C112.c112_rows` | propext, Classical.choice, Quot.sound |
| C112 | `NR.C112.c112_nearest_false` | propext, Classical.choice, Quot.sound |
| C112 | `NR.C112.c112_clean_false` | propext, Classical.choice, Quot.sound |
| C113 | `NR.C113.c113_bins` | propext, Classical.choice, Quot.sound |
| C113 | `NR.C113.c113_totals` | propext, Classical.choice, Quot.sound |
| C113 | `NR.C113.c113_days` | propext, Classical.choice, Quot.sound |
| C114 | `NR.C114.c114_text` | propext, Classical.choice, Quot.sound |
| C114 | `NR.C114.c114_roundtrip` | propext, Classical.choice, Quot.sound |
| C114 | `NR.C114.c114_crash` | propext, Classical.choice, Quot.sound |
| C114 | `NR.C114.c114_raising` | propext, Classical.choice, Quot.sound |
| C114 | `NR.C114.c114_history` | propext, Classical.choice, Quot.sound |
| C114 | `NR.C114.c114_old_lost` | propext, Classical.choice, Quot.sound |
| C114 | `NR.C114.c114_foreign` | propext, Classical.choice, Quot.sound |
| C114 | `NR.C114.c114_no_type` | propext, Classical.choice, Quot.sound |
| C114 | `NR.C114.c114_ascii` | propext, Classical.choice, Quot.sound |
| C115 | `NR.C115.c115_separate` | propext, Classical.choice, Quot.sound |
| C115 | `NR.C115.c115_order` | propext, Classical.choice, Quot.sound |
| C115 | `NR.C115.c115_keep` | propext, Classical.choice, Quot.sound |
| C115 | `NR.C115.c115_untouched` | propext, Classical.choice, Quot.sound |
| C115 | `NR.C115.c115_own_log` | propext, Classical.choice, Quot.sound |
| C115 | `NR.C115.c115_shared_log` | propext, Classical.choice, Quot.sound |
| C115 | `NR.C115.c115_sequential` | propext, Classical.choice, Quot.sound |
| C115 | `NR.C115.c115_stamp` | propext, Classical.choice, Quot.sound |
| C115 | `NR.C115.c115_stamp_torn` | propext, Classical.choice, Quot.sound |
| C115 | `NR.C115.c115_stamp_order_false` | propext, Classical.choice, Quot.sound |
| C115 | `NR.C115.c115_side_by_side_false` | propext |
| C115 | `NR.C115.c115_clustering_log_false` | propext |
| C115 | `NR.C115.c115_step_pickle_false` | propext |
| C116 | `NR.C116.c116_values` | propext, Classical.choice, Quot.sound |
| C116 | `NR.C116.c116_learned` | propext, Classical.choice, Quot.sound |
| C116 | `NR.C116.c116_readable` | propext, Classical.choice, Quot.sound |
| C117 | `NR.C117.c117_learned` | propext, Classical.choice, Quot.sound |
| C117 | `NR.C117.c117_mission` | propext, Classical.choice, Quot.sound |
| C117 | `NR.C117.c117_poisoned` | propext, Classical.choice, Quot.sound |
| C117 | `NR.C117.c117_padding_false` | propext, Classical.choice, Quot.sound |
| C118 | `NR.C118.c118_curves` | propext, Classical.choice, Quot.sound |
| C118 | `NR.C118.c118_rising` | propext, Classical.choice, Quot.sound |
| C118 | `NR.C118.c118_labels` | propext, Classical.choice, Quot.sound |
| C118 | `NR.C118.c118_three_clusters_false` | propext, Classical.choice, Quot.sound |
| C118 | `NR.C118.c118_three_rows_false` | propext, Classical.choice, Quot.sound |
| C118 | `NR.C118.c118_three_metrics_false` | propext, Classical.choice, Quot.sound |
| C118 | `NR.C118.c118_own_errors_false` | propext, Classical.choice, Quot.sound |
| C118 | `NR.C118.c118_single_rate_false` | propext, Classical.choice, Quot.sound |
| C119 | `NR.Fix.c119_parts` | propext, Classical.choice, Quot.sound |
| C119 | `NR.Fix.c119_returns` | propext, Classical.choice, Quot.sound |
| C119 | `NR.Fix.c119_raises` | propext, Quot.sound |
| C119 | `NR.Fix.c119_rescue` | propext, Classical.choice, Quot.sound |
| C120 | `NR.C120.c120_gaps` | propext, Classical.choice, Quot.sound |
| C120 | `NR.C120.c120_resync` | propext, Classical.choice, Quot.sound |
| C120 | `NR.C120.c120_silent` | propext, Classical.choice, Quot.sound |
| C120 | `NR.C120.c120_bound_false` | propext, Classical.choice, Quot.sound |
| C121 | `NR.C121.c121_lost` | propext, Classical.choice, Quot.sound |
| C121 | `NR.C121.c121_damaged` | propext, Classical.choice, Quot.sound |
| C121 | `NR.C121.c121_single_bit` | propext, Classical.choice, Quot.sound |
| C121 | `NR.C121.c121_intact_false` | propext, Classical.choice, Quot.sound |
| C121 | `NR.C121.c121_sent_false` | propext, Classical.choice, Quot.sound |
| C122 | `NR.C122.c122_learned` | propext, Classical.choice, Quot.sound |
| C122 | `NR.C122.c122_predefined` | propext, Classical.choice, Quot.sound |
| C122 | `NR.C122.c122_repaired` | propext, Classical.choice, Quot.sound |
| C122 | `NR.C122.c122_change_false` | propext, Classical.choice, Quot.sound |
| C123 | `NR.C123.c123_accept_iff` | propext, Classical.choice, Quot.sound |
| C123 | `NR.C123.c123_other` | propext, Quot.sound |
| C123 | `NR.C123.c123_same` | propext, Classical.choice, Quot.sound |
| C123 | `NR.C123.c123_padding` | propext, Classical.choice, Quot.sound |
| C123 | `NR.C123.c123_only_frames` | propext, Classical.choice, Quot.sound |
| C123 | `NR.C123.c123_signature_false` | propext, Classical.choice, Quot.sound |
| C123 | `NR.C123.c123_payload_false` | propext, Classical.choice, Quot.sound |
| C124 | `NR.C124.c124_version1` | propext, Classical.choice, Quot.sound |
| C124 | `NR.C124.c124_version2_false` | propext, Classical.choice, Quot.sound |
| C124 | `NR.C124.c124_marker` | propext, Classical.choice, Quot.sound |
| C124 | `NR.C124.c124_mixed` | propext, Classical.choice, Quot.sound |
| C124 | `NR.C124.c124_flags_false` | propext, Classical.choice, Quot.sound |
| C125 | `NR.C125.c125_seen` | propext, Classical.choice, Quot.sound |
| C125 | `NR.C125.c125_returned_false` | propext, Quot.sound |
| C125 | `NR.C125.c125_send` | propext, Quot.sound |
| C125 | `NR.C125.c125_numbers` | propext, Classical.choice, Quot.sound |
| C125 | `NR.C125.c125_unsent_false` | propext, Classical.choice, Quot.sound |
| C126 | `NR.C126.c126_words` | propext, Classical.choice, Quot.sound |
| C126 | `NR.C126.c126_mission` | propext, Classical.choice, Quot.sound |
| C127 | `NR.C127.c127_calls` | propext, Classical.choice, Quot.sound |
| C127 | `NR.C127.c127_bytewise` | propext, Classical.choice, Quot.sound |
| C127 | `NR.C127.c127_catch_up` | propext, Classical.choice, Quot.sound |
| C127 | `NR.C127.c127_buffer` | propext, Classical.choice, Quot.sound |
| C127 | `NR.C127.c127_buffer_sound` | propext, Classical.choice, Quot.sound |
| C127 | `NR.C127.c127_clean` | propext, Classical.choice, Quot.sound |
| C127 | `NR.C127.c127_lost_false` | propext, Classical.choice, Quot.sound |
| C127 | `NR.C127.c127_none_false` | propext, Classical.choice, Quot.sound |
| C128 | `NR.C128.c128_constant` | propext, Classical.choice, Quot.sound |
| C128 | `NR.C128.c128_exact_int` | propext, Classical.choice, Quot.sound |
| C128 | `NR.C128.c128_exact_float` | propext, Classical.choice, Quot.sound |
| C128 | `NR.C128.c128_varied` | propext, Classical.choice, Quot.sound |
| C128 | `NR.C128.c128_decides` | propext, Classical.choice, Quot.sound |
| C128 | `NR.C128.c128_exact_small` | propext, Classical.choice, Quot.sound |
| C128 | `NR.C128.c128_stops` | propext, Classical.choice, Quot.sound |
| C128 | `NR.C128.c128_judges` | propext, Classical.choice, Quot.sound |
| C128 | `NR.C128.c128_floats` | propext, Classical.choice, Quot.sound |
| C128 | `NR.C128.c128_constant_false` | propext, Classical.choice, Quot.sound |
| C128 | `NR.C128.c128_ones_false` | propext, Classical.choice, Quot.sound |
| C128 | `NR.C128.c128_zero_false` | propext, Classical.choice, Quot.sound |
| C128 | `NR.C128.c128_mission` | propext, Classical.choice, Quot.sound |
| C129 | `NR.C129.c129_sign` | propext, Classical.choice, Quot.sound |
| C129 | `NR.C129.c129_sign_range` | propext, Classical.choice, Quot.sound |
| C129 | `NR.C129.c129_sign_always_false` | propext, Classical.choice, Quot.sound |
| C129 | `NR.C129.c129_significant` | propext, Classical.choice, Quot.sound |
| C129 | `NR.C129.c129_significant_always_false` | propext, Classical.choice, Quot.sound |
| C129 | `NR.C129.c129_quiet` | propext, Classical.choice, Quot.sound |
| C130 | `NR.C130.c130_points` | propext, Classical.choice, Quot.sound |
| C130 | `NR.C130.c130_count` | propext, Classical.choice, Quot.sound |
| C130 | `NR.C130.c130_nested` | propext, Classical.choice, Quot.sound |
| C130 | `NR.C130.c130_near` | propext, Classical.choice, Quot.sound |
| C130 | `NR.C130.c130_share` | propext, Classical.choice, Quot.sound |
| C130 | `NR.C130.c130_whole_false` | propext, Classical.choice, Quot.sound |
| C131 | `NR.C131.c131_word` | propext, Classical.choice, Quot.sound |
| C131 | `NR.C131.c131_decisions` | propext, Classical.choice, Quot.sound |
| C131 | `NR.C131.c131_repaired` | propext, Classical.choice, Quot.sound |
| C131 | `NR.C131.c131_centre` | propext, Classical.choice, Quot.sound |
| C131 | `NR.C131.c131_untouched` | propext, Classical.choice, Quot.sound |
| C131 | `NR.C131.c131_errors` | propext, Classical.choice, Quot.sound |
| C131 | `NR.C131.c131_bayes` | propext, Classical.choice, Quot.sound |
| C131 | `NR.C131.c131_given` | propext, Classical.choice, Quot.sound |
| C131 | `NR.C131.c131_ties` | propext, Classical.choice, Quot.sound |
| C131 | `NR.C131.c131_change_false` | propext, Classical.choice, Quot.sound |
| C132 | `NR.C132.c132_profile` | propext, Classical.choice, Quot.sound |
| C132 | `NR.C132.c132_dive_false` | propext, Classical.choice, Quot.sound |
| C132 | `NR.C132.c132_slope_false` | propext, Classical.choice, Quot.sound |
| C132 | `NR.C132.c132_joints` | propext, Classical.choice, Quot.sound |
| C132 | `NR.C132.c132_negative` | propext, Classical.choice, Quot.sound |
| C132 | `NR.C132.c132_noise_false` | propext, Classical.choice, Quot.sound |
| C133 | `NR.C133.c133_same` | propext, Classical.choice, Quot.sound |
| C133 | `NR.C133.c133_log_likelihood` | propext, Classical.choice, Quot.sound |
| C133 | `NR.C133.c133_hamming` | propext, Classical.choice, Quot.sound |
| C133 | `NR.C133.c133_unchanged` | propext, Classical.choice, Quot.sound |
| C133 | `NR.C133.c133_lengths` | propext, Classical.choice, Quot.sound |
| C133 | `NR.C133.c133_constant` | propext, Classical.choice, Quot.sound |
| C133 | `NR.C133.c133_lost_false` | propext, Classical.choice, Quot.sound |
| C133 | `NR.C133.c133_recovers` | propext, Classical.choice, Quot.sound |
| C133 | `NR.C133.c133_labels` | propext, Classical.choice, Quot.sound |
| C133 | `NR.C133.c133_absorbed` | propext, Classical.choice, Quot.sound |
| C133 | `NR.C133.c133_lost_forever` | propext, Classical.choice, Quot.sound |
| C133 | `NR.C133.c133_settling_log_likelihood` | propext, Classical.choice, Quot.sound |
| C133 | `NR.C133.c133_settling_hamming` | propext, Classical.choice, Quot.sound |
| C133 | `NR.C133.c133_settles` | propext, Classical.choice, Quot.sound |
| C134 | `NR.C134.c134_posterior` | propext, Classical.choice, Quot.sound |
| C134 | `NR.C134.c134_posterior_range` | propext, Classical.choice, Quot.sound |
| C134 | `NR.C134.c134_bayes` | propext, Classical.choice, Quot.sound |
| C134 | `NR.C134.c134_bayes_range` | propext, Classical.choice, Quot.sound |
| C134 | `NR.C134.c134_mle` | propext, Classical.choice, Quot.sound |
| C134 | `NR.C134.c134_weights` | propext, Classical.choice, Quot.sound |
| C134 | `NR.C134.c134_weight` | propext, Classical.choice, Quot.sound |
| C134 | `NR.C134.c134_bayes_weight` | propext, Classical.choice, Quot.sound |
| C134 | `NR.C134.c134_second` | propext, Classical.choice, Quot.sound |
| C135 | `NR.C135.c135_influence` | propext, Classical.choice, Quot.sound |
| C135 | `NR.C135.c135_second` | propext, Classical.choice, Quot.sound |
| C135 | `NR.C135.c135_decisions` | propext, Classical.choice, Quot.sound |
| C135 | `NR.C135.c135_repaired` | propext, Classical.choice, Quot.sound |
| C135 | `NR.C135.c135_one_model` | propext, Classical.choice, Quot.sound |
| C135 | `NR.C135.c135_seasoned` | propext, Classical.choice, Quot.sound |
| C135 | `NR.C135.c135_centre` | propext, Classical.choice, Quot.sound |
| C135 | `NR.C135.c135_untouched` | propext, Classical.choice, Quot.sound |
| C136 | `NR.C136.c136_constant` | propext, Classical.choice, Quot.sound |
| C136 | `NR.C136.c136_bounded` | propext, Classical.choice, Quot.sound |
| C136 | `NR.C136.c136_wins` | propext, Classical.choice, Quot.sound |
| C136 | `NR.C136.c136_loses` | propext, Classical.choice, Quot.sound |
| C136 | `NR.C136.c136_alone` | propext, Classical.choice, Quot.sound |
| C136 | `NR.C136.c136_repaired` | propext, Classical.choice, Quot.sound |
| C136 | `NR.C136.c136_no_structure` | propext, Classical.choice, Quot.sound |
| C136 | `NR.C136.c136_learned` | propext, Classical.choice, Quot.sound |
| C137 | `NR.C137.c137_overruled` | propext, Classical.choice, Quot.sound |
| C137 | `NR.C137.c137_others` | propext, Classical.choice, Quot.sound |
| C137 | `NR.C137.c137_evidence` | propext, Classical.choice, Quot.sound |
| C137 | `NR.C137.c137_default` | propext, Classical.choice, Quot.sound |
| C137 | `NR.C137.c137_constant` | propext, Classical.choice, Quot.sound |
| C137 | `NR.C137.c137_fresh` | propext, Classical.choice, Quot.sound |
| C138 | `NR.C138.c138_learned` | propext, Classical.choice, Quot.sound |
| C138 | `NR.C138.c138_agrees` | propext, Classical.choice, Quot.sound |
| C138 | `NR.C138.c138_headers` | propext, Classical.choice, Quot.sound |
| C138 | `NR.C138.c138_nothing` | propext, Classical.choice, Quot.sound |
| C139 | `NR.C139.c139_runs` | propext, Classical.choice, Quot.sound |
| C139 | `NR.C139.c139_learned` | propext, Classical.choice, Quot.sound |
| C139 | `NR.C139.c139_repeats` | propext, Classical.choice, Quot.sound |
| C139 | `NR.C139.c139_echo` | propext, Classical.choice, Quot.sound |
| C139 | `NR.C139.c139_round_robin` | propext, Classical.choice, Quot.sound |
| C139 | `NR.C139.c139_hard` | propext, Classical.choice, Quot.sound |
| C140 | `NR.C140.c140_odd` | propext, Classical.choice, Quot.sound |
| C140 | `NR.C140.c140_three` | propext, Classical.choice, Quot.sound |
| C140 | `NR.C140.c140_four` | propext, Classical.choice, Quot.sound |
| C140 | `NR.C140.c140_lost` | propext, Classical.choice, Quot.sound |
| C140 | `NR.C140.c140_stream` | propext, Classical.choice, Quot.sound |
| C140 | `NR.C140.c140_stream_silent` | propext, Classical.choice, Quot.sound |
| C140 | `NR.C140.c140_silent` | propext, Classical.choice, Quot.sound |
| C140 | `NR.C140.c140_id_false` | propext, Quot.sound |
| C141 | `NR.C141.c141_repairs` | propext, Classical.choice, Quot.sound |
| C141 | `NR.C141.c141_header` | propext, Classical.choice, Quot.sound |
| C141 | `NR.C141.c141_single_iff` | propext, Classical.choice, Quot.sound |
| C141 | `NR.C141.c141_count` | none |
| C141 | `NR.C141.c141_wrong` | propext, Classical.choice, Quot.sound |
| C142 | `NR.C142.c142_load` | propext, Classical.choice, Quot.sound |
| C142 | `NR.C142.c142_learns_nothing` | propext, Classical.choice, Quot.sound |
| C142 | `NR.C142.c142_resave` | propext, Classical.choice, Quot.sound |
| C142 | `NR.C142.c142_size` | propext, Classical.choice, Quot.sound |
| C142 | `NR.C142.c142_sized` | propext, Classical.choice, Quot.sound |
| C142 | `NR.C142.c142_decodes` | propext, Classical.choice, Quot.sound |
| C143 | `NR.C143.c143_stuck` | propext, Classical.choice, Quot.sound |
| C143 | `NR.C143.c143_combined` | propext, Classical.choice, Quot.sound |
| C143 | `NR.C143.c143_fresh` | propext, Classical.choice, Quot.sound |
| C143 | `NR.C143.c143_fresh_combined` | propext, Classical.choice, Quot.sound |
| C143 | `NR.C143.c143_field_trained` | propext, Classical.choice, Quot.sound |
| C143 | `NR.C143.c143_unused` | propext, Classical.choice, Quot.sound |
| C143 | `NR.C143.c143_unused_returns` | propext, Classical.choice, Quot.sound |
| C144 | `NR.C144.c144_moments` | propext, Classical.choice, Quot.sound |
| C144 | `NR.C144.c144_single` | propext, Classical.choice, Quot.sound |
| C144 | `NR.C144.c144_copies` | propext, Classical.choice, Quot.sound |
| C144 | `NR.C144.c144_names` | propext, Classical.choice, Quot.sound |
| C144 | `NR.C144.c144_twins` | propext, Classical.choice, Quot.sound |
| C144 | `NR.C144.c144_one_feature_false` | propext, Classical.choice, Quot.sound |
| C144 | `NR.C144.c144_constant` | propext, Classical.choice, Quot.sound |
| C145 | `NR.C145.c145_log_likelihood` | propext, Classical.choice, Quot.sound |
| C145 | `NR.C145.c145_hamming` | propext, Classical.choice, Quot.sound |
| C145 | `NR.C145.c145_copies` | propext, Classical.choice, Quot.sound |
| C145 | `NR.C145.c145_noise` | propext, Classical.choice, Quot.sound |
| C145 | `NR.C145.c145_noise_none` | propext, Classical.choice, Quot.sound |
| C145 | `NR.C145.c145_noise_hamming_false` | propext, Classical.choice, Quot.sound |
| C145 | `NR.C145.c145_weights_false` | propext, Classical.choice, Quot.sound |
| C146 | `NR.C146.c146_two_sided` | propext, Classical.choice, Quot.sound |
| C146 | `NR.C146.c146_needed` | propext, Classical.choice, Quot.sound |
| C146 | `NR.C146.c146_online` | propext, Classical.choice, Quot.sound |
| C146 | `NR.C146.c146_constant` | propext, Classical.choice, Quot.sound |
| C146 | `NR.C146.c146_telling_false` | propext, Classical.choice, Quot.sound |
| C147 | `NR.C147.c147_repaired` | propext, Classical.choice, Quot.sound |
| C147 | `NR.C147.c147_failing` | propext, Classical.choice, Quot.sound |
| C147 | `NR.C147.c147_forever` | propext, Classical.choice, Quot.sound |
| C148 | `NR.C148.c148_forever` | propext, Classical.choice, Quot.sound |
| C149 | `NR.C149.c149_told` | propext, Classical.choice, Quot.sound |
| C149 | `NR.C149.c149_left` | propext, Classical.choice, Quot.sound |
| C149 | `NR.C149.c149_misled` | propext, Classical.choice, Quot.sound |
| C149 | `NR.C149.c149_budget` | propext, Classical.choice, Quot.sound |
| C150 | `NR.C150.c150_rates` | propext, Classical.choice, Quot.sound |
| C151 | `NR.C151.c151_forever` | propext, Classical.choice, Quot.sound |
| C151 | `NR.C151.c151_spared` | propext, Classical.choice, Quot.sound |
| C151 | `NR.C151.c151_mission` | propext, Classical.choice, Quot.sound |
| C152 | `NR.C152.c152_rates` | propext, Classical.choice, Quot.sound |
| C152 | `NR.C152.c152_defaults_false` | propext, Classical.choice, Quot.sound |
| C152 | `NR.C152.c152_learning_false` | propext, Classical.choice, Quot.sound |
| C153 | `NR.C153.c153_forever` | propext, Classical.choice, Quot.sound |
| C153 | `NR.C153.c153_hard` | propext, Classical.choice, Quot.sound |
| C153 | `NR.C153.c153_heard` | propext, Classical.choice, Quot.sound |
| C154 | `NR.C154.c154_forever` | propext, Classical.choice, Quot.sound |
| C155 | `NR.C155.c155_rates` | propext, Classical.choice, Quot.sound |
| C155 | `NR.C155.c155_learning_false` | propext, Classical.choice, Quot.sound |
| C156 | `NR.C156.c156_pair` | propext, Classical.choice, Quot.sound |
| C156 | `NR.C156.c156_converse` | propext, Classical.choice, Quot.sound |
| C156 | `NR.C156.c156_awgn` | propext, Classical.choice, Quot.sound |
| C157 | `NR.C157.c157_repaired` | propext, Classical.choice, Quot.sound |
| C157 | `NR.C157.c157_decodes` | propext, Classical.choice, Quot.sound |
| C157 | `NR.C157.c157_run` | propext, Classical.choice, Quot.sound |
| C158 | `NR.C158.c158_needed` | propext, Classical.choice, Quot.sound |
| C158 | `NR.C158.c158_bsc` | propext, Classical.choice, Quot.sound |
| C158 | `NR.C158.c158_signs` | propext, Classical.choice, Quot.sound |
| C159 | `NR.C159.c159_word` | propext, Classical.choice, Quot.sound |
| C159 | `NR.C159.c159_loop` | propext, Classical.choice, Quot.sound |
| C159 | `NR.C159.c159_same` | propext, Classical.choice, Quot.sound |
| C159 | `NR.C159.c159_reports` | propext, Classical.choice, Quot.sound |
| C160 | `NR.C160.c160_repaired` | propext, Classical.choice, Quot.sound |
| C160 | `NR.C160.c160_decodes` | propext, Classical.choice, Quot.sound |
| C160 | `NR.C160.c160_run` | propext, Classical.choice, Quot.sound |
| C161 | `NR.C161.c161_rate` | propext, Classical.choice, Quot.sound |
