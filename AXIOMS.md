# Axioms of every property theorem

Output of `#print axioms` (Lean 4.33.0) on the theorems of `MANIFEST.json`.

| theorem | axioms |
|---|---|
| `Btc.C01_wif_is_base58check` | `propext`, `Classical.choice`, `Quot.sound` |
| `Btc.C01_wif_bytes` | `propext`, `Classical.choice`, `Quot.sound` |
| `Btc.C02_accepts_iff` | `propext`, `Classical.choice`, `Quot.sound` |
| `Btc.C02_bad_character` | `propext`, `Classical.choice`, `Quot.sound` |
| `Btc.C02_bad_length` | `propext`, `Classical.choice`, `Quot.sound` |
| `Btc.C02_no_panic` | `propext`, `Classical.choice`, `Quot.sound` |
| `Btc.C03_true_iff` | `propext`, `Classical.choice`, `Quot.sound` |
| `Btc.C03_decoded` | `propext`, `Classical.choice`, `Quot.sound` |
| `Btc.C03_undecodable` | `propext`, `Classical.choice`, `Quot.sound` |
| `Btc.C03_exhaustive` | `propext`, `Classical.choice`, `Quot.sound` |
| `Btc.C04_violated` | `propext`, `Classical.choice`, `Quot.sound` |
| `Btc.C04_checkWIF_panics_iff_partial` | `propext`, `Classical.choice`, `Quot.sound` |
| `Btc.C04_privateFromWIF_panics_iff_partial` | `propext`, `Classical.choice`, `Quot.sound` |
| `Btc.C05_hex_wif_roundtrip` | `propext`, `Classical.choice`, `Quot.sound` |
| `Btc.C06_wif_hex_roundtrip` | `propext`, `Classical.choice`, `Quot.sound` |
| `Btc.C07_wif_injective` | `propext`, `Classical.choice`, `Quot.sound` |
| `Btc.C07_equal_wif_equal_key` | `propext`, `Classical.choice`, `Quot.sound` |
| `Btc.C08_emitted_wif_checks` | `propext`, `Classical.choice`, `Quot.sound` |
| `Btc.C09_import_requires_check` | `propext`, `Classical.choice`, `Quot.sound` |
| `Btc.C09_verdict_independent` | `propext`, `Classical.choice`, `Quot.sound` |
| `Btc.C10_checksum_tamper` | `propext`, `Classical.choice`, `Quot.sound` |
| `Btc.C11_wif_shape` | `propext`, `Classical.choice`, `Quot.sound` |
| `Btc.C12_compressed_import_partial` | `propext`, `Classical.choice`, `Quot.sound` |
| `Btc.C12_violated` | `propext`, `Classical.choice`, `Quot.sound` |
| `Btc.C13_version_ignored_partial` | `propext`, `Classical.choice`, `Quot.sound` |
| `Btc.C13_violated` | `propext`, `Classical.choice`, `Quot.sound` |
| `Btc.C14_generated_valid` | `propext`, `Classical.choice`, `Quot.sound` |
| `Btc.C14_generated_shape` | `propext`, `Classical.choice`, `Quot.sound` |
| `Btc.C14_only_source_failure` | `propext`, `Classical.choice`, `Quot.sound` |
| `Btc.C15_any_network` | `propext`, `Classical.choice`, `Quot.sound` |
| `Btc.C15_block` | `propext`, `Classical.choice`, `Quot.sound` |
| `Btc.C15_unique_block` | `propext`, `Classical.choice`, `Quot.sound` |
| `Btc.C16_generated_range_partial` | `propext`, `Classical.choice`, `Quot.sound` |
| `Btc.C16_violated` | `propext`, `Classical.choice`, `Quot.sound` |
| `Btc.C17_malformed_network` | `propext`, `Classical.choice`, `Quot.sound` |
| `Btc.C18_add_mod_n` | `propext`, `Classical.choice`, `Quot.sound` |
| `Btc.C19_mul_mod_n` | `propext`, `Classical.choice`, `Quot.sound` |
| `Btc.C20_add_succeeds_iff_partial` | `propext`, `Classical.choice`, `Quot.sound` |
| `Btc.C20_mul_succeeds_iff_partial` | `propext`, `Classical.choice`, `Quot.sound` |
| `Btc.C20_violated` | `propext`, `Classical.choice`, `Quot.sound` |
| `Btc.C21_never_zero` | `propext`, `Classical.choice`, `Quot.sound` |
| `Btc.C22_add_comm` | `propext`, `Classical.choice`, `Quot.sound` |
| `Btc.C22_mul_comm` | `propext`, `Classical.choice`, `Quot.sound` |
| `Btc.C23_add_assoc` | `propext`, `Classical.choice`, `Quot.sound` |
| `Btc.C23_mul_assoc` | `propext`, `Classical.choice`, `Quot.sound` |
| `Btc.C23_distrib` | `propext`, `Classical.choice`, `Quot.sound` |
| `Btc.C24_private_networks` | `propext`, `Classical.choice`, `Quot.sound` |
| `Btc.C24_public_networks` | `propext`, `Classical.choice`, `Quot.sound` |
| `Btc.C25_violated` | `propext`, `Classical.choice`, `Quot.sound` |
| `Btc.C25_identical_iff_partial` | `propext`, `Classical.choice`, `Quot.sound` |
| `Btc.C25_ascii_partial` | `propext`, `Classical.choice`, `Quot.sound` |
| `Btc.C25_ascii_keys` | `propext`, `Classical.choice`, `Quot.sound` |
| `Btc.C26_standard_iff_partial` | `propext`, `Classical.choice`, `Quot.sound` |
| `Btc.C26_violated` | `propext`, `Classical.choice`, `Quot.sound` |
| `Btc.C27_format_layout` | `propext`, `Classical.choice`, `Quot.sound` |
| `Btc.C27_fixed_unique` | `propext`, `Classical.choice`, `Quot.sound` |
| `Btc.C28_uncompressed_roundtrip` | `propext`, `Classical.choice`, `Quot.sound` |
| `Btc.C28_format_injective` | `propext`, `Classical.choice`, `Quot.sound` |
| `Btc.C29_compressed_roundtrip` | `propext`, `Classical.choice`, `Quot.sound` |
| `Btc.C30_decompression` | `propext`, `Classical.choice`, `Quot.sound` |
| `Btc.C31_uncompressed_unchecked_partial` | `propext`, `Classical.choice`, `Quot.sound` |
| `Btc.C31_on_curve_violated` | `propext`, `Classical.choice`, `Quot.sound` |
| `Btc.C31_not_hex_violated` | `propext`, `Classical.choice`, `Quot.sound` |
| `Btc.C32_outcomes_partial` | `propext`, `Classical.choice`, `Quot.sound` |
| `Btc.C32_never_crashes_violated` | `propext`, `Classical.choice`, `Quot.sound` |
| `Btc.C33_public_key` | `propext`, `Classical.choice`, `Quot.sound` |
| `Btc.C34_injective` | `propext`, `Classical.choice`, `Quot.sound` |
| `Btc.C35_add_homomorphism` | `propext`, `Classical.choice`, `Quot.sound` |
| `Btc.C36_mul_homomorphism` | `propext`, `Classical.choice`, `Quot.sound` |
| `Btc.C37_add_public_keys` | `propext`, `Classical.choice`, `Quot.sound` |
| `Btc.C38_negation` | `propext`, `Classical.choice`, `Quot.sound` |
| `Btc.C39_address_bytes` | `propext`, `Classical.choice`, `Quot.sound` |
| `Btc.C39_serialization_unique` | `propext`, `Classical.choice`, `Quot.sound` |
| `Btc.C39_address_never_fails` | `propext`, `Classical.choice`, `Quot.sound` |
| `Btc.C40_main_shape` | `propext`, `Classical.choice`, `Quot.sound` |
| `Btc.C40_test_shape` | `propext`, `Classical.choice`, `Quot.sound` |
| `Btc.C41_collision` | `propext`, `Classical.choice`, `Quot.sound` |
| `Btc.C42_address_imported_partial` | `propext`, `Classical.choice`, `Quot.sound` |
| `Btc.C42_address_rejected_violated` | `propext`, `Classical.choice`, `Quot.sound` |
| `Btc.C43_publicFromHex_case` | `propext`, `Classical.choice`, `Quot.sound` |
| `Btc.C43_privateFromHex_case` | `propext`, `Classical.choice`, `Quot.sound` |
| `Btc.C44_reads_nothing` | `propext`, `Classical.choice`, `Quot.sound` |
| `Btc.C44_nil_wordlist` | `propext`, `Classical.choice`, `Quot.sound` |
| `Btc.C44_unsupported_count` | `propext`, `Classical.choice`, `Quot.sound` |
| `Btc.C44_only_then` | `propext`, `Classical.choice`, `Quot.sound` |
| `Btc.C45_outcomes` | `propext`, `Classical.choice`, `Quot.sound` |
| `Btc.C45_word_count` | `propext`, `Classical.choice`, `Quot.sound` |
| `Btc.C46_phrase_determines_entropy` | `propext`, `Classical.choice`, `Quot.sound` |
| `Btc.C47_exact_encoding` | `propext`, `Classical.choice`, `Quot.sound` |
| `Btc.C48_bip39_violated` | `propext`, `Classical.choice`, `Quot.sound` |
| `Btc.C48_when_bip39` | `propext`, `Classical.choice`, `Quot.sound` |
| `Btc.C48_reversed_partial` | `propext`, `Classical.choice`, `Quot.sound` |
| `Btc.C49_unknown_word_rejected` | `propext`, `Classical.choice`, `Quot.sound` |
| `Btc.C49_unknown_piece_rejected` | `propext`, `Classical.choice`, `Quot.sound` |
| `Btc.C49_only_then` | `propext`, `Classical.choice`, `Quot.sound` |
| `Btc.C50_crash_iff` | `propext`, `Classical.choice`, `Quot.sound` |
| `Btc.C50_never_crashes_violated` | `propext`, `Classical.choice`, `Quot.sound` |
| `Btc.C50_twelve_words_rejected` | `propext`, `Classical.choice`, `Quot.sound` |
| `Btc.C50_no_crash_partial` | `propext`, `Classical.choice`, `Quot.sound` |
| `Btc.C51_accepts_iff_bip39` | `propext`, `Classical.choice`, `Quot.sound` |
| `Btc.C51_accepts_all_bip39` | `propext`, `Classical.choice`, `Quot.sound` |
| `Btc.C51_every_entropy_has_phrase` | `propext`, `Classical.choice`, `Quot.sound` |
| `Btc.C52_seed_always_nil` | `propext`, `Classical.choice`, `Quot.sound` |
| `Btc.C52_passphrase_ignored` | `propext`, `Classical.choice`, `Quot.sound` |
| `Btc.C52_returns_seed_violated` | `propext`, `Classical.choice`, `Quot.sound` |
| `Btc.C52_verdict_partial` | `propext`, `Classical.choice`, `Quot.sound` |
| `Btc.C53_short_phrases_never_accepted` | `propext`, `Classical.choice`, `Quot.sound` |
| `Btc.C53_accepted_back_violated` | `propext`, `Classical.choice`, `Quot.sound` |
| `Btc.C53_accepted_iff_partial` | `propext`, `Classical.choice`, `Quot.sound` |
| `Btc.C54_log_contains_phrase` | `propext`, `Classical.choice`, `Quot.sound` |
| `Btc.C54_not_logged_violated` | `propext`, `Classical.choice`, `Quot.sound` |
| `Btc.C54_no_log_partial` | `propext`, `Classical.choice`, `Quot.sound` |
| `Btc.C55_wordlists_well_formed` | `propext`, `Classical.choice`, `Quot.sound` |
| `Btc.C55_lookup_inverse` | `propext`, `Classical.choice`, `Quot.sound` |
| `Btc.C56_parameters` | `propext`, `Classical.choice`, `Quot.sound` |
| `Btc.C56_primes` | `propext`, `Classical.choice`, `Quot.sound` |
| `Btc.C56_base_point` | `propext`, `Classical.choice`, `Quot.sound` |
| `Btc.C56_cofactor` | `propext`, `Classical.choice`, `Quot.sound` |
| `Btc.C56_sampling_bound` | `propext`, `Classical.choice`, `Quot.sound` |
| `Btc.C57_programs_change_nothing` | `propext`, `Classical.choice`, `Quot.sound` |
| `Btc.C57_key_values_kept` | `propext`, `Classical.choice`, `Quot.sound` |
| `Btc.C57_public_key_values_kept` | `propext`, `Classical.choice`, `Quot.sound` |
| `Btc.C57_add` | `propext`, `Classical.choice`, `Quot.sound` |
| `Btc.C57_multiply` | `propext`, `Classical.choice`, `Quot.sound` |
| `Btc.C57_publicFromHex` | `propext`, `Classical.choice`, `Quot.sound` |
| `Btc.C57_getPublicKey` | `propext`, `Classical.choice`, `Quot.sound` |
| `Btc.C57_addPublicKeys` | `propext`, `Classical.choice`, `Quot.sound` |
| `Btc.C57_privateFromHex` | `propext`, `Classical.choice`, `Quot.sound` |
| `Btc.C57_privateFromWIF` | `propext`, `Classical.choice`, `Quot.sound` |
| `Btc.C57_generate` | `propext`, `Classical.choice`, `Quot.sound` |
| `Btc.C57_readers` | `propext`, `Classical.choice`, `Quot.sound` |
| `Btc.C57_nil` | `propext`, `Classical.choice`, `Quot.sound` |
| `Btc.C58_bijection` | `propext`, `Classical.choice`, `Quot.sound` |
| `Btc.C59_any_network` | `propext`, `Classical.choice`, `Quot.sound` |
| `Btc.C59_generated_key_usable` | `propext`, `Classical.choice`, `Quot.sound` |
| `Btc.C60_add_assoc` | `propext`, `Classical.choice`, `Quot.sound` |
| `Btc.C60_cancel` | `propext`, `Classical.choice`, `Quot.sound` |
| `Btc.C61_standard_violated` | `propext`, `Classical.choice`, `Quot.sound` |
| `Btc.C61_standard_iff_partial` | `propext`, `Classical.choice`, `Quot.sound` |
| `Btc.C62_outcome_partial` | `propext`, `Classical.choice`, `Quot.sound` |
| `Btc.C62_never_crashes_violated` | `propext`, `Classical.choice`, `Quot.sound` |
| `Btc.C63_lengths_violated` | `propext`, `Classical.choice`, `Quot.sound` |
| `Btc.C63_multiple_of_eight_partial` | `propext`, `Classical.choice`, `Quot.sound` |
| `Btc.C63_every_multiple_accepted` | `propext`, `Classical.choice`, `Quot.sound` |
| `Btc.C64_four_letters` | `propext`, `Classical.choice`, `Quot.sound` |
| `Btc.C65_import_range_partial` | `propext`, `Classical.choice`, `Quot.sound` |
| `Btc.C65_everything_imported` | `propext`, `Classical.choice`, `Quot.sound` |
| `Btc.C65_valid_scalars_violated` | `propext`, `Classical.choice`, `Quot.sound` |
| `Btc.C66_unique_wif_violated` | `propext`, `Classical.choice`, `Quot.sound` |
| `Btc.C66_unique_wif_partial` | `propext`, `Classical.choice`, `Quot.sound` |
| `Btc.C67_import_injective` | `propext`, `Classical.choice`, `Quot.sound` |
| `Btc.C68_foreign_characters` | `propext`, `Classical.choice`, `Quot.sound` |
| `Btc.C69_spacing_strict` | `propext`, `Classical.choice`, `Quot.sound` |
| `Btc.C69_spacing_shipped` | `propext`, `Classical.choice`, `Quot.sound` |
| `Btc.C70_foreign_byte` | `propext`, `Classical.choice`, `Quot.sound` |
| `Btc.C70_case_and_control` | `propext`, `Classical.choice`, `Quot.sound` |
| `Btc.C71_generate_local` | `propext`, `Classical.choice`, `Quot.sound` |
| `Btc.C71_mnemonic_local` | `propext`, `Classical.choice`, `Quot.sound` |
| `Btc.C72_add_cancel` | `propext`, `Classical.choice`, `Quot.sound` |
| `Btc.C72_mul_cancel` | `propext`, `Classical.choice`, `Quot.sound` |
| `Btc.C73_crash_iff_partial` | `propext`, `Classical.choice`, `Quot.sound` |
| `Btc.C73_imported_keys_violated` | `propext`, `Classical.choice`, `Quot.sound` |
| `Btc.C74_kinds_disjoint` | `propext`, `Classical.choice`, `Quot.sound` |
| `Btc.C75_roundtrip_partial` | `propext`, `Classical.choice`, `Quot.sound` |
| `Btc.C75_roundtrip_violated` | `propext`, `Classical.choice`, `Quot.sound` |
| `Btc.C76_prefix_only` | `propext`, `Classical.choice`, `Quot.sound` |
| `Btc.C77_disjoint_violated` | `propext`, `Classical.choice`, `Quot.sound` |
| `Btc.C77_disjoint_partial` | `propext`, `Classical.choice`, `Quot.sound` |
| `Btc.C77_other_language_rejected_partial` | `propext`, `Classical.choice`, `Quot.sound` |
| `Btc.C78_results` | `propext`, `Classical.choice`, `Quot.sound` |
| `Btc.C78_no_races` | `propext`, `Classical.choice`, `Quot.sound` |
| `Btc.C78_unchanged` | `propext`, `Classical.choice`, `Quot.sound` |
| `Btc.C78_deterministic` | `propext`, `Classical.choice`, `Quot.sound` |
| `Btc.C78_progress` | `propext`, `Quot.sound` |
| `Btc.C78_terminates` | `propext`, `Classical.choice`, `Quot.sound` |
| `Btc.C78_completes` | `propext`, `Classical.choice`, `Quot.sound` |
| `Btc.C79_result_at_least_16_partial` | `propext`, `Classical.choice`, `Quot.sound` |
| `Btc.C79_inverse_fails` | `propext`, `Classical.choice`, `Quot.sound` |
| `Btc.C79_inverse_violated` | `propext`, `Classical.choice`, `Quot.sound` |
| `Btc.C80_wide_rejected` | `propext`, `Classical.choice`, `Quot.sound` |
| `Btc.C80_ideographic_space_violated` | `propext`, `Classical.choice`, `Quot.sound` |
| `Btc.C80_ascii_space_partial` | `propext`, `Classical.choice`, `Quot.sound` |
| `Btc.C81_short_list_violated` | `propext`, `Classical.choice`, `Quot.sound` |
| `Btc.C81_error_iff_nil` | `propext`, `Classical.choice`, `Quot.sound` |
| `Btc.C81_no_error_partial` | `propext`, `Classical.choice`, `Quot.sound` |
| `Btc.C82_composed_rejected` | `propext`, `Classical.choice`, `Quot.sound` |
| `Btc.C82_normalisation_violated` | `propext`, `Classical.choice`, `Quot.sound` |
| `Btc.C82_ascii_lists_partial` | `propext`, `Classical.choice`, `Quot.sound` |
| `Btc.C83_results` | `propext`, `Classical.choice`, `Quot.sound` |
| `Btc.C83_no_races` | `propext`, `Classical.choice`, `Quot.sound` |
| `Btc.C83_unchanged` | `propext`, `Classical.choice`, `Quot.sound` |
| `Btc.C84_exchange` | `propext`, `Classical.choice`, `Quot.sound` |
| `Btc.C84_uniform` | `propext`, `Classical.choice`, `Quot.sound` |
| `Btc.C84_retry_count` | `propext`, `Classical.choice`, `Quot.sound` |
| `Btc.C85_equally_likely` | `propext`, `Classical.choice`, `Quot.sound` |
| `Btc.C85_phrase_count` | `propext`, `Classical.choice`, `Quot.sound` |
| `Btc.C86_accepted_count` | `propext`, `Classical.choice`, `Quot.sound` |
| `Btc.C86_one_in_256` | `propext`, `Classical.choice`, `Quot.sound` |
| `Btc.C87_value` | `propext`, `Classical.choice`, `Quot.sound` |
| `Btc.C87_same_value_same_key` | `propext`, `Classical.choice`, `Quot.sound` |
| `Btc.C88_public_sum` | `propext`, `Classical.choice`, `Quot.sound` |
| `Btc.C88_commutes` | `propext`, `Classical.choice`, `Quot.sound` |
| `Btc.C89_parameters_protected` | `propext`, `Classical.choice`, `Quot.sound` |
| `Btc.C89_parameters_unknown` | `propext`, `Classical.choice`, `Quot.sound` |
| `Btc.C89_needs_fresh` | `propext`, `Classical.choice`, `Quot.sound` |
| `Btc.C90_add_partial` | `propext`, `Classical.choice`, `Quot.sound` |
| `Btc.C90_multiply_partial` | `propext`, `Classical.choice`, `Quot.sound` |
| `Btc.C90_publicFromHex_partial` | `propext`, `Classical.choice`, `Quot.sound` |
| `Btc.C90_getPublicKey_partial` | `propext`, `Classical.choice`, `Quot.sound` |
| `Btc.C90_addPublicKeys_partial` | `propext`, `Classical.choice`, `Quot.sound` |
| `Btc.C90_arguments_kept` | `propext`, `Classical.choice`, `Quot.sound` |
| `Btc.C90_privateFromHex_partial` | `propext`, `Classical.choice`, `Quot.sound` |
| `Btc.C90_privateFromWIF_partial` | `propext`, `Classical.choice`, `Quot.sound` |
| `Btc.C90_violated` | `propext`, `Classical.choice`, `Quot.sound` |
| `Btc.C91_add` | `propext`, `Classical.choice`, `Quot.sound` |
| `Btc.C91_multiply` | `propext`, `Classical.choice`, `Quot.sound` |
| `Btc.C91_publicFromHex` | `propext`, `Classical.choice`, `Quot.sound` |
| `Btc.C91_getPublicKey` | `propext`, `Classical.choice`, `Quot.sound` |
| `Btc.C91_addPublicKeys` | `propext`, `Classical.choice`, `Quot.sound` |
| `Btc.C92_address_of_hex` | `propext`, `Classical.choice`, `Quot.sound` |
| `Btc.C92_address_of_wif` | `propext`, `Classical.choice`, `Quot.sound` |
| `Btc.C92_address_unique` | `propext`, `Classical.choice`, `Quot.sound` |
| `Btc.C93_collision` | `propext`, `Classical.choice`, `Quot.sound` |
| `Btc.C94_generation_ends` | `propext`, `Classical.choice`, `Quot.sound` |
| `Btc.C94_failure_bound` | `propext`, `Classical.choice`, `Quot.sound` |
| `Btc.C95_eight_last_words` | `propext`, `Classical.choice`, `Quot.sound` |
| `Btc.C95_last_word_detected` | `propext`, `Classical.choice`, `Quot.sound` |
| `Btc.C96_arithmetic_inputs` | `propext`, `Classical.choice`, `Quot.sound` |
| `Btc.C96_public_key_inputs` | `propext`, `Classical.choice`, `Quot.sound` |
| `Btc.C96_hex_inputs` | `propext`, `Classical.choice`, `Quot.sound` |
| `Btc.C96_wif_inputs` | `propext`, `Classical.choice`, `Quot.sound` |
| `Btc.C96_address_inputs` | `propext`, `Classical.choice`, `Quot.sound` |
| `Btc.C96_flag_unused` | `propext`, `Classical.choice`, `Quot.sound` |
| `Btc.C97_private_keys` | `propext`, `Classical.choice`, `Quot.sound` |
| `Btc.C97_public_keys` | `propext`, `Classical.choice`, `Quot.sound` |
| `Btc.C98_nil_network_violated` | `propext`, `Classical.choice`, `Quot.sound` |
| `Btc.C98_no_nil_results_partial` | `propext`, `Classical.choice`, `Quot.sound` |
| `Btc.C99_text_count` | `propext`, `Classical.choice`, `Quot.sound` |
| `Btc.C99_passing_count` | `propext`, `Classical.choice`, `Quot.sound` |
| `Btc.C100_public_key` | `propext`, `Classical.choice`, `Quot.sound` |
| `Btc.C100_compressed` | `propext`, `Classical.choice`, `Quot.sound` |
| `Btc.C100_other_texts` | `propext`, `Classical.choice`, `Quot.sound` |
| `Btc.C100_add` | `propext`, `Classical.choice`, `Quot.sound` |
| `Btc.C101_partition` | `propext`, `Classical.choice`, `Quot.sound` |
| `Btc.C101_alone` | `propext`, `Classical.choice`, `Quot.sound` |
| `Btc.C101_distinct_keys` | `propext`, `Classical.choice`, `Quot.sound` |
| `Btc.C101_distinct_phrases` | `propext`, `Classical.choice`, `Quot.sound` |
| `Btc.C102_checkWIF` | `propext`, `Classical.choice`, `Quot.sound` |
| `Btc.C102_privateFromWIF` | `propext`, `Classical.choice`, `Quot.sound` |
| `Btc.C102_privateFromHex` | `propext`, `Classical.choice`, `Quot.sound` |
| `Btc.C102_generateRandomBigInt` | `propext`, `Classical.choice`, `Quot.sound` |
| `Btc.C102_generatePrivateKey` | `propext`, `Classical.choice`, `Quot.sound` |
| `Btc.C102_addPrivateKeys` | `propext`, `Classical.choice`, `Quot.sound` |
| `Btc.C102_multiplyPrivateKeys` | `propext`, `Classical.choice`, `Quot.sound` |
| `Btc.C102_publicFromHex` | `propext`, `Classical.choice`, `Quot.sound` |
| `Btc.C102_getPublicKey` | `propext`, `Classical.choice`, `Quot.sound` |
| `Btc.C102_format` | `propext`, `Classical.choice`, `Quot.sound` |
| `Btc.C102_address` | `propext`, `Classical.choice`, `Quot.sound` |
| `Btc.C102_addPublicKeys` | `propext`, `Classical.choice`, `Quot.sound` |
| `Btc.C102_newSeedFromMnemonic` | `propext`, `Classical.choice`, `Quot.sound` |
| `Btc.C102_newMnemonic` | `propext`, `Classical.choice`, `Quot.sound` |
| `Btc.C103_private` | `propext`, `Classical.choice`, `Quot.sound` |
| `Btc.C103_public` | `propext`, `Classical.choice`, `Quot.sound` |
| `Btc.C103_mnemonic` | `propext`, `Classical.choice`, `Quot.sound` |
| `Btc.C104_checkWIF` | `propext`, `Classical.choice`, `Quot.sound` |
| `Btc.C104_privateFromWIF` | `propext`, `Classical.choice`, `Quot.sound` |
| `Btc.C104_privateFromHex` | `propext`, `Classical.choice`, `Quot.sound` |
| `Btc.C104_combine` | `propext`, `Classical.choice`, `Quot.sound` |
| `Btc.C104_getPublicKey` | `propext`, `Classical.choice`, `Quot.sound` |
| `Btc.C104_generatePrivateKey` | `propext`, `Classical.choice`, `Quot.sound` |
| `Btc.C104_format` | `propext`, `Classical.choice`, `Quot.sound` |
| `Btc.C105_path_gives_phrase` | `propext`, `Classical.choice`, `Quot.sound` |
| `Btc.C105_newMnemonic_violated` | `propext`, `Classical.choice`, `Quot.sound` |
| `Btc.C105_newMnemonic_partial` | `propext`, `Classical.choice`, `Quot.sound` |
| `Btc.C105_path_gives_mnemonic` | `propext`, `Classical.choice`, `Quot.sound` |
| `Btc.C105_newSeed_partial` | `propext`, `Classical.choice`, `Quot.sound` |
| `Btc.C105_newSeed_violated` | `propext`, `Classical.choice`, `Quot.sound` |
| `Btc.C106_parse` | `propext`, `Classical.choice`, `Quot.sound` |
| `Btc.C106_print` | `propext`, `Classical.choice`, `Quot.sound` |
| `Btc.C106_functions` | `propext` |
| `Btc.C106_types` | `propext` |
| `Btc.C107_init` | `propext`, `Classical.choice`, `Quot.sound` |
| `Btc.C107_parameters_stay` | `propext`, `Classical.choice`, `Quot.sound` |
| `Btc.C108_checkWIF` | `propext`, `Classical.choice`, `Quot.sound` |
| `Btc.C108_privateFromWIF` | `propext`, `Classical.choice`, `Quot.sound` |
| `Btc.C108_privateFromHex` | `propext`, `Classical.choice`, `Quot.sound` |
| `Btc.C108_addPrivateKeys` | `propext`, `Classical.choice`, `Quot.sound` |
| `Btc.C108_multiplyPrivateKeys` | `propext`, `Classical.choice`, `Quot.sound` |
| `Btc.C108_publicFromHex` | `propext`, `Classical.choice`, `Quot.sound` |
| `Btc.C108_getPublicKey` | `propext`, `Classical.choice`, `Quot.sound` |
| `Btc.C108_addPublicKeys` | `propext`, `Classical.choice`, `Quot.sound` |
| `Btc.C108_format` | `propext`, `Classical.choice`, `Quot.sound` |
| `Btc.C108_address` | `propext`, `Classical.choice`, `Quot.sound` |
| `Btc.C108_generatePrivateKey` | `propext`, `Classical.choice`, `Quot.sound` |
| `Btc.C108_newMnemonic` | `propext`, `Classical.choice`, `Quot.sound` |
| `Btc.C108_newSeedFromMnemonic` | `propext`, `Classical.choice`, `Quot.sound` |
| `Btc.C108_nil` | `propext`, `Classical.choice`, `Quot.sound` |
| `Btc.C109_ends` | `propext`, `Classical.choice`, `Quot.sound` |
| `Btc.C109_all_calls` | `propext`, `Classical.choice`, `Quot.sound` |
| `Btc.C110_address_of_hex` | `propext`, `Classical.choice`, `Quot.sound` |
| `Btc.C110_address_of_wif` | `propext`, `Classical.choice`, `Quot.sound` |
| `Btc.C110_address_of_generated` | `propext`, `Classical.choice`, `Quot.sound` |
| `Btc.C111_no_seed` | `propext`, `Classical.choice`, `Quot.sound` |
| `Btc.C111_own_phrase_refused` | `propext`, `Classical.choice`, `Quot.sound` |
| `Btc.C111_short_phrases` | `propext`, `Classical.choice`, `Quot.sound` |
| `Btc.C111_log_reveals` | `propext`, `Classical.choice`, `Quot.sound` |
| `Btc.C111_sum_refused` | `propext`, `Classical.choice`, `Quot.sound` |
| `Btc.C112_crash_table` | `propext`, `Classical.choice`, `Quot.sound` |
| `Btc.C113_keys_in_order` | `propext`, `Classical.choice`, `Quot.sound` |
| `Btc.C113_no_crash` | `propext`, `Classical.choice`, `Quot.sound` |
| `Btc.C113_public_key` | `propext`, `Classical.choice`, `Quot.sound` |
| `Btc.C113_address` | `propext`, `Classical.choice`, `Quot.sound` |
| `Btc.C114_same_answer` | `propext`, `Classical.choice`, `Quot.sound` |
| `Btc.C114_same_rest` | `propext`, `Classical.choice`, `Quot.sound` |
| `Btc.C114_source_kept` | `propext`, `Classical.choice`, `Quot.sound` |
| `Btc.C114_history` | `propext`, `Classical.choice`, `Quot.sound` |
| `Btc.C114_swap` | `propext`, `Classical.choice`, `Quot.sound` |
| `Btc.C115_blocks` | `propext` |
| `Btc.C115_dead` | `propext`, `Classical.choice`, `Quot.sound` |
| `Btc.C115_live` | `propext`, `Classical.choice`, `Quot.sound` |
| `Btc.C115_exactly` | `propext`, `Classical.choice`, `Quot.sound` |
| `Btc.C116_parameters` | `propext`, `Classical.choice`, `Quot.sound` |
| `Btc.C116_out_of_reach` | `propext`, `Classical.choice`, `Quot.sound` |
| `Btc.C116_computes` | `propext`, `Classical.choice`, `Quot.sound` |
| `Btc.C116_crash_table` | `propext`, `Classical.choice`, `Quot.sound` |
| `Btc.C116_same_answer` | `propext`, `Classical.choice`, `Quot.sound` |
| `Btc.C117_faithful` | `propext`, `Classical.choice`, `Quot.sound` |
| `Btc.C117_lines_differ` | `propext`, `Classical.choice`, `Quot.sound` |
| `Btc.C117_checkWIF` | `propext`, `Classical.choice`, `Quot.sound` |
| `Btc.C117_privateFromHex` | `propext`, `Classical.choice`, `Quot.sound` |
| `Btc.C117_privateFromWIF` | `propext`, `Classical.choice`, `Quot.sound` |
| `Btc.C117_addPrivateKeys` | `propext`, `Classical.choice`, `Quot.sound` |
| `Btc.C117_multiplyPrivateKeys` | `propext`, `Classical.choice`, `Quot.sound` |
| `Btc.C117_getPublicKey` | `propext`, `Classical.choice`, `Quot.sound` |
| `Btc.C117_addPublicKeys` | `propext`, `Classical.choice`, `Quot.sound` |
| `Btc.C117_generatePrivateKey` | `propext`, `Classical.choice`, `Quot.sound` |
| `Btc.C117_format` | `propext`, `Classical.choice`, `Quot.sound` |
| `Btc.C117_address` | `propext`, `Classical.choice`, `Quot.sound` |
| `Btc.C118_unmentioned` | `propext`, `Classical.choice`, `Quot.sound` |
| `Btc.C118_two` | `propext` |
| `Btc.C118_mentioned` | `propext`, `Classical.choice`, `Quot.sound` |
| `Btc.C118_exactly` | `propext`, `Classical.choice`, `Quot.sound` |
| `Btc.C118_passphrase` | `propext`, `Classical.choice`, `Quot.sound` |
| `Btc.C118_compressed` | `propext`, `Classical.choice`, `Quot.sound` |
| `Btc.C119_newMnemonic_gives_phrase` | `propext`, `Classical.choice`, `Quot.sound` |
| `Btc.C119_newMnemonic_partial` | `propext`, `Classical.choice`, `Quot.sound` |
| `Btc.C119_newSeed_gives_phrase` | `propext`, `Classical.choice`, `Quot.sound` |
| `Btc.C119_newSeed_violated` | `propext`, `Classical.choice`, `Quot.sound` |
| `Btc.C119_newMnemonic_violated` | `propext`, `Classical.choice`, `Quot.sound` |
| `Btc.C119_newSeed_partial` | `propext`, `Classical.choice`, `Quot.sound` |
| `Btc.C120_append` | `propext`, `Classical.choice`, `Quot.sound` |
| `Btc.C120_calls` | `propext`, `Classical.choice`, `Quot.sound` |
| `Btc.C121_no_races` | `propext`, `Classical.choice`, `Quot.sound` |
| `Btc.C121_unchanged` | `propext`, `Classical.choice`, `Quot.sound` |
| `Btc.C121_results` | `propext`, `Classical.choice`, `Quot.sound` |
| `Btc.C121_text` | `propext`, `Quot.sound` |
| `Btc.C121_calls` | `propext`, `Classical.choice`, `Quot.sound` |
| `Btc.C122_error_table` | `propext`, `Classical.choice`, `Quot.sound` |
| `Btc.C122_success` | `propext`, `Classical.choice`, `Quot.sound` |
| `Btc.C122_no_digit` | `propext`, `Classical.choice`, `Quot.sound` |
| `Btc.C123_static` | `propext`, `Classical.choice`, `Quot.sound` |
| `Btc.C123_straight` | `propext`, `Classical.choice`, `Quot.sound` |
| `Btc.C123_work` | `propext`, `Classical.choice`, `Quot.sound` |
| `Btc.C124_unique` | `propext`, `Classical.choice`, `Quot.sound` |
| `Btc.C124_results` | `propext`, `Classical.choice`, `Quot.sound` |
| `Btc.C124_exact` | `propext`, `Classical.choice`, `Quot.sound` |
| `Btc.C125_keys` | `propext`, `Classical.choice`, `Quot.sound` |
| `Btc.C125_points` | `propext`, `Classical.choice`, `Quot.sound` |
| `Btc.C125_texts` | `propext`, `Classical.choice`, `Quot.sound` |
| `Btc.C125_read_back` | `propext`, `Classical.choice`, `Quot.sound` |
| `Btc.C125_wif_back` | `propext`, `Classical.choice`, `Quot.sound` |
| `Btc.C125_same_texts` | `propext`, `Classical.choice`, `Quot.sound` |
| `Btc.C125_sum` | `propext`, `Classical.choice`, `Quot.sound` |
| `Btc.C126_transcript` | `propext`, `Classical.choice`, `Quot.sound` |
| `Btc.C126_exact` | `propext`, `Classical.choice`, `Quot.sound` |
| `Btc.C126_runs` | `propext`, `Classical.choice`, `Quot.sound` |
| `Btc.C126_same` | `propext`, `Classical.choice`, `Quot.sound` |
| `Btc.C127_init` | `propext`, `Classical.choice`, `Quot.sound` |
| `Btc.C127_check` | `propext`, `Classical.choice`, `Quot.sound` |
| `Btc.C127_import_hex` | `propext`, `Classical.choice`, `Quot.sound` |
| `Btc.C127_import_wif` | `propext`, `Classical.choice`, `Quot.sound` |
| `Btc.C127_nil_network` | `propext`, `Classical.choice`, `Quot.sound` |
| `Btc.C127_round_trip` | `propext`, `Classical.choice`, `Quot.sound` |
| `Btc.C127_other_network` | `propext`, `Classical.choice`, `Quot.sound` |
| `Btc.C127_address_refused` | `propext`, `Classical.choice`, `Quot.sound` |
| `Btc.C127_same_wif` | `propext`, `Classical.choice`, `Quot.sound` |
| `Btc.C127_one_wif` | `propext`, `Classical.choice`, `Quot.sound` |
| `Btc.C127_keys_stay` | `propext`, `Classical.choice`, `Quot.sound` |
| `Btc.C127_add` | `propext`, `Classical.choice`, `Quot.sound` |
| `Btc.C127_multiply` | `propext`, `Classical.choice`, `Quot.sound` |
| `Btc.C127_inverse` | `propext`, `Classical.choice`, `Quot.sound` |
| `Btc.C127_generate` | `propext`, `Classical.choice`, `Quot.sound` |
| `Btc.C127_generate_no_network` | `propext`, `Classical.choice`, `Quot.sound` |
| `Btc.C127_other_networks` | `propext`, `Classical.choice`, `Quot.sound` |
| `Btc.C127_every_key` | `propext`, `Classical.choice`, `Quot.sound` |
| `Btc.C128_generate` | `propext`, `Classical.choice`, `Quot.sound` |
| `Btc.C128_every_phrase` | `propext`, `Classical.choice`, `Quot.sound` |
| `Btc.C128_accept` | `propext`, `Classical.choice`, `Quot.sound` |
| `Btc.C128_lengths` | `propext`, `Classical.choice`, `Quot.sound` |
| `Btc.C128_round_trip` | `propext`, `Classical.choice`, `Quot.sound` |
| `Btc.C128_distinct` | `propext`, `Classical.choice`, `Quot.sound` |
| `Btc.C129_init` | `propext`, `Classical.choice`, `Quot.sound` |
| `Btc.C129_keys_stay` | `propext` |
| `Btc.C129_nil_network` | `propext`, `Classical.choice`, `Quot.sound` |
| `Btc.C129_import` | `propext`, `Classical.choice`, `Quot.sound` |
| `Btc.C129_public_key` | `propext`, `Classical.choice`, `Quot.sound` |
| `Btc.C129_add` | `propext`, `Classical.choice`, `Quot.sound` |
| `Btc.C129_add_refused` | `propext`, `Classical.choice`, `Quot.sound` |
| `Btc.C129_format` | `propext`, `Classical.choice`, `Quot.sound` |
| `Btc.C129_address` | `propext`, `Classical.choice`, `Quot.sound` |
| `Btc.C129_no_address` | `propext`, `Classical.choice`, `Quot.sound` |
| `Btc.C129_round_trip` | `propext`, `Classical.choice`, `Quot.sound` |
| `Btc.C129_sum` | `propext`, `Classical.choice`, `Quot.sound` |
| `Btc.C130_keys_in_order` | `propext`, `Classical.choice`, `Quot.sound` |
| `Btc.C130_no_dangling` | `propext`, `Classical.choice`, `Quot.sound` |
| `Btc.C130_no_crash` | `propext`, `Classical.choice`, `Quot.sound` |
| `Btc.C130_panic` | `propext`, `Classical.choice`, `Quot.sound` |
| `Btc.C130_silent` | `propext`, `Classical.choice`, `Quot.sound` |
| `Btc.C130_wif` | `propext`, `Classical.choice`, `Quot.sound` |
| `Btc.C130_text` | `propext`, `Classical.choice`, `Quot.sound` |
| `Btc.C130_address` | `propext`, `Classical.choice`, `Quot.sound` |
| `Btc.C130_wifs_differ` | `propext`, `Classical.choice`, `Quot.sound` |
| `Btc.C131_keys` | `propext`, `Classical.choice`, `Quot.sound` |
| `Btc.C131_keys_no_failure` | `propext`, `Classical.choice`, `Quot.sound` |
| `Btc.C131_repaired_keys` | `propext`, `Classical.choice`, `Quot.sound` |
| `Btc.C131_keys_disagree` | `propext`, `Classical.choice`, `Quot.sound` |
| `Btc.C131_phrase_call` | `propext`, `Classical.choice`, `Quot.sound` |
| `Btc.C131_phrases` | `propext`, `Classical.choice`, `Quot.sound` |
| `Btc.C131_repaired_phrases` | `propext`, `Classical.choice`, `Quot.sound` |
| `Btc.C132_seed` | `propext`, `Classical.choice`, `Quot.sound` |
| `Btc.C132_exact` | `propext`, `Classical.choice`, `Quot.sound` |
| `Btc.C132_public` | `propext`, `Classical.choice`, `Quot.sound` |
| `Btc.C133_keys` | `propext`, `Classical.choice`, `Quot.sound` |
| `Btc.C133_failures` | `propext`, `Classical.choice`, `Quot.sound` |
| `Btc.C133_phrases` | `propext`, `Classical.choice`, `Quot.sound` |
| `Btc.C133_number_of_phrases` | `propext`, `Classical.choice`, `Quot.sound` |
| `Btc.C133_key_sequences` | `propext`, `Classical.choice`, `Quot.sound` |
| `Btc.C133_phrase_sequences` | `propext`, `Classical.choice`, `Quot.sound` |
| `Btc.C134_fixed_table` | `propext`, `Classical.choice`, `Quot.sound` |
| `Btc.C134_overlooked` | `propext`, `Classical.choice`, `Quot.sound` |
| `Btc.C134_lost` | `propext`, `Classical.choice`, `Quot.sound` |
| `Btc.C135_panic_reason` | `propext`, `Classical.choice`, `Quot.sound` |
| `Btc.C135_calm` | `propext`, `Classical.choice`, `Quot.sound` |
| `Btc.C135_text` | `propext`, `Quot.sound` |
| `Btc.C135_in_order` | `propext`, `Classical.choice`, `Quot.sound` |
| `Btc.C135_no_crash` | `propext`, `Classical.choice`, `Quot.sound` |
| `Btc.C135_no_races` | `propext`, `Classical.choice`, `Quot.sound` |
| `Btc.C135_unchanged` | `propext`, `Classical.choice`, `Quot.sound` |
| `Btc.C135_returned` | `propext`, `Classical.choice`, `Quot.sound` |
| `Btc.C135_ends_alone` | `propext`, `Classical.choice`, `Quot.sound` |
| `Btc.C135_ends` | `propext`, `Classical.choice`, `Quot.sound` |
| `Btc.C136_as_session` | `propext`, `Classical.choice`, `Quot.sound` |
| `Btc.C136_intact` | `propext`, `Classical.choice`, `Quot.sound` |
| `Btc.C136_calls` | `propext`, `Classical.choice`, `Quot.sound` |
| `Btc.C136_no_races` | `propext`, `Classical.choice`, `Quot.sound` |
| `Btc.C136_unchanged` | `propext`, `Classical.choice`, `Quot.sound` |
| `Btc.C136_returned` | `propext`, `Classical.choice`, `Quot.sound` |
| `Btc.C136_ends_alone` | `propext`, `Classical.choice`, `Quot.sound` |
| `Btc.C136_ends` | `propext`, `Classical.choice`, `Quot.sound` |
| `Btc.C137_from_front` | `propext`, `Classical.choice`, `Quot.sound` |
| `Btc.C137_no_lookahead` | `propext`, `Classical.choice`, `Quot.sound` |
| `Btc.C137_fixed` | `propext`, `Classical.choice`, `Quot.sound` |
| `Btc.C138_work` | `propext`, `Classical.choice`, `Quot.sound` |
| `Btc.C138_fuel` | `propext`, `Classical.choice`, `Quot.sound` |
| `Btc.C138_faithful` | `propext`, `Classical.choice`, `Quot.sound` |
| `Btc.C138_straight` | `propext`, `Classical.choice`, `Quot.sound` |
| `Btc.C138_loops` | `propext`, `Classical.choice`, `Quot.sound` |
| `Btc.C139_unique` | `propext`, `Classical.choice`, `Quot.sound` |
| `Btc.C139_result` | `propext`, `Classical.choice`, `Quot.sound` |
| `Btc.C139_exact` | `propext`, `Classical.choice`, `Quot.sound` |
| `Btc.C139_same` | `propext`, `Classical.choice`, `Quot.sound` |
| `Btc.C140_unique` | `propext`, `Classical.choice`, `Quot.sound` |
| `Btc.C140_error_table` | `propext`, `Classical.choice`, `Quot.sound` |
| `Btc.C140_total` | `propext`, `Classical.choice`, `Quot.sound` |
| `Btc.C140_generate` | `propext`, `Classical.choice`, `Quot.sound` |
| `Btc.C140_same` | `propext`, `Classical.choice`, `Quot.sound` |
| `Btc.C141_keys` | `propext`, `Classical.choice`, `Quot.sound` |
| `Btc.C141_same` | `propext`, `Classical.choice`, `Quot.sound` |
| `Btc.C141_follows` | `propext`, `Classical.choice`, `Quot.sound` |
| `Btc.C141_shows_one` | `propext` |
