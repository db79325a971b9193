{
 "claims": [
  {
   "property": "C01",
   "status": "proved",
   "theorems": [
    "Btc.C01_wif_is_base58check",
    "Btc.C01_wif_bytes"
   ],
   "note": "For every hash function, text and network; odd-length prefixes included."
  },
  {
   "property": "C02",
   "status": "proved",
   "theorems": [
    "Btc.C02_accepts_iff",
    "Btc.C02_bad_character",
    "Btc.C02_bad_length",
    "Btc.C02_no_panic"
   ],
   "note": "Acceptance condition, exact error and no-panic; nil network panics."
  },
  {
   "property": "C03",
   "status": "proved",
   "theorems": [
    "Btc.C03_true_iff",
    "Btc.C03_decoded",
    "Btc.C03_undecodable",
    "Btc.C03_exhaustive"
   ],
   "note": "Exact, for every byte string; C03_exhaustive shows the cases cover everything."
  },
  {
   "property": "C04",
   "status": "partial",
   "theorems": [
    "Btc.C04_violated",
    "Btc.C04_checkWIF_panics_iff_partial",
    "Btc.C04_privateFromWIF_panics_iff_partial"
   ],
   "note": "False of the code: CheckWIF(\"1\") panics (C04_violated). The _partial theorems give the exact set of panicking inputs of both functions."
  },
  {
   "property": "C05",
   "status": "proved",
   "theorems": [
    "Btc.C05_hex_wif_roundtrip"
   ],
   "note": "For every one-byte-prefix network and non-empty key text."
  },
  {
   "property": "C06",
   "status": "proved",
   "theorems": [
    "Btc.C06_wif_hex_roundtrip"
   ],
   "note": "Whole struct is recovered."
  },
  {
   "property": "C07",
   "status": "proved",
   "theorems": [
    "Btc.C07_wif_injective",
    "Btc.C07_equal_wif_equal_key"
   ],
   "note": "Stated as an equivalence; letter case of the digits is the only freedom."
  },
  {
   "property": "C08",
   "status": "proved",
   "theorems": [
    "Btc.C08_emitted_wif_checks"
   ],
   "note": "Over every constructor of private keys."
  },
  {
   "property": "C09",
   "status": "proved",
   "theorems": [
    "Btc.C09_import_requires_check",
    "Btc.C09_verdict_independent"
   ],
   "note": "Includes independence of the network."
  },
  {
   "property": "C10",
   "status": "proved",
   "theorems": [
    "Btc.C10_checksum_tamper"
   ],
   "note": "Rejection of every other text with the same payload."
  },
  {
   "property": "C11",
   "status": "proved",
   "theorems": [
    "Btc.C11_wif_shape"
   ],
   "note": "Every 64-digit key, every hash."
  },
  {
   "property": "C12",
   "status": "partial",
   "theorems": [
    "Btc.C12_compressed_import_partial",
    "Btc.C12_violated"
   ],
   "note": "False of the code for every hash: imported as 256k+1, proved for all k (C12_compressed_import_partial)."
  },
  {
   "property": "C13",
   "status": "partial",
   "theorems": [
    "Btc.C13_version_ignored_partial",
    "Btc.C13_violated"
   ],
   "note": "False of the code for every hash: version byte is ignored, proved for all inputs."
  },
  {
   "property": "C14",
   "status": "proved",
   "theorems": [
    "Btc.C14_generated_valid",
    "Btc.C14_generated_shape",
    "Btc.C14_only_source_failure"
   ],
   "note": "Every random stream; also: no failure other than the random source's."
  },
  {
   "property": "C15",
   "status": "proved",
   "theorems": [
    "Btc.C15_any_network",
    "Btc.C15_block",
    "Btc.C15_unique_block"
   ],
   "note": "Block by block, with uniqueness."
  },
  {
   "property": "C16",
   "status": "partial",
   "theorems": [
    "Btc.C16_generated_range_partial",
    "Btc.C16_violated"
   ],
   "note": "False of the code; the exact set of generable keys is [16^63, n-2]."
  },
  {
   "property": "C17",
   "status": "proved",
   "theorems": [
    "Btc.C17_malformed_network"
   ],
   "note": "Every random stream ends in the source's read error."
  },
  {
   "property": "C18",
   "status": "proved",
   "theorems": [
    "Btc.C18_add_mod_n"
   ],
   "note": "All keys and hashes."
  },
  {
   "property": "C19",
   "status": "proved",
   "theorems": [
    "Btc.C19_mul_mod_n"
   ],
   "note": "All keys and hashes."
  },
  {
   "property": "C20",
   "status": "partial",
   "theorems": [
    "Btc.C20_add_succeeds_iff_partial",
    "Btc.C20_mul_succeeds_iff_partial",
    "Btc.C20_violated"
   ],
   "note": "False of the code for every hash (keys 2 and 3); exact success condition proved."
  },
  {
   "property": "C21",
   "status": "proved",
   "theorems": [
    "Btc.C21_never_zero"
   ],
   "note": "For networks whose prefix is whole bytes."
  },
  {
   "property": "C22",
   "status": "proved",
   "theorems": [
    "Btc.C22_add_comm",
    "Btc.C22_mul_comm"
   ],
   "note": "Including errors and panics."
  },
  {
   "property": "C23",
   "status": "proved",
   "theorems": [
    "Btc.C23_add_assoc",
    "Btc.C23_mul_assoc",
    "Btc.C23_distrib"
   ],
   "note": "Both operations, and distributivity."
  },
  {
   "property": "C24",
   "status": "proved",
   "theorems": [
    "Btc.C24_private_networks",
    "Btc.C24_public_networks"
   ],
   "note": "Private keys and public keys."
  },
  {
   "property": "C25",
   "status": "partial",
   "theorems": [
    "Btc.C25_violated",
    "Btc.C25_identical_iff_partial",
    "Btc.C25_ascii_partial",
    "Btc.C25_ascii_keys"
   ],
   "note": "False of the code: concrete pair of different valid keys; exact condition proved."
  },
  {
   "property": "C26",
   "status": "partial",
   "theorems": [
    "Btc.C26_standard_iff_partial",
    "Btc.C26_violated"
   ],
   "note": "False of the code: concrete pair; exact condition (result >= 16^63) proved for both networks."
  },
  {
   "property": "C27",
   "status": "proved",
   "theorems": [
    "Btc.C27_format_layout",
    "Btc.C27_fixed_unique"
   ],
   "note": "For all coordinates below 2^256; the 64-digit text is characterised by value, length and alphabet and shown unique."
  },
  {
   "property": "C28",
   "status": "proved",
   "theorems": [
    "Btc.C28_uncompressed_roundtrip",
    "Btc.C28_format_injective"
   ],
   "note": "Round trip for every E (curve arithmetic irrelevant) and injectivity of both forms."
  },
  {
   "property": "C29",
   "status": "proved",
   "theorems": [
    "Btc.C29_compressed_roundtrip"
   ],
   "note": "Relative to EcdsaContract (what is assumed of the external curve package; met by the reference implementation EC.ref). All curve points."
  },
  {
   "property": "C30",
   "status": "proved",
   "theorems": [
    "Btc.C30_decompression"
   ],
   "note": "Relative to EcdsaContract (what is assumed of the external curve package; met by the reference implementation EC.ref). Exact: the unique right point or the error."
  },
  {
   "property": "C31",
   "status": "partial",
   "theorems": [
    "Btc.C31_uncompressed_unchecked_partial",
    "Btc.C31_on_curve_violated",
    "Btc.C31_not_hex_violated"
   ],
   "note": "Violated. Proved: any two 64-digit coordinates are accepted unchecked; non-hex digits give nil coordinates. Witness: (0,0)."
  },
  {
   "property": "C32",
   "status": "partial",
   "theorems": [
    "Btc.C32_outcomes_partial",
    "Btc.C32_never_crashes_violated"
   ],
   "note": "Violated. Proved: the outcome for every length and prefix. Witness: the empty string panics."
  },
  {
   "property": "C33",
   "status": "proved",
   "theorems": [
    "Btc.C33_public_key"
   ],
   "note": "Relative to EcdsaContract (what is assumed of the external curve package; met by the reference implementation EC.ref). All scalars 1..n-1."
  },
  {
   "property": "C34",
   "status": "proved",
   "theorems": [
    "Btc.C34_injective"
   ],
   "note": "Relative to EcdsaContract (what is assumed of the external curve package; met by the reference implementation EC.ref). Uses that the base point has prime order n (proved)."
  },
  {
   "property": "C35",
   "status": "proved",
   "theorems": [
    "Btc.C35_add_homomorphism"
   ],
   "note": "Relative to EcdsaContract (what is assumed of the external curve package; met by the reference implementation EC.ref). Distinct keys, well-formed network prefix."
  },
  {
   "property": "C36",
   "status": "proved",
   "theorems": [
    "Btc.C36_mul_homomorphism"
   ],
   "note": "Relative to EcdsaContract (what is assumed of the external curve package; met by the reference implementation EC.ref). Both symmetric forms."
  },
  {
   "property": "C37",
   "status": "proved",
   "theorems": [
    "Btc.C37_add_public_keys"
   ],
   "note": "Relative to EcdsaContract (what is assumed of the external curve package; met by the reference implementation EC.ref). Points with different X."
  },
  {
   "property": "C38",
   "status": "proved",
   "theorems": [
    "Btc.C38_negation"
   ],
   "note": "Relative to EcdsaContract (what is assumed of the external curve package; met by the reference implementation EC.ref). All k."
  },
  {
   "property": "C39",
   "status": "proved",
   "theorems": [
    "Btc.C39_address_bytes",
    "Btc.C39_serialization_unique",
    "Btc.C39_address_never_fails"
   ],
   "note": "For every hash function with the right output lengths."
  },
  {
   "property": "C40",
   "status": "proved",
   "theorems": [
    "Btc.C40_main_shape",
    "Btc.C40_test_shape"
   ],
   "note": "For every hash function with the right output lengths."
  },
  {
   "property": "C41",
   "status": "proved",
   "theorems": [
    "Btc.C41_collision"
   ],
   "note": "Both directions."
  },
  {
   "property": "C42",
   "status": "partial",
   "theorems": [
    "Btc.C42_address_imported_partial",
    "Btc.C42_address_rejected_violated"
   ],
   "note": "Violated. Proved: every address passes CheckWIF and is imported as the key equal to its hash160. Witness: a test vector of the repository."
  },
  {
   "property": "C43",
   "status": "proved",
   "theorems": [
    "Btc.C43_publicFromHex_case",
    "Btc.C43_privateFromHex_case"
   ],
   "note": "Private keys and public keys, all hex strings."
  },
  {
   "property": "C44",
   "status": "proved",
   "theorems": [
    "Btc.C44_reads_nothing",
    "Btc.C44_nil_wordlist",
    "Btc.C44_unsupported_count",
    "Btc.C44_only_then"
   ],
   "note": "All word counts (integers), all lists, all random streams. That no random bytes are read is C44_reads_nothing, on the parsed text."
  },
  {
   "property": "C45",
   "status": "proved",
   "theorems": [
    "Btc.C45_outcomes",
    "Btc.C45_word_count"
   ],
   "note": "Lists of at least 2048 words; exact outcome in every case."
  },
  {
   "property": "C46",
   "status": "proved",
   "theorems": [
    "Btc.C46_phrase_determines_entropy"
   ],
   "note": "Duplicate-free lists of space-free words."
  },
  {
   "property": "C47",
   "status": "proved",
   "theorems": [
    "Btc.C47_exact_encoding"
   ],
   "note": "Any list; follows the bits actually read from the random source."
  },
  {
   "property": "C48",
   "status": "partial",
   "theorems": [
    "Btc.C48_bip39_violated",
    "Btc.C48_when_bip39",
    "Btc.C48_reversed_partial"
   ],
   "note": "Violated: concrete entropy whose phrase is no BIP-39 phrase of any entropy; exact condition and the reversed relation proved."
  },
  {
   "property": "C49",
   "status": "proved",
   "theorems": [
    "Btc.C49_unknown_word_rejected",
    "Btc.C49_unknown_piece_rejected",
    "Btc.C49_only_then"
   ],
   "note": "Any list, also nil; converse for lists of at most 2048 words."
  },
  {
   "property": "C50",
   "status": "partial",
   "theorems": [
    "Btc.C50_crash_iff",
    "Btc.C50_never_crashes_violated",
    "Btc.C50_twelve_words_rejected",
    "Btc.C50_no_crash_partial"
   ],
   "note": "Violated: crashes exactly when the number of words is not a multiple of four."
  },
  {
   "property": "C51",
   "status": "proved",
   "theorems": [
    "Btc.C51_accepts_iff_bip39",
    "Btc.C51_accepts_all_bip39",
    "Btc.C51_every_entropy_has_phrase"
   ],
   "note": "Any 2048-word duplicate-free list; both directions, and existence of a phrase for each entropy."
  },
  {
   "property": "C52",
   "status": "partial",
   "theorems": [
    "Btc.C52_seed_always_nil",
    "Btc.C52_passphrase_ignored",
    "Btc.C52_returns_seed_violated",
    "Btc.C52_verdict_partial"
   ],
   "note": "Violated on every input: the seed is always nil and the passphrase unused."
  },
  {
   "property": "C53",
   "status": "partial",
   "theorems": [
    "Btc.C53_short_phrases_never_accepted",
    "Btc.C53_accepted_back_violated",
    "Btc.C53_accepted_iff_partial"
   ],
   "note": "Violated: 12 words always rejected, 15/18/21 always crash, 24 accepted only by coincidence (exact condition proved)."
  },
  {
   "property": "C54",
   "status": "partial",
   "theorems": [
    "Btc.C54_log_contains_phrase",
    "Btc.C54_not_logged_violated",
    "Btc.C54_no_log_partial"
   ],
   "note": "Violated: the log determines the phrase."
  },
  {
   "property": "C55",
   "status": "proved",
   "theorems": [
    "Btc.C55_wordlists_well_formed",
    "Btc.C55_lookup_inverse"
   ],
   "note": "Kernel evaluation of the complete tables, lifted to the byte-string lists."
  },
  {
   "property": "C56",
   "status": "proved",
   "theorems": [
    "Btc.C56_parameters",
    "Btc.C56_primes",
    "Btc.C56_base_point",
    "Btc.C56_cofactor",
    "Btc.C56_sampling_bound"
   ],
   "note": "Primality by Pratt certificates, order by kernel computation with a proved group law, number of points by an elementary counting argument."
  },
  {
   "property": "C57",
   "status": "proved",
   "theorems": [
    "Btc.C57_programs_change_nothing",
    "Btc.C57_key_values_kept",
    "Btc.C57_public_key_values_kept",
    "Btc.C57_add",
    "Btc.C57_multiply",
    "Btc.C57_publicFromHex",
    "Btc.C57_getPublicKey",
    "Btc.C57_addPublicKeys",
    "Btc.C57_privateFromHex",
    "Btc.C57_privateFromWIF",
    "Btc.C57_generate",
    "Btc.C57_readers",
    "Btc.C57_nil"
   ],
   "note": "Heap model (Verif/Heap): every call, including failing ones and aliased or nil arguments, leaves all existing cells unchanged; any program of calls does; results agree with the pure model and are new objects. Memory behaviour of the curve package is a hypothesis (EcdsaM.Allocs, EcdsaM.Refines) shown satisfiable."
  },
  {
   "property": "C58",
   "status": "proved",
   "theorems": [
    "Btc.C58_bijection"
   ],
   "note": "Under EcdsaContract; surjectivity uses that G generates the whole curve group (prime order n = number of points)."
  },
  {
   "property": "C59",
   "status": "proved",
   "theorems": [
    "Btc.C59_any_network",
    "Btc.C59_generated_key_usable"
   ],
   "note": "Under EcdsaContract; composition of the generation, import, curve and serialisation theorems. C59_any_network is the same for every network with a WIF prefix of one byte and an address prefix of whole bytes."
  },
  {
   "property": "C60",
   "status": "proved",
   "theorems": [
    "Btc.C60_add_assoc",
    "Btc.C60_cancel"
   ],
   "note": "Under EcdsaContract, for points with different X (the doubling and inverse cases are outside the code's addition)."
  },
  {
   "property": "C61",
   "status": "partial",
   "theorems": [
    "Btc.C61_standard_violated",
    "Btc.C61_standard_iff_partial"
   ],
   "note": "Violated by nil, negative and over-long coordinates; exact condition proved."
  },
  {
   "property": "C62",
   "status": "partial",
   "theorems": [
    "Btc.C62_outcome_partial",
    "Btc.C62_never_crashes_violated"
   ],
   "note": "Violated; the exact outcome of Address on every key is proved."
  },
  {
   "property": "C63",
   "status": "partial",
   "theorems": [
    "Btc.C63_lengths_violated",
    "Btc.C63_multiple_of_eight_partial",
    "Btc.C63_every_multiple_accepted"
   ],
   "note": "Violated: 8-word phrase accepted; exact residue condition, and acceptance for every multiple of eight, proved."
  },
  {
   "property": "C64",
   "status": "proved",
   "theorems": [
    "Btc.C64_four_letters"
   ],
   "note": "Kernel evaluation of the complete tables, lifted to byte strings."
  },
  {
   "property": "C65",
   "status": "partial",
   "theorems": [
    "Btc.C65_import_range_partial",
    "Btc.C65_everything_imported",
    "Btc.C65_valid_scalars_violated"
   ],
   "note": "Violated: all naturals are importable; remaining bounds proved."
  },
  {
   "property": "C66",
   "status": "partial",
   "theorems": [
    "Btc.C66_unique_wif_violated",
    "Btc.C66_unique_wif_partial"
   ],
   "note": "Violated by zero padding; equal-length texts proved."
  },
  {
   "property": "C67",
   "status": "proved",
   "theorems": [
    "Btc.C67_import_injective"
   ],
   "note": "Any hash functions."
  },
  {
   "property": "C68",
   "status": "proved",
   "theorems": [
    "Btc.C68_foreign_characters"
   ],
   "note": "Any hash functions."
  },
  {
   "property": "C69",
   "status": "proved",
   "theorems": [
    "Btc.C69_spacing_strict",
    "Btc.C69_spacing_shipped"
   ],
   "note": "Any list without empty words; instantiated for the nine shipped lists."
  },
  {
   "property": "C70",
   "status": "proved",
   "theorems": [
    "Btc.C70_foreign_byte",
    "Btc.C70_case_and_control"
   ],
   "note": "Any list; shipped lists by kernel evaluation of the complete tables."
  },
  {
   "property": "C71",
   "status": "proved",
   "theorems": [
    "Btc.C71_generate_local",
    "Btc.C71_mnemonic_local"
   ],
   "note": "Also that any shorter stream crashes GeneratePrivateKey."
  },
  {
   "property": "C72",
   "status": "proved",
   "theorems": [
    "Btc.C72_add_cancel",
    "Btc.C72_mul_cancel"
   ],
   "note": "Multiplication uses primality of n."
  },
  {
   "property": "C73",
   "status": "partial",
   "theorems": [
    "Btc.C73_crash_iff_partial",
    "Btc.C73_imported_keys_violated"
   ],
   "note": "Violated: exact crash condition proved."
  },
  {
   "property": "C74",
   "status": "proved",
   "theorems": [
    "Btc.C74_kinds_disjoint"
   ],
   "note": "Any hash functions, both address forms."
  },
  {
   "property": "C75",
   "status": "partial",
   "theorems": [
    "Btc.C75_roundtrip_partial",
    "Btc.C75_roundtrip_violated"
   ],
   "note": "Violated for prefixes that are not one byte; exact behaviour proved."
  },
  {
   "property": "C76",
   "status": "proved",
   "theorems": [
    "Btc.C76_prefix_only"
   ],
   "note": "Including errors and panics."
  },
  {
   "property": "C77",
   "status": "partial",
   "theorems": [
    "Btc.C77_disjoint_violated",
    "Btc.C77_disjoint_partial",
    "Btc.C77_other_language_rejected_partial"
   ],
   "note": "Violated for two pairs of lists; the other 34 pairs proved disjoint."
  },
  {
   "property": "C78",
   "status": "proved",
   "theorems": [
    "Btc.C78_results",
    "Btc.C78_no_races",
    "Btc.C78_unchanged",
    "Btc.C78_deterministic",
    "Btc.C78_progress",
    "Btc.C78_terminates",
    "Btc.C78_completes"
   ],
   "note": "Interleaving semantics at the level of single memory accesses. Assumes of the curve package that it writes only to what it allocated (EcdsaP.Local); a package meeting all assumptions is given. A wrong in-place addition is shown to race."
  },
  {
   "property": "C79",
   "status": "partial",
   "theorems": [
    "Btc.C79_result_at_least_16_partial",
    "Btc.C79_inverse_fails",
    "Btc.C79_inverse_violated"
   ],
   "note": "Violated always; results are at least 16."
  },
  {
   "property": "C80",
   "status": "partial",
   "theorems": [
    "Btc.C80_wide_rejected",
    "Btc.C80_ideographic_space_violated",
    "Btc.C80_ascii_space_partial"
   ],
   "note": "Violated for every 32-byte entropy."
  },
  {
   "property": "C81",
   "status": "partial",
   "theorems": [
    "Btc.C81_short_list_violated",
    "Btc.C81_error_iff_nil",
    "Btc.C81_no_error_partial"
   ],
   "note": "Violated: an empty list crashes; error exactly for nil."
  },
  {
   "property": "C82",
   "status": "partial",
   "theorems": [
    "Btc.C82_composed_rejected",
    "Btc.C82_normalisation_violated",
    "Btc.C82_ascii_lists_partial"
   ],
   "note": "Violated: concrete French phrase; all phrases with composed letters rejected."
  },
  {
   "property": "C83",
   "status": "proved",
   "theorems": [
    "Btc.C83_results",
    "Btc.C83_no_races",
    "Btc.C83_unchanged"
   ],
   "note": "Any number of calls per goroutine; specification has values only, no memory."
  },
  {
   "property": "C84",
   "status": "proved",
   "theorems": [
    "Btc.C84_exchange",
    "Btc.C84_uniform",
    "Btc.C84_retry_count"
   ],
   "note": "Proved as a bijection between streams (swap two 32-byte blocks), hence equal counts for every length."
  },
  {
   "property": "C85",
   "status": "proved",
   "theorems": [
    "Btc.C85_equally_likely",
    "Btc.C85_phrase_count"
   ],
   "note": "For every hash function; the number of phrases is expressed by the condition under which NewMnemonic does not fail (C45)."
  },
  {
   "property": "C86",
   "status": "proved",
   "theorems": [
    "Btc.C86_accepted_count",
    "Btc.C86_one_in_256"
   ],
   "note": "For every hash function, since the checksum is one byte computed from the rest."
  },
  {
   "property": "C87",
   "status": "proved",
   "theorems": [
    "Btc.C87_value",
    "Btc.C87_same_value_same_key"
   ],
   "note": "Leaves need a key that is present; failing trees are covered by C20, C25 and C73."
  },
  {
   "property": "C88",
   "status": "proved",
   "theorems": [
    "Btc.C88_public_sum",
    "Btc.C88_commutes"
   ],
   "note": "The hypothesis excludes AddPublicKeys on points with equal X, which it does not handle."
  },
  {
   "property": "C89",
   "status": "proved",
   "theorems": [
    "Btc.C89_parameters_protected",
    "Btc.C89_parameters_unknown",
    "Btc.C89_needs_fresh"
   ],
   "note": "Assumes of the curve package that it writes only to numbers it allocated and returns only such numbers; C89_needs_fresh shows the second assumption is needed."
  },
  {
   "property": "C90",
   "status": "partial",
   "theorems": [
    "Btc.C90_add_partial",
    "Btc.C90_multiply_partial",
    "Btc.C90_publicFromHex_partial",
    "Btc.C90_getPublicKey_partial",
    "Btc.C90_addPublicKeys_partial",
    "Btc.C90_arguments_kept",
    "Btc.C90_privateFromHex_partial",
    "Btc.C90_privateFromWIF_partial",
    "Btc.C90_violated"
   ],
   "note": "False because of the shared network object (C90_violated); for all other memory both directions are proved, and the exact dependence on the network is stated."
  },
  {
   "property": "C91",
   "status": "proved",
   "theorems": [
    "Btc.C91_add",
    "Btc.C91_multiply",
    "Btc.C91_publicFromHex",
    "Btc.C91_getPublicKey",
    "Btc.C91_addPublicKeys"
   ],
   "note": "Same assumptions on the curve package as C57 and C89."
  },
  {
   "property": "C92",
   "status": "proved",
   "theorems": [
    "Btc.C92_address_of_hex",
    "Btc.C92_address_of_wif",
    "Btc.C92_address_unique"
   ],
   "note": "The whole chain composed; assumes EcdsaContract of the curve package, and a one-byte address prefix (both shipped networks)."
  },
  {
   "property": "C93",
   "status": "proved",
   "theorems": [
    "Btc.C93_collision"
   ],
   "note": "For every hash function; states nothing about how hard collisions are to find."
  },
  {
   "property": "C94",
   "status": "proved",
   "theorems": [
    "Btc.C94_generation_ends",
    "Btc.C94_failure_bound"
   ],
   "note": "Uniform random bytes are the only probabilistic assumption; stated by counting streams and as a limit."
  },
  {
   "property": "C95",
   "status": "proved",
   "theorems": [
    "Btc.C95_eight_last_words",
    "Btc.C95_last_word_detected"
   ],
   "note": "For every hash function; uses that a phrase of 8j words carries exactly one checksum byte, all of it in the last word."
  },
  {
   "property": "C96",
   "status": "proved",
   "theorems": [
    "Btc.C96_arithmetic_inputs",
    "Btc.C96_public_key_inputs",
    "Btc.C96_hex_inputs",
    "Btc.C96_wif_inputs",
    "Btc.C96_address_inputs",
    "Btc.C96_flag_unused"
   ],
   "note": "Holds for arbitrary hash functions and curve packages, no contract needed."
  },
  {
   "property": "C97",
   "status": "proved",
   "theorems": [
    "Btc.C97_private_keys",
    "Btc.C97_public_keys"
   ],
   "note": "In the heap layer, with the same assumptions on the curve package as C91."
  },
  {
   "property": "C98",
   "status": "partial",
   "theorems": [
    "Btc.C98_nil_network_violated",
    "Btc.C98_no_nil_results_partial"
   ],
   "note": "False of the code (C98_nil_network_violated); what remains is which functions return keys without network."
  },
  {
   "property": "C99",
   "status": "proved",
   "theorems": [
    "Btc.C99_text_count",
    "Btc.C99_passing_count"
   ],
   "note": "For every hash function; counting uses that Base58 is a bijection."
  },
  {
   "property": "C100",
   "status": "proved",
   "theorems": [
    "Btc.C100_public_key",
    "Btc.C100_compressed",
    "Btc.C100_other_texts",
    "Btc.C100_add"
   ],
   "note": "X coordinates must be reduced and points on the curve, as the contract says nothing otherwise."
  },
  {
   "property": "C101",
   "status": "proved",
   "theorems": [
    "Btc.C101_partition",
    "Btc.C101_alone",
    "Btc.C101_distinct_keys",
    "Btc.C101_distinct_phrases"
   ],
   "note": "Assumes that rand.Reader answers each request as a whole, which its documentation promises (safe for concurrent use)."
  },
  {
   "property": "C102",
   "status": "proved",
   "theorems": [
    "Btc.C102_checkWIF",
    "Btc.C102_privateFromWIF",
    "Btc.C102_privateFromHex",
    "Btc.C102_generateRandomBigInt",
    "Btc.C102_generatePrivateKey",
    "Btc.C102_addPrivateKeys",
    "Btc.C102_multiplyPrivateKeys",
    "Btc.C102_publicFromHex",
    "Btc.C102_getPublicKey",
    "Btc.C102_format",
    "Btc.C102_address",
    "Btc.C102_addPublicKeys",
    "Btc.C102_newSeedFromMnemonic",
    "Btc.C102_newMnemonic"
   ],
   "note": "Assumes of the curve package only that its methods have no error result (NoErr), which is their Go type."
  },
  {
   "property": "C103",
   "status": "proved",
   "theorems": [
    "Btc.C103_private",
    "Btc.C103_public",
    "Btc.C103_mnemonic"
   ],
   "note": "Assumes that the calls of the curve package end. GeneratePrivateKey on a source that never ends is the subject of C17 and C94."
  },
  {
   "property": "C104",
   "status": "proved",
   "theorems": [
    "Btc.C104_checkWIF",
    "Btc.C104_privateFromWIF",
    "Btc.C104_privateFromHex",
    "Btc.C104_combine",
    "Btc.C104_getPublicKey",
    "Btc.C104_generatePrivateKey",
    "Btc.C104_format"
   ],
   "note": "About the branches of the package's own code, not those inside math/big, encoding/hex, the hash functions or the curve package."
  },
  {
   "property": "C105",
   "status": "partial",
   "theorems": [
    "Btc.C105_path_gives_phrase",
    "Btc.C105_newMnemonic_violated",
    "Btc.C105_newMnemonic_partial",
    "Btc.C105_path_gives_mnemonic",
    "Btc.C105_newSeed_partial",
    "Btc.C105_newSeed_violated"
   ],
   "note": "False of the code: NewMnemonic tests entropy bits one by one and NewSeedFromMnemonic searches the list word by word, so the path of a run gives the phrase away (C105_path_gives_phrase, C105_path_gives_mnemonic). What holds is in the _partial theorems."
  },
  {
   "property": "C106",
   "status": "proved",
   "theorems": [
    "Btc.C106_parse",
    "Btc.C106_print",
    "Btc.C106_functions",
    "Btc.C106_types"
   ],
   "note": "That the embedded text is the text in /repo is checked by tools/compare_text.py, not by Lean. wordlists.go is not parsed; the same script writes it out from the word lists of the model and compares it byte for byte."
  },
  {
   "property": "C107",
   "status": "proved",
   "theorems": [
    "Btc.C107_init",
    "Btc.C107_parameters_stay"
   ],
   "note": "Clients that assign to the exported variables themselves are not considered."
  },
  {
   "property": "C108",
   "status": "proved",
   "theorems": [
    "Btc.C108_checkWIF",
    "Btc.C108_privateFromWIF",
    "Btc.C108_privateFromHex",
    "Btc.C108_addPrivateKeys",
    "Btc.C108_multiplyPrivateKeys",
    "Btc.C108_publicFromHex",
    "Btc.C108_getPublicKey",
    "Btc.C108_addPublicKeys",
    "Btc.C108_format",
    "Btc.C108_address",
    "Btc.C108_generatePrivateKey",
    "Btc.C108_newMnemonic",
    "Btc.C108_newSeedFromMnemonic",
    "Btc.C108_nil"
   ],
   "note": "For any curve package that meets Pkg and Refines. The meaning of Go statements and of the library calls is defined in Verif/Source/Run.lean and Value.lean."
  },
  {
   "property": "C109",
   "status": "proved",
   "theorems": [
    "Btc.C109_ends",
    "Btc.C109_all_calls"
   ],
   "note": "For any curve package that meets Pkg."
  },
  {
   "property": "C110",
   "status": "proved",
   "theorems": [
    "Btc.C110_address_of_hex",
    "Btc.C110_address_of_wif",
    "Btc.C110_address_of_generated"
   ],
   "note": "For any curve package that meets the contract; the reference package does."
  },
  {
   "property": "C111",
   "status": "proved",
   "theorems": [
    "Btc.C111_no_seed",
    "Btc.C111_own_phrase_refused",
    "Btc.C111_short_phrases",
    "Btc.C111_log_reveals",
    "Btc.C111_sum_refused"
   ],
   "note": "Counterparts on the text of C20, C52, C53 and C54."
  },
  {
   "property": "C112",
   "status": "proved",
   "theorems": [
    "Btc.C112_crash_table"
   ],
   "note": "The condition Determined excludes curve operations on coordinates off the curve, about which the contract of the curve package says nothing."
  },
  {
   "property": "C113",
   "status": "proved",
   "theorems": [
    "Btc.C113_keys_in_order",
    "Btc.C113_no_crash",
    "Btc.C113_public_key",
    "Btc.C113_address"
   ],
   "note": "What a program has to check is Spec.Careful. Fields of returned objects are not assigned by the program."
  },
  {
   "property": "C114",
   "status": "proved",
   "theorems": [
    "Btc.C114_same_answer",
    "Btc.C114_same_rest",
    "Btc.C114_source_kept",
    "Btc.C114_history",
    "Btc.C114_swap"
   ],
   "note": "After a failed draw nothing is said of the bytes left (C114_same_rest excludes returned errors). A session never assigns to fields of keys; C91 covers clients that do, on the heap model."
  },
  {
   "property": "C115",
   "status": "proved",
   "theorems": [
    "Btc.C115_blocks",
    "Btc.C115_dead",
    "Btc.C115_live",
    "Btc.C115_exactly"
   ],
   "note": "Dead means: no call can tell the text from the text with the block replaced, which is the same as never run. The live ones are witnessed by sample calls on the text, evaluated in the kernel with the real hash functions and the reference curve package."
  },
  {
   "property": "C116",
   "status": "proved",
   "theorems": [
    "Btc.C116_parameters",
    "Btc.C116_out_of_reach",
    "Btc.C116_computes",
    "Btc.C116_crash_table",
    "Btc.C116_same_answer"
   ],
   "note": "On the text; C89 and C91 say it of the heap model. The curve package is assumed to return numbers that are new (Fresh); C89_needs_fresh shows that this is needed."
  },
  {
   "property": "C117",
   "status": "proved",
   "theorems": [
    "Btc.C117_faithful",
    "Btc.C117_lines_differ",
    "Btc.C117_checkWIF",
    "Btc.C117_privateFromHex",
    "Btc.C117_privateFromWIF",
    "Btc.C117_addPrivateKeys",
    "Btc.C117_multiplyPrivateKeys",
    "Btc.C117_getPublicKey",
    "Btc.C117_addPublicKeys",
    "Btc.C117_generatePrivateKey",
    "Btc.C117_format",
    "Btc.C117_address"
   ],
   "note": "On the text; C104 says it of the statement-level programs. About the blocks of the package's own code, not those inside math/big, encoding/hex, the hash functions or the curve package. PublicFromHex handles no secret and is left out."
  },
  {
   "property": "C118",
   "status": "proved",
   "theorems": [
    "Btc.C118_unmentioned",
    "Btc.C118_two",
    "Btc.C118_mentioned",
    "Btc.C118_exactly",
    "Btc.C118_passphrase",
    "Btc.C118_compressed"
   ],
   "note": "C118_unmentioned is about every program of the subset of Go that is modelled. That the others matter is shown by runs with the real hash functions and the reference curve package."
  },
  {
   "property": "C119",
   "status": "partial",
   "theorems": [
    "Btc.C119_newMnemonic_gives_phrase",
    "Btc.C119_newMnemonic_partial",
    "Btc.C119_newSeed_gives_phrase",
    "Btc.C119_newSeed_violated",
    "Btc.C119_newMnemonic_violated",
    "Btc.C119_newSeed_partial"
   ],
   "note": "False of the code, shown on the text by two pairs of runs. Worse: by C119_newMnemonic_gives_phrase and C119_newSeed_gives_phrase the blocks passed give the whole phrase away. What holds is in the theorems named partial."
  },
  {
   "property": "C120",
   "status": "proved",
   "theorems": [
    "Btc.C120_append",
    "Btc.C120_calls"
   ],
   "note": "The log is the list of lines given to log.Println; time stamps, prefixes and log.SetOutput are not modelled. C114 says of the functions of the repository that calls that ask the same add the same lines."
  },
  {
   "property": "C121",
   "status": "proved",
   "theorems": [
    "Btc.C121_no_races",
    "Btc.C121_unchanged",
    "Btc.C121_results",
    "Btc.C121_text",
    "Btc.C121_calls"
   ],
   "note": "Each goroutine has a random source and a log of its own (C101 is about a shared source). Of a call that panics the panic is compared, not the lines it had logged. Goroutines communicate only through memory: channels and locks do not occur in the package and are not modelled."
  },
  {
   "property": "C122",
   "status": "proved",
   "theorems": [
    "Btc.C122_error_table",
    "Btc.C122_success",
    "Btc.C122_no_digit"
   ],
   "note": "Determined outcome means as in C112: the assumptions on the curve package say what it does in this call, and word lists given to NewSeedFromMnemonic have at most 2048 words. The errors are compared as the kinds of error the code creates; the wording of fmt and hex errors is that of their constructors."
  },
  {
   "property": "C123",
   "status": "proved",
   "theorems": [
    "Btc.C123_static",
    "Btc.C123_straight",
    "Btc.C123_work"
   ],
   "note": "Lines count the functions and blocks of the package that are entered and the lines that the code logs itself, not the work inside the standard library or the curve package. Assumes the call ends (C109 shows when). The bounds of the functions without loops add up both branches before a return, so they are not all attained."
  },
  {
   "property": "C124",
   "status": "proved",
   "theorems": [
    "Btc.C124_unique",
    "Btc.C124_results",
    "Btc.C124_exact"
   ],
   "note": "Assumes the conditions under which the curve package is determined (Determined, as in C112): a compressed text spells a number below p, a private key is between 1 and n - 1, public keys to be added are on the curve with different X, and word lists have at most 2048 words. The table states what the code does, also where that departs from the standards (numerals with a sign, <nil> coordinates, the appended bits of NewMnemonic, no seed); the departures are C12, C16, C25, C32, C48, C52 and C61."
  },
  {
   "property": "C125",
   "status": "proved",
   "theorems": [
    "Btc.C125_keys",
    "Btc.C125_points",
    "Btc.C125_texts",
    "Btc.C125_read_back",
    "Btc.C125_wif_back",
    "Btc.C125_same_texts",
    "Btc.C125_sum"
   ],
   "note": "Public keys are taken of numbers between 1 and n - 1, and public keys are added only if the points are neither equal nor opposite; for the rest the assumptions on the curve package say nothing. That a sum of private keys succeeds is a hypothesis, because the code refuses sums whose text has an odd length (C20). In C125_sum the success of all the other calls is proved."
  },
  {
   "property": "C126",
   "status": "proved",
   "theorems": [
    "Btc.C126_transcript",
    "Btc.C126_exact",
    "Btc.C126_runs",
    "Btc.C126_same"
   ],
   "note": "Programs do not assign to fields of keys, to networks or to numbers after they are made (as in C109). After a draw has failed for lack of random bytes nothing is said of later draws; C126_transcript still covers what was seen until then. A call of NewMnemonic that is refused for its list or number of words does not count as a draw."
  },
  {
   "property": "C127",
   "status": "proved",
   "theorems": [
    "Btc.C127_init",
    "Btc.C127_check",
    "Btc.C127_import_hex",
    "Btc.C127_import_wif",
    "Btc.C127_nil_network",
    "Btc.C127_round_trip",
    "Btc.C127_other_network",
    "Btc.C127_address_refused",
    "Btc.C127_same_wif",
    "Btc.C127_one_wif",
    "Btc.C127_keys_stay",
    "Btc.C127_add",
    "Btc.C127_multiply",
    "Btc.C127_inverse",
    "Btc.C127_generate",
    "Btc.C127_generate_no_network",
    "Btc.C127_other_networks",
    "Btc.C127_every_key"
   ],
   "note": "About a text that is not in /repo: it shows where the faults of C04, C12, C13, C16, C20, C25, C26, C42, C65, C66, C73, C75, C79 and C98 are (for C98, the two imports). The text is parsed and run by the same parser and interpreter as the repository's. AddPrivateKeys and MultiplyPrivateKeys are covered for keys that the repaired functions return. GeneratePrivateKey with a network whose prefix is not hexadecimal still uses up the random source, as in C17."
  },
  {
   "property": "C128",
   "status": "proved",
   "theorems": [
    "Btc.C128_generate",
    "Btc.C128_every_phrase",
    "Btc.C128_accept",
    "Btc.C128_lengths",
    "Btc.C128_round_trip",
    "Btc.C128_distinct"
   ],
   "note": "About a text that is not in /repo: it shows where the faults of C48, C50, C53, C54, C63 and C81 are. The text is parsed and run by the same parser and interpreter as the repository's. NewSeedFromMnemonic still returns no seed (C52): deriving one needs PBKDF2, which the repository does not import."
  },
  {
   "property": "C129",
   "status": "proved",
   "theorems": [
    "Btc.C129_init",
    "Btc.C129_keys_stay",
    "Btc.C129_nil_network",
    "Btc.C129_import",
    "Btc.C129_public_key",
    "Btc.C129_add",
    "Btc.C129_add_refused",
    "Btc.C129_format",
    "Btc.C129_address",
    "Btc.C129_no_address",
    "Btc.C129_round_trip",
    "Btc.C129_sum"
   ],
   "note": "About a text that is not in /repo: it shows where the faults of C31, C32, C61, C62 and, for public keys, C98 are. The text is parsed and run by the same parser and interpreter as the repository's. Sums of points with the same x are refused, as nothing is assumed about the curve package there."
  },
  {
   "property": "C130",
   "status": "proved",
   "theorems": [
    "Btc.C130_keys_in_order",
    "Btc.C130_no_dangling",
    "Btc.C130_no_crash",
    "Btc.C130_panic",
    "Btc.C130_silent",
    "Btc.C130_wif",
    "Btc.C130_text",
    "Btc.C130_address",
    "Btc.C130_wifs_differ"
   ],
   "note": "About a text that is not in /repo (that of C127 to C129). It is the counterpart of C113 without the checks that C113 asks of the program."
  },
  {
   "property": "C131",
   "status": "proved",
   "theorems": [
    "Btc.C131_keys",
    "Btc.C131_keys_no_failure",
    "Btc.C131_repaired_keys",
    "Btc.C131_keys_disagree",
    "Btc.C131_phrase_call",
    "Btc.C131_phrases",
    "Btc.C131_repaired_phrases"
   ],
   "note": "Two of the theorems are about a text that is not in /repo (that of C127 and C128)."
  },
  {
   "property": "C132",
   "status": "proved",
   "theorems": [
    "Btc.C132_seed",
    "Btc.C132_exact",
    "Btc.C132_public"
   ],
   "note": "Compares the text of /repo with one that is not in /repo (that of C127 to C129). Calls that the repaired text refuses are not compared."
  },
  {
   "property": "C133",
   "status": "proved",
   "theorems": [
    "Btc.C133_keys",
    "Btc.C133_failures",
    "Btc.C133_phrases",
    "Btc.C133_number_of_phrases",
    "Btc.C133_key_sequences",
    "Btc.C133_phrase_sequences"
   ],
   "note": "About the repaired text of C127 and C128, which is not in /repo; C84, C85 and C94 count for the text of /repo, which favours some keys and phrases by excluding others."
  },
  {
   "property": "C134",
   "status": "proved",
   "theorems": [
    "Btc.C134_fixed_table",
    "Btc.C134_overlooked",
    "Btc.C134_lost"
   ],
   "note": "Compares the text of /repo with one that is not in /repo (that of C127 to C129). In the comparison, `Determined` leaves out the calls on which the assumptions about the curve package say nothing: adding points with the same x, and compressed texts that hold no field element. For NewSeedFromMnemonic the list is a BIP-39 list."
  },
  {
   "property": "C135",
   "status": "proved",
   "theorems": [
    "Btc.C135_panic_reason",
    "Btc.C135_calm",
    "Btc.C135_text",
    "Btc.C135_in_order",
    "Btc.C135_no_crash",
    "Btc.C135_no_races",
    "Btc.C135_unchanged",
    "Btc.C135_returned",
    "Btc.C135_ends_alone",
    "Btc.C135_ends"
   ],
   "note": "About a text that is not in /repo (that of C127 to C129); C121 is about the text of /repo. Each goroutine has a random source of its own (for a shared one see C101). Goroutines get keys only when they are started; a goroutine that has not ended when the program goes on makes no more steps."
  },
  {
   "property": "C136",
   "status": "proved",
   "theorems": [
    "Btc.C136_as_session",
    "Btc.C136_intact",
    "Btc.C136_calls",
    "Btc.C136_no_races",
    "Btc.C136_unchanged",
    "Btc.C136_returned",
    "Btc.C136_ends_alone",
    "Btc.C136_ends"
   ],
   "note": "About the text of /repo; C135 is the counterpart for the repaired text. Each goroutine has a random source and a log of its own; a goroutine ends with the first panic (recover is not modelled); of a goroutine that panics the panic is compared. A goroutine that has not ended when the program goes on makes no more steps. In the session without goroutines the log is empty; that the log does not matter is C120."
  },
  {
   "property": "C137",
   "status": "proved",
   "theorems": [
    "Btc.C137_from_front",
    "Btc.C137_no_lookahead",
    "Btc.C137_fixed"
   ],
   "note": "The second part is about calls that return without an error; when a draw fails for lack of bytes, the call has seen that there are no more."
  },
  {
   "property": "C138",
   "status": "proved",
   "theorems": [
    "Btc.C138_work",
    "Btc.C138_fuel",
    "Btc.C138_faithful",
    "Btc.C138_straight",
    "Btc.C138_loops"
   ],
   "note": "About the repaired text; C123 is the counterpart for the text of /repo. The analysis has no bound for range loops; those of NewSeedFromMnemonic are followed by hand. What the Go library does inside one call of it is not counted. The bounds are not tight."
  },
  {
   "property": "C139",
   "status": "proved",
   "theorems": [
    "Btc.C139_unique",
    "Btc.C139_result",
    "Btc.C139_exact",
    "Btc.C139_same"
   ],
   "note": "About the repaired text; C124 and C125 are the counterparts for the text of /repo. Which error a refused call returns is C140. For NewSeedFromMnemonic the wordlist must be one (2048 distinct words without spaces), as in C134."
  },
  {
   "property": "C140",
   "status": "proved",
   "theorems": [
    "Btc.C140_unique",
    "Btc.C140_error_table",
    "Btc.C140_total",
    "Btc.C140_generate",
    "Btc.C140_same"
   ],
   "note": "About the repaired text; C122 is the counterpart for the text of /repo. For NewSeedFromMnemonic a list of 2048 words must be one of distinct words without spaces; other lengths are refused."
  },
  {
   "property": "C141",
   "status": "proved",
   "theorems": [
    "Btc.C141_keys",
    "Btc.C141_same",
    "Btc.C141_follows",
    "Btc.C141_shows_one"
   ],
   "note": "About the repaired text; the calls are those of one goroutine. For NewSeedFromMnemonic the wordlist must be one, as in C134. After a panic for want of random bytes both runs are given another source, since how much of the old one was read is not said."
  }
 ]
}