{
 "claims": [
  {
   "property": "C01",
   "status": "proved",
   "theorems": [
    "Kms.Props.C01_entropy_survives_phrase"
   ],
   "note": "In lean/Verif/Props/Phrase.lean; concrete cases are examples in the same file."
  },
  {
   "property": "C02",
   "status": "proved",
   "theorems": [
    "Kms.Props.C02_accepted_phrases_canonical"
   ],
   "note": "In lean/Verif/Props/Phrase.lean; concrete cases are examples in the same file."
  },
  {
   "property": "C03",
   "status": "proved",
   "theorems": [
    "Kms.Props.C03_from_phrase_acceptance"
   ],
   "note": "In lean/Verif/Props/Phrase.lean; concrete cases are examples in the same file."
  },
  {
   "property": "C04",
   "status": "proved",
   "theorems": [
    "Kms.Props.C04_error_classification"
   ],
   "note": "In lean/Verif/Props/Phrase.lean; concrete cases are examples in the same file."
  },
  {
   "property": "C05",
   "status": "proved",
   "theorems": [
    "Kms.Props.C05_from_entropy_acceptance"
   ],
   "note": "In lean/Verif/Props/Phrase.lean; concrete cases are examples in the same file."
  },
  {
   "property": "C06",
   "status": "proved",
   "theorems": [
    "Kms.Props.C06_bip39_layout"
   ],
   "note": "In lean/Verif/Props/Phrase.lean; concrete cases are examples in the same file."
  },
  {
   "property": "C07",
   "status": "proved",
   "theorems": [
    "Kms.Props.C07_new_valid_and_injective"
   ],
   "note": "In lean/Verif/Props/PhraseMore.lean; concrete cases are examples in the same file."
  },
  {
   "property": "C08",
   "status": "proved",
   "theorems": [
    "Kms.Props.C08_whitespace_insensitive"
   ],
   "note": "In lean/Verif/Props/PhraseMore.lean; concrete cases are examples in the same file."
  },
  {
   "property": "C09",
   "status": "proved",
   "theorems": [
    "Kms.Props.C09_nfkd_insensitive"
   ],
   "note": "In lean/Verif/Props/PhraseMore.lean; concrete cases are examples in the same file."
  },
  {
   "property": "C10",
   "status": "proved",
   "theorems": [
    "Kms.Props.C10_validate_iff_verbatim",
    "Kms.Props.C10_validate_weaker"
   ],
   "note": "validate does not normalise or collapse whitespace: C10_validate_iff_verbatim says exactly what it accepts, C10_validate_weaker shows from_phrase accepts strictly more. In lean/Verif/Props/PhraseMore.lean; concrete cases are examples in the same file."
  },
  {
   "property": "C11",
   "status": "proved",
   "theorems": [
    "Kms.Props.C11_wordlist_bijection"
   ],
   "note": "In lean/Verif/Props/Language.lean; concrete cases are examples in the same file."
  },
  {
   "property": "C12",
   "status": "proved",
   "theorems": [
    "Kms.Props.C12_english_prefix_search"
   ],
   "note": "In lean/Verif/Props/Language.lean; concrete cases are examples in the same file."
  },
  {
   "property": "C13",
   "status": "partial",
   "theorems": [
    "Kms.Props.C13_chinese_prefix_search_partial",
    "Kms.Props.C13_chinese_prefix_search_fails"
   ],
   "note": "The property is false of the code: C13_chinese_prefix_search_fails is a counterexample (a query that is itself a list word). The partial theorem gives soundness and absence of panics for every query, exactness for every query that is not a list word (the empty query included), and for list words the exact outcome under each of the two binary searches of the standard library: 18 words (before Rust 1.82) or 7 words (from 1.82 on) are found, for every other word the answer is empty. In lean/Verif/Props/ChineseSearch.lean and Language.lean; concrete cases are examples in the same files."
  },
  {
   "property": "C14",
   "status": "proved",
   "theorems": [
    "Kms.Props.C14_language_detection"
   ],
   "note": "In lean/Verif/Props/PhraseMore.lean; concrete cases are examples in the same file."
  },
  {
   "property": "C15",
   "status": "proved",
   "theorems": [
    "Kms.Props.C15_language_codes"
   ],
   "note": "In lean/Verif/Props/Language.lean; concrete cases are examples in the same file."
  },
  {
   "property": "C16",
   "status": "proved",
   "theorems": [
    "Kms.Props.C16_mnemonic_types"
   ],
   "note": "In lean/Verif/Props/Language.lean; concrete cases are examples in the same file."
  },
  {
   "property": "C17",
   "status": "proved",
   "theorems": [
    "Kms.Props.C17_for_phrase"
   ],
   "note": "In lean/Verif/Props/PhraseMore.lean; concrete cases are examples in the same file."
  },
  {
   "property": "C18",
   "status": "proved",
   "theorems": [
    "Kms.Props.C18_checksum_strength"
   ],
   "note": "In lean/Verif/Props/PhraseMore.lean; concrete cases are examples in the same file."
  },
  {
   "property": "C19",
   "status": "proved",
   "theorems": [
    "Kms.Props.C19_seed_accepted",
    "Kms.Props.C19_seed_length"
   ],
   "note": "In lean/Verif/Props/DerivationMore.lean and Seed.lean; concrete cases are examples in the same files."
  },
  {
   "property": "C20",
   "status": "proved",
   "theorems": [
    "Kms.Props.C20_seed_is_pbkdf2"
   ],
   "note": "In lean/Verif/Props/Seed.lean; concrete cases are examples in the same file."
  },
  {
   "property": "C21",
   "status": "partial",
   "theorems": [
    "Kms.Props.C21_chinese_seed_input_not_utf8",
    "Kms.Props.C21_chinese_seed_input_partial"
   ],
   "note": "The property is false of the code: the seed input of every Chinese mnemonic is its GB18030 bytes, not UTF-8 (C21_chinese_seed_input_not_utf8). The partial theorem gives injectivity of that encoding. In lean/Verif/Props/Seed.lean; concrete cases are examples in the same file."
  },
  {
   "property": "C22",
   "status": "proved",
   "theorems": [
    "Kms.Props.C22_hex_formatting"
   ],
   "note": "In lean/Verif/Props/Seed.lean; concrete cases are examples in the same file."
  },
  {
   "property": "C23",
   "status": "proved",
   "theorems": [
    "Kms.Props.C23_child_number_new"
   ],
   "note": "In lean/Verif/Props/Path.lean; concrete cases are examples in the same file."
  },
  {
   "property": "C24",
   "status": "proved",
   "theorems": [
    "Kms.Props.C24_child_number_bytes"
   ],
   "note": "In lean/Verif/Props/Path.lean; concrete cases are examples in the same file."
  },
  {
   "property": "C25",
   "status": "proved",
   "theorems": [
    "Kms.Props.C25_child_number_text"
   ],
   "note": "In lean/Verif/Props/Path.lean; concrete cases are examples in the same file."
  },
  {
   "property": "C26",
   "status": "proved",
   "theorems": [
    "Kms.Props.C26_child_number_grammar"
   ],
   "note": "In lean/Verif/Props/Path.lean; concrete cases are examples in the same file."
  },
  {
   "property": "C27",
   "status": "proved",
   "theorems": [
    "Kms.Props.C27_path_text"
   ],
   "note": "In lean/Verif/Props/Path.lean; concrete cases are examples in the same file."
  },
  {
   "property": "C28",
   "status": "proved",
   "theorems": [
    "Kms.Props.C28_path_grammar"
   ],
   "note": "In lean/Verif/Props/Path.lean; concrete cases are examples in the same file."
  },
  {
   "property": "C29",
   "status": "proved",
   "theorems": [
    "Kms.Props.C29_path_structure"
   ],
   "note": "In lean/Verif/Props/Path.lean; concrete cases are examples in the same file."
  },
  {
   "property": "C30",
   "status": "proved",
   "theorems": [
    "Kms.Props.C30_path_composition"
   ],
   "note": "In lean/Verif/Props/Derivation.lean; concrete cases are examples in the same file."
  },
  {
   "property": "C31",
   "status": "proved",
   "theorems": [
    "Kms.Props.C31_public_matches_private"
   ],
   "note": "In lean/Verif/Props/Derivation.lean; concrete cases are examples in the same file."
  },
  {
   "property": "C32",
   "status": "proved",
   "theorems": [
    "Kms.Props.C32_no_hardened_public"
   ],
   "note": "In lean/Verif/Props/Derivation.lean; concrete cases are examples in the same file."
  },
  {
   "property": "C33",
   "status": "proved",
   "theorems": [
    "Kms.Props.C33_depth"
   ],
   "note": "In lean/Verif/Props/Derivation.lean; concrete cases are examples in the same file."
  },
  {
   "property": "C34",
   "status": "proved",
   "theorems": [
    "Kms.Props.C34_child_key"
   ],
   "note": "In lean/Verif/Props/Derivation.lean; concrete cases are examples in the same file."
  },
  {
   "property": "C35",
   "status": "partial",
   "theorems": [
    "Kms.Props.C35_derive_child_can_panic",
    "Kms.Props.C35_derive_child_outcome_partial"
   ],
   "note": "As stated it is false: C35_derive_child_can_panic shows derive_child panics, for private and public keys, whenever I_L is 0 or at least n. The partial theorem gives the exact condition for every outcome. In lean/Verif/Props/DerivationMore.lean; concrete cases are examples in the same file."
  },
  {
   "property": "C36",
   "status": "proved",
   "theorems": [
    "Kms.Props.C36_master_key"
   ],
   "note": "In lean/Verif/Props/DerivationMore.lean; concrete cases are examples in the same file."
  },
  {
   "property": "C37",
   "status": "proved",
   "theorems": [
    "Kms.Props.C37_keys_in_range"
   ],
   "note": "In lean/Verif/Props/DerivationMore.lean; concrete cases are examples in the same file."
  },
  {
   "property": "C38",
   "status": "proved",
   "theorems": [
    "Kms.Props.C38_xprv_round_trip"
   ],
   "note": "In lean/Verif/Props/KeyText.lean; concrete cases are examples in the same file."
  },
  {
   "property": "C39",
   "status": "proved",
   "theorems": [
    "Kms.Props.C39_xpub_round_trip"
   ],
   "note": "In lean/Verif/Props/KeyText.lean; concrete cases are examples in the same file."
  },
  {
   "property": "C40",
   "status": "proved",
   "theorems": [
    "Kms.Props.C40_text_canonical"
   ],
   "note": "In lean/Verif/Props/ExtendedKey.lean; concrete cases are examples in the same file."
  },
  {
   "property": "C41",
   "status": "proved",
   "theorems": [
    "Kms.Props.C41_write_base58_total"
   ],
   "note": "In lean/Verif/Props/ExtendedKey.lean; concrete cases are examples in the same file."
  },
  {
   "property": "C42",
   "status": "proved",
   "theorems": [
    "Kms.Props.C42_bip32_layout"
   ],
   "note": "In lean/Verif/Props/ExtendedKey.lean; concrete cases are examples in the same file."
  },
  {
   "property": "C43",
   "status": "proved",
   "theorems": [
    "Kms.Props.C43_from_str_exact"
   ],
   "note": "In lean/Verif/Props/ExtendedKey.lean; concrete cases are examples in the same file."
  },
  {
   "property": "C44",
   "status": "proved",
   "theorems": [
    "Kms.Props.C44_private_public_separate"
   ],
   "note": "In lean/Verif/Props/KeyText.lean; concrete cases are examples in the same file."
  },
  {
   "property": "C45",
   "status": "partial",
   "theorems": [
    "Kms.Props.C45_eq_ignores_private_key",
    "Kms.Props.C45_eq_attrs_partial"
   ],
   "note": "As stated it is false of the code: C45_eq_ignores_private_key shows two private extended keys with different secrets compare equal, because the derived-by-hand comparison looks only at the attributes. The partial theorem says exactly what is compared. In lean/Verif/Props/KeyText.lean; concrete cases are examples in the same file."
  },
  {
   "property": "C46",
   "status": "proved",
   "theorems": [
    "Kms.Props.C46_prefixes"
   ],
   "note": "In lean/Verif/Props/ExtendedKey.lean; concrete cases are examples in the same file."
  },
  {
   "property": "C47",
   "status": "partial",
   "theorems": [
    "Kms.Props.C47_version_does_not_determine_prefix",
    "Kms.Props.C47_version_determines_prefix_partial",
    "Kms.Props.C47_exactly_which_versions"
   ],
   "note": "False for some accepted versions: C47_version_does_not_determine_prefix is a counterexample for every hash function and every key of depth at least 3. The partial theorem proves it for the eight constants and gives the exact condition for any prefix. C47_exactly_which_versions says for which versions it holds: those for which the last key, all of whose bytes after the version are 255, begins with the letters. In lean/Verif/Props/ExtendedKey.lean and PrefixExact.lean; concrete cases are examples in the same files."
  },
  {
   "property": "C48",
   "status": "proved",
   "theorems": [
    "Kms.Props.C48_debug_hides_key"
   ],
   "note": "In lean/Verif/Props/KeyText.lean; concrete cases are examples in the same file."
  },
  {
   "property": "C49",
   "status": "proved",
   "theorems": [
    "Kms.Props.C49_scratch_wiped",
    "Kms.Props.C49_from_str_leaves_payload"
   ],
   "note": "C49_scratch_wiped is the property; C49_from_str_leaves_payload records the error path on which the payload stays in memory. In lean/Verif/Props/ExtendedKey.lean; concrete cases are examples in the same file."
  },
  {
   "property": "C50",
   "status": "proved",
   "theorems": [
    "Kms.Props.C50_compressed_keys"
   ],
   "note": "In lean/Verif/Props/DerivationMore.lean; concrete cases are examples in the same file."
  },
  {
   "property": "C51",
   "status": "partial",
   "theorems": [
    "Kms.Props.C51_input_length",
    "Kms.Props.C51_signature_verifies_partial",
    "Kms.Props.C51_zero_r"
   ],
   "note": "As stated it is false: C51_zero_r shows that for a nonce whose point has x coordinate n the dependency returns r = 0 (release) or panics (debug). C51_input_length is the error half in full; the partial theorem proves verification and recovery whenever r is not 0. In lean/Verif/Props/Ecdsa.lean; concrete cases are examples in the same file."
  },
  {
   "property": "C52",
   "status": "proved",
   "theorems": [
    "Kms.Props.C52_hmac_input_injective"
   ],
   "note": "In lean/Verif/Props/DerivationMore.lean; concrete cases are examples in the same file."
  },
  {
   "property": "C53",
   "status": "proved",
   "theorems": [
    "Kms.Props.C53_wallet_recovery"
   ],
   "note": "In lean/Verif/Props/Wallet.lean; concrete cases are examples in the same file."
  },
  {
   "property": "C54",
   "status": "proved",
   "theorems": [
    "Kms.Props.C54_watch_only"
   ],
   "note": "In lean/Verif/Props/KeyText.lean; concrete cases are examples in the same file."
  },
  {
   "property": "C55",
   "status": "proved",
   "theorems": [
    "Kms.Props.C55_neutering"
   ],
   "note": "In lean/Verif/Props/DerivationMore.lean; concrete cases are examples in the same file."
  },
  {
   "property": "C56",
   "status": "proved",
   "theorems": [
    "Kms.Props.C56_ripemd"
   ],
   "note": "In lean/Verif/Props/Ecdsa.lean; concrete cases are examples in the same file."
  },
  {
   "property": "C57",
   "status": "proved",
   "theorems": [
    "Kms.Props.C57_public_child_key"
   ],
   "note": "In lean/Verif/Props/DerivationMore.lean; concrete cases are examples in the same file."
  },
  {
   "property": "C58",
   "status": "proved",
   "theorems": [
    "Kms.Props.C58_public_key_bijective"
   ],
   "note": "In lean/Verif/Props/DerivationMore.lean; concrete cases are examples in the same file."
  },
  {
   "property": "C59",
   "status": "proved",
   "theorems": [
    "Kms.Props.C59_xprv_acceptance"
   ],
   "note": "In lean/Verif/Props/KeyText.lean; concrete cases are examples in the same file."
  },
  {
   "property": "C60",
   "status": "proved",
   "theorems": [
    "Kms.Props.C60_xpub_acceptance"
   ],
   "note": "In lean/Verif/Props/KeyText.lean; concrete cases are examples in the same file."
  },
  {
   "property": "C61",
   "status": "proved",
   "theorems": [
    "Kms.Props.C61_rfc6979"
   ],
   "note": "In lean/Verif/Props/Ecdsa.lean; concrete cases are examples in the same file."
  },
  {
   "property": "C62",
   "status": "proved",
   "theorems": [
    "Kms.Props.C62_debug_build"
   ],
   "note": "In lean/Verif/Props/Ecdsa.lean; concrete cases are examples in the same file."
  },
  {
   "property": "C63",
   "status": "proved",
   "theorems": [
    "Kms.Props.C63_nfkd_unicode"
   ],
   "note": "In lean/Verif/Props/Nfkd.lean; concrete cases are examples in the same file."
  },
  {
   "property": "C64",
   "status": "proved",
   "theorems": [
    "Kms.Props.C64_english_four_letters"
   ],
   "note": "In lean/Verif/Props/Language.lean; concrete cases are examples in the same file."
  },
  {
   "property": "C65",
   "status": "proved",
   "theorems": [
    "Kms.Props.C65_unwind"
   ],
   "note": "In lean/Verif/Props/Unwind.lean; concrete cases are examples in the same file."
  },
  {
   "property": "C66",
   "status": "proved",
   "theorems": [
    "Kms.Props.C66_child_keys_differ"
   ],
   "note": "In lean/Verif/Props/Unwind.lean; concrete cases are examples in the same file."
  },
  {
   "property": "C67",
   "status": "proved",
   "theorems": [
    "Kms.Props.C67_derived_order"
   ],
   "note": "In lean/Verif/Props/Order.lean; concrete cases are examples in the same file."
  },
  {
   "property": "C68",
   "status": "proved",
   "theorems": [
    "Kms.Props.C68_phrase_count"
   ],
   "note": "In lean/Verif/Props/PhraseCount.lean; concrete cases are examples in the same file."
  },
  {
   "property": "C69",
   "status": "proved",
   "theorems": [
    "Kms.Props.C69_text_forms"
   ],
   "note": "In lean/Verif/Props/PhraseCount.lean; concrete cases are examples in the same file."
  },
  {
   "property": "C70",
   "status": "proved",
   "theorems": [
    "Kms.Props.C70_sizes_described"
   ],
   "note": "In lean/Verif/Props/PhraseCount.lean; concrete cases are examples in the same file."
  },
  {
   "property": "C71",
   "status": "proved",
   "theorems": [
    "Kms.Props.C71_seed_inputs_separate"
   ],
   "note": "In lean/Verif/Props/PhraseCount.lean; concrete cases are examples in the same file."
  },
  {
   "property": "C72",
   "status": "proved",
   "theorems": [
    "Kms.Props.C72_text_separates"
   ],
   "note": "In lean/Verif/Props/KeysMore.lean; concrete cases are examples in the same file."
  },
  {
   "property": "C73",
   "status": "proved",
   "theorems": [
    "Kms.Props.C73_message_modulo_n"
   ],
   "note": "In lean/Verif/Props/KeysMore.lean; concrete cases are examples in the same file."
  },
  {
   "property": "C74",
   "status": "proved",
   "theorems": [
    "Kms.Props.C74_watch_only_verifies"
   ],
   "note": "In lean/Verif/Props/KeysMore.lean; concrete cases are examples in the same file."
  },
  {
   "property": "C75",
   "status": "proved",
   "theorems": [
    "Kms.Props.C75_no_panics"
   ],
   "note": "In lean/Verif/Props/KeysMore.lean; concrete cases are examples in the same file."
  },
  {
   "property": "C76",
   "status": "proved",
   "theorems": [
    "Kms.Props.C76_secrets_wiped_on_drop"
   ],
   "note": "In lean/Verif/Props/Wipe.lean; concrete cases are examples in the same file."
  },
  {
   "property": "C77",
   "status": "proved",
   "theorems": [
    "Kms.Props.C77_error_messages"
   ],
   "note": "In lean/Verif/Props/Wipe.lean; concrete cases are examples in the same file."
  },
  {
   "property": "C78",
   "status": "proved",
   "theorems": [
    "Kms.Props.C78_debug_prefix_path"
   ],
   "note": "In lean/Verif/Props/DebugMore.lean; concrete cases are examples in the same file."
  },
  {
   "property": "C79",
   "status": "proved",
   "theorems": [
    "Kms.Props.C79_public_child_failures"
   ],
   "note": "In lean/Verif/Props/Outcomes.lean; concrete cases are examples in the same file."
  },
  {
   "property": "C80",
   "status": "proved",
   "theorems": [
    "Kms.Props.C80_path_first_failure"
   ],
   "note": "In lean/Verif/Props/Outcomes.lean; concrete cases are examples in the same file."
  },
  {
   "property": "C81",
   "status": "proved",
   "theorems": [
    "Kms.Props.C81_reread"
   ],
   "note": "In lean/Verif/Props/Outcomes.lean; concrete cases are examples in the same file."
  },
  {
   "property": "C82",
   "status": "proved",
   "theorems": [
    "Kms.Props.C82_resume"
   ],
   "note": "In lean/Verif/Props/Outcomes.lean; concrete cases are examples in the same file."
  },
  {
   "property": "C83",
   "status": "proved",
   "theorems": [
    "Kms.Props.C83_equality"
   ],
   "note": "In lean/Verif/Props/Outcomes.lean; concrete cases are examples in the same file."
  },
  {
   "property": "C84",
   "status": "proved",
   "theorems": [
    "Kms.Props.C84_shared_wordlists"
   ],
   "note": "In lean/Verif/Props/Lazy.lean; concrete cases are examples in the same file."
  },
  {
   "property": "C85",
   "status": "proved",
   "theorems": [
    "Kms.Props.C85_build_profile"
   ],
   "note": "In lean/Verif/Props/Profile.lean; concrete cases are examples in the same file."
  },
  {
   "property": "C86",
   "status": "proved",
   "theorems": [
    "Kms.Props.C86_overlong_inputs",
    "Kms.Props.C86_long_phrase_accepted",
    "Kms.Props.C86_from_entropy_wrapped",
    "Kms.Props.C86_long_entropy_accepted"
   ],
   "note": "In lean/Verif/Props/Profile.lean and ProfileWrap.lean, where C86_long_phrase_accepted and C86_long_entropy_accepted are concrete cases."
  },
  {
   "property": "C87",
   "status": "proved",
   "theorems": [
    "Kms.Props.C87_base58_profile"
   ],
   "note": "In lean/Verif/Props/Profile.lean; concrete cases are examples in the same file."
  },
  {
   "property": "C88",
   "status": "proved",
   "theorems": [
    "Kms.Props.C88_any_key_type",
    "Kms.Props.C88_secp_instance"
   ],
   "note": "In lean/Verif/Props/GenericKeys.lean; concrete cases are examples in the same file."
  },
  {
   "property": "C89",
   "status": "proved",
   "theorems": [
    "Kms.Props.C89_any_key_text"
   ],
   "note": "In lean/Verif/Props/GenericKeys.lean; concrete cases are examples in the same file."
  },
  {
   "property": "C90",
   "status": "proved",
   "theorems": [
    "Kms.Props.C90_any_key_watch_only"
   ],
   "note": "In lean/Verif/Props/GenericKeys.lean; concrete cases are examples in the same file."
  },
  {
   "property": "C91",
   "status": "proved",
   "theorems": [
    "Kms.Props.C91_left_halves"
   ],
   "note": "In lean/Verif/Props/Tweaks.lean; concrete cases are examples in the same file."
  },
  {
   "property": "C92",
   "status": "proved",
   "theorems": [
    "Kms.Props.C92_any_formatter",
    "Kms.Props.C92_failing_writer"
   ],
   "note": "In lean/Verif/Props/Format.lean; concrete cases are examples in the same file."
  },
  {
   "property": "C93",
   "status": "proved",
   "theorems": [
    "Kms.Props.C93_debug_any_formatter"
   ],
   "note": "In lean/Verif/Props/DebugFormat.lean; concrete cases are examples in the same file."
  },
  {
   "property": "C94",
   "status": "proved",
   "theorems": [
    "Kms.Props.C94_all_word_lists",
    "Kms.Props.C94_all_phrases",
    "Kms.Props.C94_no_features"
   ],
   "note": "In lean/Verif/Props/AllLanguages.lean; concrete cases are examples in the same file."
  },
  {
   "property": "C95",
   "status": "proved",
   "theorems": [
    "Kms.Props.C95_codes_and_detection"
   ],
   "note": "In lean/Verif/Props/AllLanguages.lean; concrete cases are examples in the same file."
  },
  {
   "property": "C96",
   "status": "proved",
   "theorems": [
    "Kms.Props.C96_all_seeds"
   ],
   "note": "In lean/Verif/Props/AllLanguages.lean; concrete cases are examples in the same file."
  },
  {
   "property": "C97",
   "status": "proved",
   "theorems": [
    "Kms.Props.C97_prefix_search"
   ],
   "note": "In lean/Verif/Props/AllLanguages.lean; concrete cases are examples in the same file."
  },
  {
   "property": "C98",
   "status": "proved",
   "theorems": [
    "Kms.Props.C98_freed_memory_is_zero",
    "Kms.Props.C98_buffers_hold_the_values"
   ],
   "note": "In lean/Verif/Props/Heap.lean; concrete cases are examples in the same file."
  },
  {
   "property": "C99",
   "status": "proved",
   "theorems": [
    "Kms.Props.C99_validate_leaves_the_words",
    "Kms.Props.C99_validate_leaves_the_entropy",
    "Kms.Props.C99_from_phrase_leaves_the_words",
    "Kms.Props.C99_from_phrase_leaves_half_the_phrase",
    "Kms.Props.C99_seed_leaves_phrase_and_password"
   ],
   "note": "In lean/Verif/Props/Heap.lean; concrete cases are examples in the same file."
  },
  {
   "property": "C100",
   "status": "proved",
   "theorems": [
    "Kms.Props.C100_fresh_phrases_uniform",
    "Kms.Props.C100_fresh_words_uniform",
    "Kms.Props.C100_random_words"
   ],
   "note": "In lean/Verif/Props/Chance.lean; concrete cases are examples in the same file."
  },
  {
   "property": "C101",
   "status": "proved",
   "theorems": [
    "Kms.Props.C101_master_key",
    "Kms.Props.C101_private_child",
    "Kms.Props.C101_public_child",
    "Kms.Props.C101_path"
   ],
   "note": "In lean/Verif/Props/ChanceKeys.lean; concrete cases are examples in the same file."
  },
  {
   "property": "C102",
   "status": "proved",
   "theorems": [
    "Kms.Props.C102_two_bad_nonces",
    "Kms.Props.C102_first_attempt",
    "Kms.Props.C102_many_attempts"
   ],
   "note": "In lean/Verif/Props/ChanceSign.lean and ChanceSignMany.lean; concrete cases are examples in the same files."
  },
  {
   "property": "C103",
   "status": "proved",
   "theorems": [
    "Kms.Props.C103_paths_separate",
    "Kms.Props.C103_inputs_suffice",
    "Kms.Props.C103_siblings_separate"
   ],
   "note": "In lean/Verif/Props/Collisions.lean; concrete cases are examples in the same file."
  },
  {
   "property": "C104",
   "status": "proved",
   "theorems": [
    "Kms.Props.C104_candidates_differ",
    "Kms.Props.C104_inputs_suffice",
    "Kms.Props.C104_same_r",
    "Kms.Props.C104_reuse_reveals_key"
   ],
   "note": "In lean/Verif/Props/Nonces.lean; concrete cases are examples in the same file."
  },
  {
   "property": "C105",
   "status": "proved",
   "theorems": [
    "Kms.Props.C105_signature_binds"
   ],
   "note": "In lean/Verif/Props/Nonces.lean; concrete cases are examples in the same file."
  },
  {
   "property": "C106",
   "status": "proved",
   "theorems": [
    "Kms.Props.C106_damaged_phrase",
    "Kms.Props.C106_damaged_key"
   ],
   "note": "In lean/Verif/Props/ChanceText.lean; concrete cases are examples in the same file."
  },
  {
   "property": "C107",
   "status": "proved",
   "theorems": [
    "Kms.Props.C107_comparison_contracts"
   ],
   "note": "In lean/Verif/Props/GenericOrder.lean; concrete cases are examples in the same file."
  },
  {
   "property": "C108",
   "status": "proved",
   "theorems": [
    "Kms.Props.C108_debug_errors_and_public_keys"
   ],
   "note": "In lean/Verif/Props/DebugErrors.lean; concrete cases are examples in the same file."
  },
  {
   "property": "C109",
   "status": "proved",
   "theorems": [
    "Kms.Props.C109_reading_is_linear"
   ],
   "note": "In lean/Verif/Props/Cost.lean; concrete cases are examples in the same file."
  },
  {
   "property": "C110",
   "status": "proved",
   "theorems": [
    "Kms.Props.C110_private_child",
    "Kms.Props.C110_public_child",
    "Kms.Props.C110_paths",
    "Kms.Props.C110_other_operations",
    "Kms.Props.C110_transcript",
    "Kms.Props.C110_stateless",
    "Kms.Props.C110_path_sequence"
   ],
   "note": "In lean/Verif/Props/StatefulKeys.lean and StatefulPaths.lean; concrete cases are examples in the same files."
  },
  {
   "property": "C111",
   "status": "proved",
   "theorems": [
    "Kms.Props.C111_rounds_separate",
    "Kms.Props.C111_inputs_suffice"
   ],
   "note": "In lean/Verif/Props/SeedCollisions.lean; concrete cases are examples in the same file."
  },
  {
   "property": "C112",
   "status": "proved",
   "theorems": [
    "Kms.Props.C112_seed_asked_twice",
    "Kms.Props.C112_constant_seed",
    "Kms.Props.C112_path_asks_no_more",
    "Kms.Props.C112_length_not_enforced"
   ],
   "note": "In lean/Verif/Props/SeedType.lean; concrete cases are examples in the same file."
  },
  {
   "property": "C113",
   "status": "proved",
   "theorems": [
    "Kms.Props.C113_normal_form_growth",
    "Kms.Props.C113_from_phrase_steps",
    "Kms.Props.C113_seed_steps",
    "Kms.Props.C113_growth_is_sharp"
   ],
   "note": "In lean/Verif/Props/CostNfkd.lean; concrete cases are examples in the same file."
  },
  {
   "property": "C114",
   "status": "proved",
   "theorems": [
    "Kms.Props.C114_extend_appends_given",
    "Kms.Props.C114_extend_trusted",
    "Kms.Props.C114_extend_with_list"
   ],
   "note": "In lean/Verif/Props/ExtendPath.lean; concrete cases are examples in the same file."
  },
  {
   "property": "C115",
   "status": "proved",
   "theorems": [
    "Kms.Props.C115_same_results",
    "Kms.Props.C115_eq_leaves_zeros",
    "Kms.Props.C115_from_str_leaves_chain_code",
    "Kms.Props.C115_to_string_leaves_key_and_text",
    "Kms.Props.C115_new_leaves_master_key",
    "Kms.Props.C115_derive_child_leaves"
   ],
   "note": "In lean/Verif/Props/KeyMem.lean; concrete cases are examples in the same file."
  },
  {
   "property": "C116",
   "status": "proved",
   "theorems": [
    "Kms.Props.C116_calls_as_if_alone",
    "Kms.Props.C116_all_end"
   ],
   "note": "In lean/Verif/Props/Threads.lean; concrete cases are examples in the same file."
  },
  {
   "property": "C117",
   "status": "proved",
   "theorems": [
    "Kms.Props.C117_comparison_shows_nothing",
    "Kms.Props.C117_derivation_shows_outcome",
    "Kms.Props.C117_derived_eq_shows_first_difference"
   ],
   "note": "In lean/Verif/Props/Leak.lean; concrete cases are examples in the same file."
  },
  {
   "property": "C118",
   "status": "proved",
   "theorems": [
    "Kms.Props.C118_built_on_demand",
    "Kms.Props.C118_in_the_end"
   ],
   "note": "In lean/Verif/Props/Built.lean; concrete cases are examples in the same file."
  },
  {
   "property": "C119",
   "status": "proved",
   "theorems": [
    "Kms.Props.C119_making_shows_the_words",
    "Kms.Props.C119_drawing_shows_the_words",
    "Kms.Props.C119_validating_shows_no_more"
   ],
   "note": "In lean/Verif/Props/LeakMnemonic.lean; concrete cases are examples in the same file."
  },
  {
   "property": "C120",
   "status": "proved",
   "theorems": [
    "Kms.Props.C120_writing_shows_the_text",
    "Kms.Props.C120_reading_shows_the_text",
    "Kms.Props.C120_writing_shows_nothing_else",
    "Kms.Props.C120_reading_shows_nothing_else"
   ],
   "note": "In lean/Verif/Props/LeakText.lean and LeakTextShape.lean; concrete cases are examples in the same files."
  },
  {
   "property": "C121",
   "status": "proved",
   "theorems": [
    "Kms.Props.C121_search_any_list",
    "Kms.Props.C121_search_steps",
    "Kms.Props.C121_detection_steps"
   ],
   "note": "In lean/Verif/Props/CostSearch.lean; concrete cases are examples in the same file."
  },
  {
   "property": "C122",
   "status": "proved",
   "theorems": [
    "Kms.Props.C122_child_number_conversions",
    "Kms.Props.C122_path_conversions",
    "Kms.Props.C122_prefix_conversions",
    "Kms.Props.C122_mnemonic_conversions"
   ],
   "note": "In lean/Verif/Props/Conversions.lean; concrete cases are examples in the same file."
  },
  {
   "property": "C123",
   "status": "proved",
   "theorems": [
    "Kms.Props.C123_held_objects",
    "Kms.Props.C123_panics",
    "Kms.Props.C123_save_restore"
   ],
   "note": "In lean/Verif/Props/Api.lean; concrete cases are examples in the same file."
  },
  {
   "property": "C124",
   "status": "proved",
   "theorems": [
    "Kms.Props.C124_errors_listed",
    "Kms.Props.C124_errors_occur",
    "Kms.Props.C124_never_returned"
   ],
   "note": "In lean/Verif/Props/ApiErrors.lean; concrete cases are examples in the same file."
  },
  {
   "property": "C125",
   "status": "proved",
   "theorems": [
    "Kms.Props.C125_lost_words",
    "Kms.Props.C125_candidates"
   ],
   "note": "In lean/Verif/Props/Recovery.lean; concrete cases are examples in the same file."
  },
  {
   "property": "C126",
   "status": "proved",
   "theorems": [
    "Kms.Props.C126_guess",
    "Kms.Props.C126_repeat"
   ],
   "note": "In lean/Verif/Props/Recovery.lean; concrete cases are examples in the same file."
  },
  {
   "property": "C127",
   "status": "proved",
   "theorems": [
    "Kms.Props.C127_siblings",
    "Kms.Props.C127_masters",
    "Kms.Props.C127_fingerprints"
   ],
   "note": "In lean/Verif/Props/Repeats.lean; concrete cases are examples in the same file."
  },
  {
   "property": "C128",
   "status": "proved",
   "theorems": [
    "Kms.Props.C128_children",
    "Kms.Props.C128_parent_hidden",
    "Kms.Props.C128_public_children",
    "Kms.Props.C128_masters",
    "Kms.Props.C128_tree"
   ],
   "note": "In lean/Verif/Props/KeysUniform.lean; concrete cases are examples in the same file."
  },
  {
   "property": "C129",
   "status": "proved",
   "theorems": [
    "Kms.Props.C129_other_languages_refuse",
    "Kms.Props.C129_chinese_lists_agree",
    "Kms.Props.C129_accepted_in_two",
    "Kms.Props.C129_such_phrases_exist"
   ],
   "note": "In lean/Verif/Props/TwoLanguages.lean; concrete cases are examples in the same file."
  },
  {
   "property": "C130",
   "status": "proved",
   "theorems": [
    "Kms.Props.C130_other_signatures",
    "Kms.Props.C130_mostly_two"
   ],
   "note": "In lean/Verif/Props/Malleability.lean; concrete cases are examples in the same file."
  },
  {
   "property": "C131",
   "status": "proved",
   "theorems": [
    "Kms.Props.C131_transfer",
    "Kms.Props.C131_signatures_carry_over"
   ],
   "note": "In lean/Verif/Props/RelatedKeys.lean; concrete cases are examples in the same file."
  },
  {
   "property": "C132",
   "status": "proved",
   "theorems": [
    "Kms.Props.C132_which_keys",
    "Kms.Props.C132_at_most_four"
   ],
   "note": "In lean/Verif/Props/OtherSigners.lean; concrete cases are examples in the same file."
  },
  {
   "property": "C133",
   "status": "proved",
   "theorems": [
    "Kms.Props.C133_one_kind_of_text",
    "Kms.Props.C133_default_build"
   ],
   "note": "In lean/Verif/Props/TextKinds.lean; concrete cases are examples in the same file."
  },
  {
   "property": "C134",
   "status": "partial",
   "theorems": [
    "Kms.Props.C134_invalid_keys_refused_partial",
    "Kms.Props.C134_invalid_accepted",
    "Kms.Props.C134_made_keys_valid"
   ],
   "note": "Not true of the code in full: a key of depth zero with a parent fingerprint or a child number, and a version that is not one of BIP32's but whose text begins with a letter and prv or pub, are accepted (C134_invalid_accepted). The partial theorem says these are the only invalid keys accepted. In lean/Verif/Props/InvalidKeys.lean; concrete cases are examples in the same file."
  },
  {
   "property": "C135",
   "status": "proved",
   "theorems": [
    "Kms.Props.C135_key_chain_code_depth",
    "Kms.Props.C135_depth_shifts",
    "Kms.Props.C135_any_key_type"
   ],
   "note": "In lean/Verif/Props/Metadata.lean; concrete cases are examples in the same file."
  },
  {
   "property": "C136",
   "status": "proved",
   "theorems": [
    "Kms.Props.C136_texts_of_a_path",
    "Kms.Props.C136_written_text_is_shortest"
   ],
   "note": "In lean/Verif/Props/PathTexts.lean; concrete cases are examples in the same file."
  },
  {
   "property": "C137",
   "status": "proved",
   "theorems": [
    "Kms.Props.C137_append_child",
    "Kms.Props.C137_append_path",
    "Kms.Props.C137_parent_text"
   ],
   "note": "In lean/Verif/Props/PathJoin.lean; concrete cases are examples in the same file."
  }
 ]
}