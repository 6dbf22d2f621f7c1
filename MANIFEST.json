{
 "claims": [
  {
   "property": "C01",
   "status": "proved",
   "theorems": [
    "Bip38.Props.C01_decode_encode",
    "Bip38.Props.C01_decode_encode_bitcoin",
    "Bip38.Props.C01_decode_encode_ripple",
    "Bip38.Props.C01_alphabets",
    "Bip38.Props.C01_encode_injective",
    "Bip38.Props.C01_encode_wellFormed",
    "Bip38.Props.C01_encode_text"
   ],
   "note": ""
  },
  {
   "property": "C02",
   "status": "proved",
   "theorems": [
    "Bip38.Props.C02_encode_decode",
    "Bip38.Props.C02_decode_injective"
   ],
   "note": ""
  },
  {
   "property": "C03",
   "status": "proved",
   "theorems": [
    "Bip38.Props.C03_check_roundtrip",
    "Bip38.Props.C03_check_decode_iff",
    "Bip38.Props.C03_check_decode_error"
   ],
   "note": ""
  },
  {
   "property": "C04",
   "status": "proved",
   "theorems": [
    "Bip38.Props.C04_foreign_character_refuted",
    "Bip38.Props.C04_foreign_collides",
    "Bip38.Props.C04_decode_ascii",
    "Bip38.Props.C04_decode_nonascii",
    "Bip38.Props.C04_leading_foreign"
   ],
   "note": "The naive claim (foreign characters are refused) is false of the code: C04_foreign_character_refuted; the theorems say what happens for every ASCII text."
  },
  {
   "property": "C05",
   "status": "proved",
   "theorems": [
    "Bip38.Props.C05_with_length",
    "Bip38.Props.C05_minimal",
    "Bip38.Props.C05_read_injective",
    "Bip38.Props.C05_digits",
    "Bip38.Props.C05_value"
   ],
   "note": ""
  },
  {
   "property": "C06",
   "status": "proved",
   "theorems": [
    "Bip38.Props.C06_hex_text",
    "Bip38.Props.C06_roundtrip",
    "Bip38.Props.C06_get_bytes_iff",
    "Bip38.Props.C06_get_bytes_error"
   ],
   "note": ""
  },
  {
   "property": "C07",
   "status": "proved",
   "theorems": [
    "Bip38.Props.C07_wif_text",
    "Bip38.Props.C07_wif_roundtrip",
    "Bip38.Props.C07_hex_key",
    "Bip38.Props.C07_wrong_length",
    "Bip38.Props.C07_wrong_type"
   ],
   "note": ""
  },
  {
   "property": "C08",
   "status": "proved",
   "theorems": [
    "Bip38.Props.C08_other_network",
    "Bip38.Props.C08_one_byte",
    "Bip38.Props.C08_library",
    "Bip38.Props.C08_longer_prefix",
    "Bip38.Props.C08_injective"
   ],
   "note": ""
  },
  {
   "property": "C09",
   "status": "proved",
   "theorems": [
    "Bip38.Props.C09_decode_wif_iff",
    "Bip38.Props.C09_any_checksum_accepted",
    "Bip38.Props.C09_wrong_checksum_refuted"
   ],
   "note": "Finding: a wrong checksum is accepted (C09_wrong_checksum_refuted); the statement of the property is what the code does."
  },
  {
   "property": "C10",
   "status": "proved",
   "theorems": [
    "Bip38.Props.C10_any_marker_accepted",
    "Bip38.Props.C10_wrong_marker_refuted"
   ],
   "note": "Finding: a wrong compression marker is accepted (C10_wrong_marker_refuted)."
  },
  {
   "property": "C11",
   "status": "proved",
   "theorems": [
    "Bip38.Props.C11_encrypt",
    "Bip38.Props.C11_create",
    "Bip38.Props.C11_intermediate",
    "Bip38.Props.C11_wif",
    "Bip38.Props.C11_address"
   ],
   "note": ""
  },
  {
   "property": "C12",
   "status": "proved",
   "theorems": [
    "Bip38.Props.C12_address_text",
    "Bip38.Props.C12_address_roundtrip",
    "Bip38.Props.C12_key_forms"
   ],
   "note": ""
  },
  {
   "property": "C13",
   "status": "proved",
   "theorems": [
    "Bip38.Props.C13_decode_iff",
    "Bip38.Props.C13_bad_checksum",
    "Bip38.Props.C13_texts",
    "Bip38.Props.C13_bad_payload"
   ],
   "note": ""
  },
  {
   "property": "C14",
   "status": "proved",
   "theorems": [
    "Bip38.Props.C14_private_key_iff",
    "Bip38.Props.C14_private_key_ok",
    "Bip38.Props.C14_private_key_error"
   ],
   "note": ""
  },
  {
   "property": "C15",
   "status": "proved",
   "theorems": [
    "Bip38.Props.C15_public_key_iff",
    "Bip38.Props.C15_public_key_error",
    "Bip38.Props.C15_public_key_roundtrip",
    "Bip38.Props.C15_denotes_unique",
    "Bip38.Props.C15_private_key_point"
   ],
   "note": ""
  },
  {
   "property": "C16",
   "status": "proved",
   "theorems": [
    "Bip38.Props.C16_mul_is_repeated_addition",
    "Bip38.Props.C16_group",
    "Bip38.Props.C16_curve",
    "Bip38.Props.C16_scalar_mul",
    "Bip38.Props.C16_api",
    "Bip38.Props.C16_order",
    "Bip38.Props.C16_injective",
    "Bip38.Props.C16_surjective"
   ],
   "note": ""
  },
  {
   "property": "C17",
   "status": "proved",
   "theorems": [
    "Bip38.Props.C17_decrypt_encrypt",
    "Bip38.Props.C17_roundtrip_iff",
    "Bip38.Props.C17_refuted"
   ],
   "note": "The unconditional round trip is false (C17_refuted: keys below 2^248 cannot be decrypted); proved: round trip exactly when the key has a non-zero first byte."
  },
  {
   "property": "C18",
   "status": "proved",
   "theorems": [
    "Bip38.Props.C18_encrypt_returns_iff",
    "Bip38.Props.C18_refuted"
   ],
   "note": "The claim that encrypt always returns is false (C18_refuted); proved: it returns exactly when both masked halves have a non-zero first byte."
  },
  {
   "property": "C19",
   "status": "proved",
   "theorems": [
    "Bip38.Props.C19_record"
   ],
   "note": ""
  },
  {
   "property": "C20",
   "status": "proved",
   "theorems": [
    "Bip38.Props.C20_C21_returned_key",
    "Bip38.Props.C40_noEc_iff",
    "Bip38.Props.C40_ec_iff"
   ],
   "note": ""
  },
  {
   "property": "C21",
   "status": "proved",
   "theorems": [
    "Bip38.Props.C20_C21_returned_key"
   ],
   "note": ""
  },
  {
   "property": "C22",
   "status": "proved",
   "theorems": [
    "Bip38.Props.C22_checksum_ignored",
    "Bip38.Props.C22_refuted"
   ],
   "note": "Finding: the checksum of an encrypted WIF is not verified (C22_refuted)."
  },
  {
   "property": "C23",
   "status": "proved",
   "theorems": [
    "Bip38.Props.C23_length",
    "Bip38.Props.C23_prefix",
    "Bip38.Props.C23_flag",
    "Bip38.Props.C23_non_ascii"
   ],
   "note": ""
  },
  {
   "property": "C24",
   "status": "proved",
   "theorems": [
    "Bip38.Props.C24_constructor_iff",
    "Bip38.Props.C24_constructor_errors",
    "Bip38.Props.C24_unknown_network",
    "Bip38.Props.C24_same_choice",
    "Bip38.Props.C24_default_network"
   ],
   "note": ""
  },
  {
   "property": "C25",
   "status": "proved",
   "theorems": [
    "Bip38.Props.C25_nfc"
   ],
   "note": ""
  },
  {
   "property": "C26",
   "status": "proved",
   "theorems": [
    "Bip38.Props.C26_validation",
    "Bip38.Props.C26_salt",
    "Bip38.Props.C26_documented",
    "Bip38.Props.C26_refuted"
   ],
   "note": "As documented it is false: lot 0 with sequence 1 is let through (C26_refuted); the exact set of accepted arguments is proved."
  },
  {
   "property": "C27",
   "status": "proved",
   "theorems": [
    "Bip38.Props.C27_sequence_zero_ignored",
    "Bip38.Props.C27_lot_zero_ignored",
    "Bip38.Props.C27_unusable_code"
   ],
   "note": ""
  },
  {
   "property": "C28",
   "status": "proved",
   "theorems": [
    "Bip38.Props.C28_layout"
   ],
   "note": ""
  },
  {
   "property": "C29",
   "status": "proved",
   "theorems": [
    "Bip38.Props.C29_decrypt_create",
    "Bip38.Props.C29_condition",
    "Bip38.Props.C29_refuted"
   ],
   "note": "The unconditional round trip is false (C29_refuted); proved: exact condition under which decrypt inverts create_new_encrypted_wif."
  },
  {
   "property": "C30",
   "status": "proved",
   "theorems": [
    "Bip38.Props.C30_confirm_create",
    "Bip38.Props.C30_refuted"
   ],
   "note": "The unconditional claim is false (C30_refuted); proved: exact condition under which confirm_code confirms."
  },
  {
   "property": "C31",
   "status": "proved",
   "theorems": [
    "Bip38.Props.C31_lot_sequence",
    "Bip38.Props.C31_reported_pair",
    "Bip38.Props.C31_confirm_pair"
   ],
   "note": ""
  },
  {
   "property": "C32",
   "status": "proved",
   "theorems": [
    "Bip38.Props.C32_long_seed",
    "Bip38.Props.C32_long_seed_lost",
    "Bip38.Props.C32_refuted_short",
    "Bip38.Props.C32_refuted_long"
   ],
   "note": "Finding: seeds of other lengths are accepted and lost (C32_refuted_short, C32_refuted_long)."
  },
  {
   "property": "C33",
   "status": "proved",
   "theorems": [
    "Bip38.Props.C33_seed",
    "Bip38.Props.C33_checksum",
    "Bip38.Props.C33_length",
    "Bip38.Props.C33_type",
    "Bip38.Props.C33_magic",
    "Bip38.Props.C33_factor_point",
    "Bip38.Props.C33_errors",
    "Bip38.Props.C33_returns"
   ],
   "note": ""
  },
  {
   "property": "C34",
   "status": "proved",
   "theorems": [
    "Bip38.Props.C34_tables",
    "Bip38.Props.C34_classes_disjoint",
    "Bip38.Props.C34_decrypt_flag",
    "Bip38.Props.C34_confirm_flag",
    "Bip38.Props.C34_decrypt_reading",
    "Bip38.Props.C34_confirm_reading",
    "Bip38.Props.C34_encrypt_flag",
    "Bip38.Props.C34_create_flag",
    "Bip38.Props.C34_unknown_flag",
    "Bip38.Props.C34_illegal_refuted"
   ],
   "note": "Finding: unknown flag bytes are read as other flags (C34_illegal_refuted); the meaning of all 256 flag bytes is proved."
  },
  {
   "property": "C35",
   "status": "proved",
   "theorems": [
    "Bip38.Props.C35_checksum",
    "Bip38.Props.C35_length",
    "Bip38.Props.C35_prefix",
    "Bip38.Props.C35_iff",
    "Bip38.Props.C35_sound"
   ],
   "note": ""
  },
  {
   "property": "C36",
   "status": "proved",
   "theorems": [
    "Bip38.Props.C36_table",
    "Bip38.Props.C36_proper",
    "Bip38.Props.C36_constructs",
    "Bip38.Props.C36_lookup",
    "Bip38.Props.C36_prefixes",
    "Bip38.Props.C36_names_distinct"
   ],
   "note": ""
  },
  {
   "property": "C37",
   "status": "proved",
   "theorems": [
    "Bip38.Props.C37_alphabet_unused",
    "Bip38.Props.C37_stored",
    "Bip38.Props.C37_ripple_decrypt",
    "Bip38.Props.C37_ripple_create",
    "Bip38.Props.C37_ripple_confirm",
    "Bip38.Props.C37_refuted"
   ],
   "note": "Finding: the alphabet stored by the constructor is never used (C37_refuted for Ripple)."
  },
  {
   "property": "C38",
   "status": "proved",
   "theorems": [
    "Bip38.Props.C38_ripemd160",
    "Bip38.Props.C38_length",
    "Bip38.Props.C38_padding",
    "Bip38.Props.C38_fallback"
   ],
   "note": ""
  },
  {
   "property": "C39",
   "status": "proved",
   "theorems": [
    "Bip38.Props.C39_bytes_shown",
    "Bip38.Props.C39_bytes_printable",
    "Bip38.Props.C39_text",
    "Bip38.Props.C39_message",
    "Bip38.Props.C39_detail",
    "Bip38.Props.C39_expected",
    "Bip38.Props.C39_plain",
    "Bip38.Props.C39_hierarchy"
   ],
   "note": ""
  },
  {
   "property": "C40",
   "status": "proved",
   "theorems": [
    "Bip38.Props.C40_confirm_errors",
    "Bip38.Props.C40_noEc_iff",
    "Bip38.Props.C40_ec_iff",
    "Bip38.Props.C40_decrypt_errors"
   ],
   "note": ""
  },
  {
   "property": "C41",
   "status": "proved",
   "theorems": [
    "Bip38.Props.C41_other_network"
   ],
   "note": ""
  },
  {
   "property": "C42",
   "status": "proved",
   "theorems": [
    "Bip38.Props.C42_point_from_bytes_unchecked",
    "Bip38.Props.C42_point_on_curve_refuted",
    "Bip38.Props.C42_from_coordinates",
    "Bip38.Props.C42_point_roundtrip"
   ],
   "note": "Finding: points off the curve are accepted by Point.from_bytes (C42_point_on_curve_refuted)."
  },
  {
   "property": "C43",
   "status": "proved",
   "theorems": [
    "Bip38.Props.C43_add_group",
    "Bip38.Props.C43_mul_laws",
    "Bip38.Props.C43_mul_is_repeated_addition",
    "Bip38.Props.C43_mul_eq_iff"
   ],
   "note": ""
  },
  {
   "property": "C44",
   "status": "proved",
   "theorems": [
    "Bip38.Props.C44_from_point_iff",
    "Bip38.Props.C44_roundtrip",
    "Bip38.Props.C44_from_point_errors",
    "Bip38.Props.C44_lengths"
   ],
   "note": ""
  },
  {
   "property": "C45",
   "status": "proved",
   "theorems": [
    "Bip38.Props.C45_old_raw",
    "Bip38.Props.C45_old_from_bytes",
    "Bip38.Props.C45_old_compressed_refuted"
   ],
   "note": "Finding: on old ecdsa releases Point.from_bytes never reads the compressed form that raw_encoded writes (C45_old_compressed_refuted)."
  },
  {
   "property": "C46",
   "status": "proved",
   "theorems": [
    "Bip38.Props.C46_seed_omitted",
    "Bip38.Props.C46_seed_given",
    "Bip38.Props.C46_salt_omitted",
    "Bip38.Props.C46_salt_given",
    "Bip38.Props.C46_hex"
   ],
   "note": ""
  },
  {
   "property": "C47",
   "status": "proved",
   "theorems": [
    "Bip38.Props.C47_auto_count",
    "Bip38.Props.C47_signed_auto",
    "Bip38.Props.C47_unsigned_negative",
    "Bip38.Props.C47_negative_count"
   ],
   "note": ""
  },
  {
   "property": "C48",
   "status": "proved",
   "theorems": [
    "Bip38.Props.C48_text",
    "Bip38.Props.C48_get_bytes",
    "Bip38.Props.C48_utf8",
    "Bip38.Props.C48_reverse"
   ],
   "note": ""
  },
  {
   "property": "C49",
   "status": "proved",
   "theorems": [
    "Bip38.Props.C49_unknown_network",
    "Bip38.Props.C49_readers_agree",
    "Bip38.Props.C49_any_prefix",
    "Bip38.Props.C49_negative_prefix",
    "Bip38.Props.C49_key_argument",
    "Bip38.Props.C49_decode_errors"
   ],
   "note": ""
  },
  {
   "property": "C50",
   "status": "proved",
   "theorems": [
    "Bip38.Props.C50_values",
    "Bip38.Props.C50_arguments",
    "Bip38.Props.C50_lengths"
   ],
   "note": ""
  },
  {
   "property": "C51",
   "status": "proved",
   "theorems": [
    "Bip38.Props.C51_same_key",
    "Bip38.Props.C51_injective"
   ],
   "note": ""
  },
  {
   "property": "C52",
   "status": "proved",
   "theorems": [
    "Bip38.Props.C52_seed_injective"
   ],
   "note": ""
  },
  {
   "property": "C53",
   "status": "proved",
   "theorems": [
    "Bip38.Props.C53_reencrypt"
   ],
   "note": ""
  },
  {
   "property": "C54",
   "status": "proved",
   "theorems": [
    "Bip38.Props.C54_address_injective",
    "Bip38.Props.C54_serialisation_injective"
   ],
   "note": ""
  },
  {
   "property": "C55",
   "status": "proved",
   "theorems": [
    "Bip38.Props.C55_decrypt_detail",
    "Bip38.Props.C55_confirm_detail"
   ],
   "note": ""
  },
  {
   "property": "C56",
   "status": "proved",
   "theorems": [
    "Bip38.Props.C56_same_prefixes",
    "Bip38.Props.C56_same_address_prefix"
   ],
   "note": ""
  },
  {
   "property": "C57",
   "status": "proved",
   "theorems": [
    "Bip38.Props.C57_recreate"
   ],
   "note": ""
  },
  {
   "property": "C58",
   "status": "proved",
   "theorems": [
    "Bip38.Props.C58_wif_networks",
    "Bip38.Props.C58_address_networks"
   ],
   "note": ""
  },
  {
   "property": "C59",
   "status": "proved",
   "theorems": [
    "Bip38.Props.C59_complete",
    "Bip38.Props.C59_address",
    "Bip38.Props.C59_wif"
   ],
   "note": ""
  },
  {
   "property": "C60",
   "status": "proved",
   "theorems": [
    "Bip38.Props.C60_encrypt"
   ],
   "note": ""
  },
  {
   "property": "C61",
   "status": "proved",
   "theorems": [
    "Bip38.Props.C61_decrypt_elsewhere",
    "Bip38.Props.C61_confirm_elsewhere"
   ],
   "note": ""
  },
  {
   "property": "C62",
   "status": "proved",
   "theorems": [
    "Bip38.Props.C62_salt_prefix",
    "Bip38.Props.C62_determines"
   ],
   "note": ""
  },
  {
   "property": "C63",
   "status": "proved",
   "theorems": [
    "Bip38.Props.C63_confirmation_injective"
   ],
   "note": ""
  },
  {
   "property": "C64",
   "status": "proved",
   "theorems": [
    "Bip38.Props.C64_decrypt_standard",
    "Bip38.Props.C64_decrypt_standard_ec",
    "Bip38.Props.C64_confirm_standard"
   ],
   "note": ""
  },
  {
   "property": "C65",
   "status": "proved",
   "theorems": [
    "Bip38.Props.C65_created_standard"
   ],
   "note": ""
  },
  {
   "property": "C66",
   "status": "proved",
   "theorems": [
    "Bip38.Props.C66_malformed",
    "Bip38.Props.C66_noEc",
    "Bip38.Props.C66_ec"
   ],
   "note": ""
  },
  {
   "property": "C67",
   "status": "proved",
   "theorems": [
    "Bip38.Props.C67_malformed",
    "Bip38.Props.C67_confirm"
   ],
   "note": ""
  },
  {
   "property": "C68",
   "status": "proved",
   "theorems": [
    "Bip38.Props.C68_create",
    "Bip38.Props.C68_refused",
    "Bip38.Props.C68_refused_point"
   ],
   "note": ""
  },
  {
   "property": "C69",
   "status": "proved",
   "theorems": [
    "Bip38.Props.C69_intermediate",
    "Bip38.Props.C69_complete"
   ],
   "note": ""
  },
  {
   "property": "C70",
   "status": "proved",
   "theorems": [
    "Bip38.Props.C70_encrypt",
    "Bip38.Props.C70_decrypt",
    "Bip38.Props.C70_confirm",
    "Bip38.Props.C70_create",
    "Bip38.Props.C70_intermediate"
   ],
   "note": ""
  },
  {
   "property": "C71",
   "status": "proved",
   "theorems": [
    "Bip38.Props.C71_step",
    "Bip38.Props.C71_history",
    "Bip38.Props.C71_wif",
    "Bip38.Props.C71_encrypted",
    "Bip38.Props.C71_canonical",
    "Bip38.Props.C71_path_independent",
    "Bip38.Props.C71_returned_large",
    "Bip38.Props.C71_reencrypt",
    "Bip38.Props.C71_rekeyed"
   ],
   "note": ""
  },
  {
   "property": "C72",
   "status": "proved",
   "theorems": [
    "Bip38.Props.C72_ensure_bytes",
    "Bip38.Props.C72_ensure_utf8",
    "Bip38.Props.C72_ensure_invalid",
    "Bip38.Props.C72_ensure_other",
    "Bip38.Props.C72_decode",
    "Bip38.Props.C72_encode"
   ],
   "note": ""
  },
  {
   "property": "C73",
   "status": "proved",
   "theorems": [
    "Bip38.Props.C73_text",
    "Bip38.Props.C73_no_text",
    "Bip38.Props.C73_create",
    "Bip38.Props.C73_decode",
    "Bip38.Props.C73_encrypt_passphrase",
    "Bip38.Props.C73_decrypt_passphrase",
    "Bip38.Props.C73_confirm_passphrase",
    "Bip38.Props.C73_intermediate_passphrase",
    "Bip38.Props.C73_never"
   ],
   "note": ""
  },
  {
   "property": "C74",
   "status": "proved",
   "theorems": [
    "Bip38.Props.C74_integers",
    "Bip38.Props.C74_one_missing",
    "Bip38.Props.C74_ignored",
    "Bip38.Props.C74_used",
    "Bip38.Props.C74_text",
    "Bip38.Props.C74_text_zero"
   ],
   "note": ""
  },
  {
   "property": "C75",
   "status": "proved",
   "theorems": [
    "Bip38.Props.C75_isolated",
    "Bip38.Props.C75_constructed",
    "Bip38.Props.C75_attributes",
    "Bip38.Props.C75_not_listed",
    "Bip38.Props.C75_removed",
    "Bip38.Props.C75_class_changed",
    "Bip38.Props.C75_network_assigned",
    "Bip38.Props.C75_answers",
    "Bip38.Props.C75_assigned"
   ],
   "note": ""
  },
  {
   "property": "C76",
   "status": "proved",
   "theorems": [
    "Bip38.Props.C76_text_or_false",
    "Bip38.Props.C76_refused",
    "Bip38.Props.C76_constructor",
    "Bip38.Props.C76_constructor_text",
    "Bip38.Props.C76_create_type",
    "Bip38.Props.C76_wif_text",
    "Bip38.Props.C76_wif_type",
    "Bip38.Props.C76_lookup",
    "Bip38.Props.C76_public_key_type"
   ],
   "note": "Finding: every public_key_type other than \"compressed\" silently means uncompressed (C76_public_key_type)."
  },
  {
   "property": "C77",
   "status": "proved",
   "theorems": [
    "Bip38.Props.C77_base58",
    "Bip38.Props.C77_constructor",
    "Bip38.Props.C77_wif",
    "Bip38.Props.C77_address",
    "Bip38.Props.C77_methods"
   ],
   "note": ""
  },
  {
   "property": "C78",
   "status": "proved",
   "theorems": [
    "Bip38.Props.C78_undisturbed",
    "Bip38.Props.C78_finishes",
    "Bip38.Props.C78_network_assigned",
    "Bip38.Props.C78_class_changed",
    "Bip38.Props.C78_encrypt_refuted",
    "Bip38.Props.C78_decrypt_refuted"
   ],
   "note": "Finding: not true of encrypt and decrypt when the class is changed during the call (C78_encrypt_refuted, C78_decrypt_refuted)."
  },
  {
   "property": "C79",
   "status": "proved",
   "theorems": [
    "Bip38.Props.C79_encrypt",
    "Bip38.Props.C79_decrypt",
    "Bip38.Props.C79_intermediate",
    "Bip38.Props.C79_create",
    "Bip38.Props.C79_confirm",
    "Bip38.Props.C79_quiet",
    "Bip38.Props.C79_ripemd160_refused"
   ],
   "note": "The RIPEMD-160 finding is C79_ripemd160_refused; C79_quiet links the two models."
  },
  {
   "property": "C80",
   "status": "proved",
   "theorems": [
    "Bip38.Props.C80_encrypt",
    "Bip38.Props.C80_decrypt",
    "Bip38.Props.C80_intermediate",
    "Bip38.Props.C80_create",
    "Bip38.Props.C80_confirm",
    "Bip38.Props.C80_unknown_network",
    "Bip38.Props.C80_encrypt_bad",
    "Bip38.Props.C80_decrypt_bad",
    "Bip38.Props.C80_confirm_bad",
    "Bip38.Props.C80_create_bad",
    "Bip38.Props.C80_intermediate_bad",
    "Bip38.Props.C80_guess_noEc",
    "Bip38.Props.C80_guess_ec",
    "Bip38.Props.C80_guess_confirm"
   ],
   "note": ""
  },
  {
   "property": "C81",
   "status": "proved",
   "theorems": [
    "Bip38.Props.C81_get_bytes",
    "Bip38.Props.C81_get_bytes_text",
    "Bip38.Props.C81_bytes_reverse",
    "Bip38.Props.C81_bytes_to_string",
    "Bip38.Props.C81_hex_roundtrip",
    "Bip38.Props.C81_bytes_to_integer",
    "Bip38.Props.C81_integer_to_bytes",
    "Bip38.Props.C81_integer_roundtrip",
    "Bip38.Props.C81_crypto",
    "Bip38.Props.C81_crypto_bytes",
    "Bip38.Props.C81_error_text",
    "Bip38.Props.C81_characters_exceptions",
    "Bip38.Props.C81_characters_const",
    "Bip38.Props.C81_characters_utils",
    "Bip38.Props.C81_characters_crypto"
   ],
   "note": ""
  },
  {
   "property": "C82",
   "status": "proved",
   "theorems": [
    "Bip38.Props.C82_encode",
    "Bip38.Props.C82_decode",
    "Bip38.Props.C82_roundtrip",
    "Bip38.Props.C82_read",
    "Bip38.Props.C82_encode_other",
    "Bip38.Props.C82_bad_alphabets",
    "Bip38.Props.C82_characters_base58"
   ],
   "note": ""
  },
  {
   "property": "C83",
   "status": "proved",
   "theorems": [
    "Bip38.Props.C83_ripemd160",
    "Bip38.Props.C83_fallback",
    "Bip38.Props.C83_characters_ripemd160"
   ],
   "note": ""
  },
  {
   "property": "C84",
   "status": "proved",
   "theorems": [
    "Bip38.Props.C84_private_key",
    "Bip38.Props.C84_public_key",
    "Bip38.Props.C84_key_methods",
    "Bip38.Props.C84_point",
    "Bip38.Props.C84_characters_point",
    "Bip38.Props.C84_characters_public_key",
    "Bip38.Props.C84_characters_private_key"
   ],
   "note": ""
  },
  {
   "property": "C85",
   "status": "proved",
   "theorems": [
    "Bip38.Props.C85_characters_wif",
    "Bip38.Props.C85_characters_p2pkh_address",
    "Bip38.Props.C85_wif",
    "Bip38.Props.C85_wif_roundtrip",
    "Bip38.Props.C85_wif_unchecked",
    "Bip38.Props.C85_address",
    "Bip38.Props.C85_address_roundtrip"
   ],
   "note": ""
  },
  {
   "property": "C86",
   "status": "proved",
   "theorems": [
    "Bip38.Props.C86_constructor",
    "Bip38.Props.C86_intermediate_code",
    "Bip38.Props.C86_encrypt",
    "Bip38.Props.C86_create_new_encrypted_wif",
    "Bip38.Props.C86_confirm_code",
    "Bip38.Props.C86_decrypt",
    "Bip38.Props.C86_characters_bip38",
    "Bip38.Props.C86_characters_program",
    "Bip38.Props.C86_characters"
   ],
   "note": ""
  },
  {
   "property": "C87",
   "status": "proved",
   "theorems": [
    "Bip38.Props.C87_bip38",
    "Bip38.Props.C87_wif",
    "Bip38.Props.C87_encodings",
    "Bip38.Props.C87_keys",
    "Bip38.Props.C87_error",
    "Bip38.Props.C87_address",
    "Bip38.Props.C87_unique"
   ],
   "note": ""
  },
  {
   "property": "C88",
   "status": "proved",
   "theorems": [
    "Bip38.Props.C88_constructor",
    "Bip38.Props.C88_methods",
    "Bip38.Props.C88_intermediate_code"
   ],
   "note": ""
  },
  {
   "property": "C89",
   "status": "proved",
   "theorems": [
    "Bip38.Props.C89_roundtrip",
    "Bip38.Props.C89_ec"
   ],
   "note": ""
  },
  {
   "property": "C90",
   "status": "proved",
   "theorems": [
    "Bip38.Props.C90_encrypt",
    "Bip38.Props.C90_create",
    "Bip38.Props.C90_roundtrip"
   ],
   "note": ""
  },
  {
   "property": "C91",
   "status": "proved",
   "theorems": [
    "Bip38.Props.C91_methods",
    "Bip38.Props.C91_intermediate_code",
    "Bip38.Props.C91_numbers",
    "Bip38.Props.C91_decode",
    "Bip38.Props.C91_passphrase",
    "Bip38.Props.C91_texts",
    "Bip38.Props.C91_no_network",
    "Bip38.Props.C91_network",
    "Bip38.Props.C91_constructor",
    "Bip38.Props.C91_wif_type",
    "Bip38.Props.C91_create_type",
    "Bip38.Props.C91_wif_network",
    "Bip38.Props.C91_public_key_type"
   ],
   "note": ""
  },
  {
   "property": "C92",
   "status": "proved",
   "theorems": [
    "Bip38.Props.C92_utils",
    "Bip38.Props.C92_base58",
    "Bip38.Props.C92_crypto",
    "Bip38.Props.C92_points",
    "Bip38.Props.C92_keys",
    "Bip38.Props.C92_wif",
    "Bip38.Props.C92_addresses",
    "Bip38.Props.C92_bip38",
    "Bip38.Props.C92_no_fault",
    "Bip38.Props.C92_value",
    "Bip38.Props.C92_exception",
    "Bip38.Props.C92_characters_exceptions",
    "Bip38.Props.C92_characters_const",
    "Bip38.Props.C92_characters_utils",
    "Bip38.Props.C92_characters_crypto",
    "Bip38.Props.C92_characters_base58",
    "Bip38.Props.C92_characters_ripemd160",
    "Bip38.Props.C92_characters_point",
    "Bip38.Props.C92_characters_public_key",
    "Bip38.Props.C92_characters_private_key",
    "Bip38.Props.C92_characters_wif",
    "Bip38.Props.C92_characters_p2pkh_address",
    "Bip38.Props.C92_characters_bip38",
    "Bip38.Props.C92_characters"
   ],
   "note": ""
  },
  {
   "property": "C93",
   "status": "proved",
   "theorems": [
    "Bip38.Props.C93_utils",
    "Bip38.Props.C93_base58",
    "Bip38.Props.C93_crypto",
    "Bip38.Props.C93_points",
    "Bip38.Props.C93_keys",
    "Bip38.Props.C93_wif",
    "Bip38.Props.C93_addresses",
    "Bip38.Props.C93_bip38",
    "Bip38.Props.C93_none",
    "Bip38.Props.C93_no_random"
   ],
   "note": ""
  },
  {
   "property": "C94",
   "status": "proved",
   "theorems": [
    "Bip38.Props.C94_utils",
    "Bip38.Props.C94_base58",
    "Bip38.Props.C94_crypto",
    "Bip38.Props.C94_points",
    "Bip38.Props.C94_keys",
    "Bip38.Props.C94_wif",
    "Bip38.Props.C94_addresses",
    "Bip38.Props.C94_bip38",
    "Bip38.Props.C94_scrypt"
   ],
   "note": ""
  },
  {
   "property": "C95",
   "status": "proved",
   "theorems": [
    "Bip38.Props.C95_base58",
    "Bip38.Props.C95_crypto",
    "Bip38.Props.C95_keys",
    "Bip38.Props.C95_wif",
    "Bip38.Props.C95_bip38",
    "Bip38.Props.C95_exactly",
    "Bip38.Props.C95_stretched",
    "Bip38.Props.C95_encrypt"
   ],
   "note": ""
  },
  {
   "property": "C96",
   "status": "proved",
   "theorems": [
    "Bip38.Import.C96_import",
    "Bip38.Import.C96_only_faults",
    "Bip38.Import.C96_all_loaded",
    "Bip38.Import.C96_one_object",
    "Bip38.Import.C96_except",
    "Bip38.Import.C96_kept",
    "Bip38.Import.C96_reads",
    "Bip38.Import.C96_links",
    "Bip38.Import.C96_public",
    "Bip38.Props.C96_characters",
    "Bip38.Props.C96_characters_names"
   ],
   "note": ""
  },
  {
   "property": "C97",
   "status": "proved",
   "theorems": [
    "Bip38.Props.C97_classes",
    "Bip38.Props.C97_attributes",
    "Bip38.Props.C97_base",
    "Bip38.Props.C97_subclass",
    "Bip38.Props.C97_others",
    "Bip38.Props.C97_derived",
    "Bip38.Props.C97_characters"
   ],
   "note": ""
  },
  {
   "property": "C98",
   "status": "proved",
   "theorems": [
    "Bip38.Props.C98_utils",
    "Bip38.Props.C98_base58",
    "Bip38.Props.C98_crypto",
    "Bip38.Props.C98_points",
    "Bip38.Props.C98_keys",
    "Bip38.Props.C98_wif",
    "Bip38.Props.C98_addresses",
    "Bip38.Props.C98_bip38",
    "Bip38.Props.C98_value",
    "Bip38.Props.C98_exception",
    "Bip38.Props.C98_hash_failure_as_passphrase",
    "Bip38.Props.C98_hash_failure_as_code"
   ],
   "note": ""
  },
  {
   "property": "C99",
   "status": "proved",
   "theorems": [
    "Bip38.Props.C99_text_encrypt",
    "Bip38.Props.C99_text_decrypt",
    "Bip38.Props.C99_text_confirm",
    "Bip38.Props.C99_text_create",
    "Bip38.Props.C99_text_intermediate",
    "Bip38.Props.C99_text_parts",
    "Bip38.Props.C99_text_encrypt_secret",
    "Bip38.Props.C99_text_decrypt_secret",
    "Bip38.Props.C99_text_confirm_secret",
    "Bip38.Props.C99_text_intermediate_secret",
    "Bip38.Props.C99_text_create_secret",
    "Bip38.Props.C99_encrypt",
    "Bip38.Props.C99_decrypt",
    "Bip38.Props.C99_confirm",
    "Bip38.Props.C99_create",
    "Bip38.Props.C99_intermediate",
    "Bip38.Props.C99_encrypt_secret",
    "Bip38.Props.C99_decrypt_secret",
    "Bip38.Props.C99_confirm_secret",
    "Bip38.Props.C99_create_secret",
    "Bip38.Props.C99_intermediate_secret"
   ],
   "note": ""
  }
 ]
}