{"i": 0, "file": "Model/Utils.lean", "definition": "getBytes", "old": "| .bytes b => .ok b\n    | .str s", "new": "| .bytes b => .ok (b.dropWhile (· == 0))\n    | .str s", "claims": ["C06"], "desc": "leading zero bytes dropped", "ok": false, "fails": ["C57_recreate", "C62_salt_prefix", "example@422", "getBytes_bytes", "supplies_iff", "unit_create", "unit_decrypt"], "files": {"Verif/Lemmas/Utils.lean": ["getBytes_bytes"], "Verif/Lemmas/Supplies.lean": ["supplies_iff"], "Verif/Props/EcExamples.lean": ["unit_create", "unit_decrypt"], "Verif/Props/InverseEc.lean": ["C57_recreate"], "Verif/Props/Outcome.lean": ["C62_salt_prefix", "example@422"]}, "broken": ["C07_hex_key", "C07_wif_roundtrip", "C07_wif_text", "C07_wrong_length", "C08_injective", "C08_other_network", "C11_create", "C11_encrypt", "C11_intermediate", "C11_wif", "C12_address_roundtrip", "C12_address_text", "C12_key_forms", "C17_decrypt_encrypt", "C17_refuted", "C17_roundtrip_iff", "C18_encrypt_returns_iff", "C18_refuted", "C19_record", "C20_C21_returned_key", "C22_refuted", "C26_refuted", "C26_salt", "C26_validation", "C27_lot_zero_ignored", "C27_sequence_zero_ignored", "C27_unusable_code", "C28_layout", "C29_decrypt_create", "C29_refuted", "C30_confirm_create", "C30_refuted", "C31_confirm_pair", "C31_lot_sequence", "C31_reported_pair", "C32_long_seed_lost", "C32_refuted_long", "C32_refuted_short", "C33_checksum", "C33_errors", "C33_factor_point", "C33_length", "C33_magic", "C33_returns", "C33_seed", "C33_type", "C34_confirm_flag", "C34_confirm_reading", "C34_create_flag", "C34_decrypt_flag", "C34_decrypt_reading", "C34_encrypt_flag", "C34_illegal_refuted", "C34_unknown_flag", "C35_iff", "C35_sound", "C37_refuted", "C37_ripple_confirm", "C37_ripple_create", "C37_ripple_decrypt", "C38_fallback", "C40_confirm_errors", "C40_decrypt_errors", "C40_ec_iff", "C40_noEc_iff", "C41_other_network", "C46_hex", "C46_salt_omitted", "C46_seed_omitted", "C48_get_bytes", "C49_any_prefix", "C49_key_argument", "C49_negative_prefix", "C50_arguments", "C50_lengths", "C50_values", "C51_injective", "C52_seed_injective", "C53_reencrypt", "C54_address_injective", "C57_recreate", "C58_address_networks", "C58_wif_networks", "C59_address", "C59_wif", "C60_encrypt", "C61_confirm_elsewhere", "C61_decrypt_elsewhere", "C62_determines", "C62_salt_prefix", "C63_confirmation_injective"], "hit": [], "direct": [], "rounds": 5, "note": ""}
{"i": 1, "file": "Model/Base58.lean", "definition": "bitcoinAlphabet", "old": "HJKLMN", "new": "HJKLNM", "claims": ["C01"], "desc": "two letters swapped in the alphabet", "ok": false, "fails": ["C01_alphabets", "bitcoin_selects", "bitcoin_selects_testnet"], "files": {"Verif/Props/Encoding.lean": ["C01_alphabets"], "Verif/Spec/Toy.lean": ["bitcoin_selects", "bitcoin_selects_testnet", "bitcoin_selects", "bitcoin_selects_testnet"]}, "broken": ["C01_alphabets"], "hit": ["C01"], "direct": ["C01"], "rounds": 2, "note": "loop bitcoin_selects_testnet"}
{"i": 2, "file": "Model/Crypto.lean", "definition": "scryptPassphrase", "old": "(utf8 (P.nfc passphrase))", "new": "(utf8 passphrase)", "claims": ["C25"], "desc": "no NFC normalisation", "ok": false, "fails": ["C25_nfc", "intermediate_lot", "intermediate_noLot", "passFactorOf_eq", "stretch_eq"], "files": {"Verif/Lemmas/Bip38.lean": ["stretch_eq"], "Verif/Lemmas/Ec.lean": ["passFactorOf_eq"], "Verif/Lemmas/Intermediate.lean": ["intermediate_lot", "intermediate_noLot"], "Verif/Props/Select.lean": ["C25_nfc"]}, "broken": ["C11_encrypt", "C11_intermediate", "C17_decrypt_encrypt", "C17_refuted", "C17_roundtrip_iff", "C18_encrypt_returns_iff", "C18_refuted", "C19_record", "C20_C21_returned_key", "C22_refuted", "C25_nfc", "C26_refuted", "C26_validation", "C27_unusable_code", "C28_layout", "C29_decrypt_create", "C29_refuted", "C30_confirm_create", "C30_refuted", "C31_confirm_pair", "C31_lot_sequence", "C31_reported_pair", "C32_long_seed_lost", "C32_refuted_long", "C32_refuted_short", "C34_confirm_flag", "C34_confirm_reading", "C34_decrypt_flag", "C34_decrypt_reading", "C34_encrypt_flag", "C34_illegal_refuted", "C34_unknown_flag", "C35_iff", "C35_sound", "C37_refuted", "C37_ripple_confirm", "C37_ripple_decrypt", "C40_confirm_errors", "C40_decrypt_errors", "C40_ec_iff", "C40_noEc_iff", "C41_other_network", "C51_injective", "C53_reencrypt", "C57_recreate", "C60_encrypt", "C61_confirm_elsewhere", "C61_decrypt_elsewhere", "C62_determines"], "hit": ["C25"], "direct": ["C25"], "rounds": 5, "note": ""}
{"i": 3, "file": "Model/Wif.lean", "definition": "lookupNet", "old": "raise .keyError network", "new": "raise .networkError network", "claims": ["C49"], "desc": "wrong exception class for an unknown network in the WIF functions", "ok": false, "fails": ["C49_unknown_network"], "files": {"Verif/Props/WifMore.lean": ["C49_unknown_network"]}, "broken": ["C49_unknown_network"], "hit": ["C49"], "direct": ["C49"], "rounds": 2, "note": ""}
{"i": 4, "file": "Model/Bip38.lean", "definition": "BIP38.selectNetwork", "old": "if n = \"\" then self.network else n", "new": "n", "claims": ["C24"], "desc": "empty string not treated as absent", "ok": false, "fails": ["Spec.Selects.select", "chosen_eq"], "files": {"Verif/Lemmas/Bip38.lean": ["Spec.Selects.select"], "Verif/Props/Select.lean": ["chosen_eq"]}, "broken": ["C11_create", "C11_encrypt", "C17_decrypt_encrypt", "C17_refuted", "C17_roundtrip_iff", "C18_encrypt_returns_iff", "C18_refuted", "C19_record", "C20_C21_returned_key", "C22_refuted", "C23_flag", "C23_length", "C23_non_ascii", "C23_prefix", "C24_same_choice", "C24_unknown_network", "C27_unusable_code", "C29_decrypt_create", "C29_refuted", "C30_confirm_create", "C30_refuted", "C31_confirm_pair", "C31_lot_sequence", "C31_reported_pair", "C32_long_seed_lost", "C32_refuted_long", "C32_refuted_short", "C33_checksum", "C33_errors", "C33_factor_point", "C33_length", "C33_magic", "C33_returns", "C33_seed", "C33_type", "C34_confirm_flag", "C34_confirm_reading", "C34_create_flag", "C34_decrypt_flag", "C34_decrypt_reading", "C34_encrypt_flag", "C34_illegal_refuted", "C34_unknown_flag", "C35_checksum", "C35_iff", "C35_length", "C35_prefix", "C35_sound", "C37_refuted", "C37_ripple_confirm", "C37_ripple_create", "C37_ripple_decrypt", "C40_confirm_errors", "C40_decrypt_errors", "C40_ec_iff", "C40_noEc_iff", "C41_other_network", "C51_injective", "C51_same_key", "C52_seed_injective", "C53_reencrypt", "C56_same_address_prefix", "C56_same_prefixes", "C57_recreate", "C60_encrypt", "C61_confirm_elsewhere", "C61_decrypt_elsewhere", "C63_confirmation_injective"], "hit": ["C24"], "direct": [], "rounds": 3, "note": ""}
{"i": 5, "file": "Model/Bip38.lean", "definition": "BIP38.selectNetwork", "old": "| none => self.network", "new": "| none => \"mainnet\"", "claims": ["C24"], "desc": "default network hard-coded", "ok": false, "fails": ["Spec.Selects.select", "chosen_eq"], "files": {"Verif/Lemmas/Bip38.lean": ["Spec.Selects.select"], "Verif/Props/Select.lean": ["chosen_eq"]}, "broken": ["C11_create", "C11_encrypt", "C17_decrypt_encrypt", "C17_refuted", "C17_roundtrip_iff", "C18_encrypt_returns_iff", "C18_refuted", "C19_record", "C20_C21_returned_key", "C22_refuted", "C23_flag", "C23_length", "C23_non_ascii", "C23_prefix", "C24_same_choice", "C24_unknown_network", "C27_unusable_code", "C29_decrypt_create", "C29_refuted", "C30_confirm_create", "C30_refuted", "C31_confirm_pair", "C31_lot_sequence", "C31_reported_pair", "C32_long_seed_lost", "C32_refuted_long", "C32_refuted_short", "C33_checksum", "C33_errors", "C33_factor_point", "C33_length", "C33_magic", "C33_returns", "C33_seed", "C33_type", "C34_confirm_flag", "C34_confirm_reading", "C34_create_flag", "C34_decrypt_flag", "C34_decrypt_reading", "C34_encrypt_flag", "C34_illegal_refuted", "C34_unknown_flag", "C35_checksum", "C35_iff", "C35_length", "C35_prefix", "C35_sound", "C37_refuted", "C37_ripple_confirm", "C37_ripple_create", "C37_ripple_decrypt", "C40_confirm_errors", "C40_decrypt_errors", "C40_ec_iff", "C40_noEc_iff", "C41_other_network", "C51_injective", "C51_same_key", "C52_seed_injective", "C53_reencrypt", "C56_same_address_prefix", "C56_same_prefixes", "C57_recreate", "C60_encrypt", "C61_confirm_elsewhere", "C61_decrypt_elsewhere", "C63_confirmation_injective"], "hit": ["C24"], "direct": [], "rounds": 3, "note": ""}
{"i": 6, "file": "Model/Bip38.lean", "definition": "encrypt", "old": "raiseIf (network ∉ self.networks) .networkError \"Wrong network type\"\n  let wifType ← getWifType", "new": "let wifType ← getWifType", "claims": ["C24"], "desc": "network not validated", "ok": false, "fails": ["C24_unknown_network", "C60_encrypt", "encrypt_reads"], "files": {"Verif/Props/NoEc.lean": ["encrypt_reads"], "Verif/Props/Select.lean": ["C24_unknown_network"], "Verif/Props/Outcome.lean": ["C60_encrypt"]}, "broken": ["C11_encrypt", "C17_decrypt_encrypt", "C17_refuted", "C17_roundtrip_iff", "C19_record", "C22_refuted", "C24_unknown_network", "C34_encrypt_flag", "C37_refuted", "C41_other_network", "C51_injective", "C60_encrypt"], "hit": ["C24"], "direct": ["C24"], "rounds": 4, "note": ""}
{"i": 7, "file": "Model/Bip38.lean", "definition": "decrypt", "old": "raiseIf (network ∉ self.networks) .networkError \"Wrong network type\"\n  let decoded ← b58decode encryptedWif", "new": "let decoded ← b58decode encryptedWif", "claims": ["C24"], "desc": "network not validated", "ok": false, "fails": ["C20_C21_returned_key", "C22_checksum_ignored", "C23_length", "C23_non_ascii", "C23_prefix", "C24_unknown_network", "C40_decrypt_errors"], "files": {"Verif/Props/Decrypt.lean": ["C23_length", "C23_prefix", "C23_non_ascii", "C20_C21_returned_key", "C22_checksum_ignored", "C40_decrypt_errors"], "Verif/Props/Select.lean": ["C24_unknown_network"]}, "broken": ["C20_C21_returned_key", "C22_checksum_ignored", "C22_refuted", "C23_length", "C23_non_ascii", "C23_prefix", "C24_unknown_network", "C34_illegal_refuted", "C37_refuted", "C37_ripple_decrypt", "C40_decrypt_errors", "C53_reencrypt", "C57_recreate", "C61_decrypt_elsewhere"], "hit": ["C24"], "direct": ["C24"], "rounds": 3, "note": ""}
{"i": 8, "file": "Model/Point.lean", "definition": "Pt.neg", "old": ".aff x ((fieldP - y) % fieldP)", "new": ".aff x ((fieldP - y - 1) % fieldP)", "claims": ["C43"], "desc": "negation off by one", "ok": false, "fails": ["neg_toPt"], "files": {"Verif/Props/PointOps.lean": ["neg_toPt"]}, "broken": ["C43_add_group", "C43_mul_eq_iff", "C43_mul_is_repeated_addition", "C43_mul_laws"], "hit": ["C43"], "direct": [], "rounds": 2, "note": ""}
{"i": 9, "file": "Model/Point.lean", "definition": "Pt.zmul", "old": "if k < 0 then p.neg.mul k.natAbs else p.mul k.natAbs", "new": "p.mul k.natAbs", "claims": ["C43"], "desc": "sign of the factor dropped", "ok": false, "fails": ["zmul_toPt"], "files": {"Verif/Props/PointOps.lean": ["zmul_toPt"]}, "broken": [], "hit": [], "direct": [], "rounds": 2, "note": ""}
{"i": 10, "file": "Model/Point.lean", "definition": "Point.radd", "old": "Point.add p q", "new": "Point.add p p", "claims": ["C43"], "desc": "adds self instead of the argument", "ok": false, "fails": ["C43_add_group"], "files": {"Verif/Props/PointOps.lean": ["C43_add_group"]}, "broken": ["C43_add_group"], "hit": ["C43"], "direct": ["C43"], "rounds": 2, "note": ""}
{"i": 11, "file": "Model/Point.lean", "definition": "Point.rmul", "old": "Point.mul p scalar", "new": "Point.mul p (scalar + 1)", "claims": ["C43"], "desc": "right multiplication off by one", "ok": false, "fails": ["C43_mul_laws"], "files": {"Verif/Props/PointOps.lean": ["C43_mul_laws"]}, "broken": ["C43_mul_laws"], "hit": ["C43"], "direct": ["C43"], "rounds": 2, "note": ""}
{"i": 12, "file": "Model/Point.lean", "definition": "Point.fromBytesOld", "old": "(b.take COORDINATE_POINT_LENGTH)", "new": "(b.drop COORDINATE_POINT_LENGTH)", "claims": ["C45"], "desc": "x read from the second half", "ok": false, "fails": ["C45_old_compressed_refuted", "C45_old_from_bytes"], "files": {"Verif/Props/PointOps.lean": ["C45_old_from_bytes", "C45_old_compressed_refuted"]}, "broken": ["C45_old_compressed_refuted", "C45_old_from_bytes"], "hit": ["C45"], "direct": ["C45"], "rounds": 2, "note": ""}
{"i": 13, "file": "Model/Point.lean", "definition": "Point.rawEncodedOld", "old": "if y &&& 1 ≠ 0 then 3 :: xb else 2 :: xb", "new": "if y &&& 1 ≠ 0 then 2 :: xb else 3 :: xb", "claims": ["C45"], "desc": "parity byte inverted in the fallback", "ok": false, "fails": ["C45_old_raw"], "files": {"Verif/Props/PointOps.lean": ["C45_old_raw"]}, "broken": ["C45_old_raw"], "hit": ["C45"], "direct": ["C45"], "rounds": 2, "note": ""}
{"i": 14, "file": "Model/Point.lean", "definition": "Point.rawDecodedOld", "old": ".ok (xb ++ yb)", "new": ".ok (4 :: (xb ++ yb))", "claims": ["C45"], "desc": "marker byte added", "ok": false, "fails": ["C45_old_raw"], "files": {"Verif/Props/PointOps.lean": ["C45_old_raw"]}, "broken": ["C45_old_raw"], "hit": ["C45"], "direct": ["C45"], "rounds": 2, "note": ""}
{"i": 15, "file": "Model/Point.lean", "definition": "secp256k1Order", "old": ": Nat := N", "new": ": Nat := N - 1", "claims": ["C16"], "desc": "order off by one", "ok": false, "fails": ["C44_lengths"], "files": {"Verif/Props/PointOps.lean": ["C44_lengths"]}, "broken": ["C44_lengths"], "hit": [], "direct": [], "rounds": 2, "note": ""}
{"i": 16, "file": "Model/Point.lean", "definition": "PublicKey.compressedLength", "old": ":= COMPRESSED_PUBLIC_KEY_LENGTH", "new": ":= UNCOMPRESSED_PUBLIC_KEY_LENGTH", "claims": ["C44"], "desc": "wrong length constant", "ok": false, "fails": ["C44_lengths"], "files": {"Verif/Props/PointOps.lean": ["C44_lengths"]}, "broken": ["C44_lengths"], "hit": ["C44"], "direct": ["C44"], "rounds": 2, "note": ""}
{"i": 17, "file": "Model/Point.lean", "definition": "PrivateKey.length", "old": ":= PRIVATE_KEY_LENGTH", "new": ":= 33", "claims": ["C44"], "desc": "wrong length constant", "ok": false, "fails": ["C44_lengths"], "files": {"Verif/Props/PointOps.lean": ["C44_lengths"]}, "broken": ["C44_lengths"], "hit": ["C44"], "direct": ["C44"], "rounds": 2, "note": ""}
{"i": 18, "file": "Model/Point.lean", "definition": "Point.y", "old": "| .aff _ y => some y", "new": "| .aff x _ => some x", "claims": ["C43"], "desc": "y returns x", "ok": false, "fails": ["C44_roundtrip"], "files": {"Verif/Props/PointOps.lean": ["C44_roundtrip"]}, "broken": ["C44_roundtrip"], "hit": [], "direct": [], "rounds": 2, "note": ""}
{"i": 19, "file": "Model/Utils.lean", "definition": "Data.truthy", "old": "| .bytes b => !b.isEmpty", "new": "| .bytes _ => true", "claims": ["C48"], "desc": "empty bytes are truthy: an empty seed is not replaced by random bytes", "ok": false, "fails": ["truthy_iff"], "files": {"Verif/Lemmas/Supplies.lean": ["truthy_iff"]}, "broken": ["C11_create", "C11_intermediate", "C26_refuted", "C26_salt", "C26_validation", "C27_lot_zero_ignored", "C27_sequence_zero_ignored", "C27_unusable_code", "C28_layout", "C29_decrypt_create", "C29_refuted", "C30_confirm_create", "C30_refuted", "C31_lot_sequence", "C32_long_seed_lost", "C32_refuted_long", "C32_refuted_short", "C33_checksum", "C33_errors", "C33_factor_point", "C33_length", "C33_magic", "C33_returns", "C33_seed", "C33_type", "C34_create_flag", "C34_illegal_refuted", "C37_ripple_create", "C46_hex", "C46_salt_given", "C46_salt_omitted", "C46_seed_given", "C46_seed_omitted", "C52_seed_injective", "C57_recreate", "C62_determines", "C63_confirmation_injective", "C65_created_standard"], "hit": [], "direct": [], "rounds": 2, "note": ""}
{"i": 20, "file": "Model/Utils.lean", "definition": "bytesReverse", "old": "Bytes := data.reverse", "new": "Bytes := data", "claims": ["C48"], "desc": "not reversed", "ok": false, "fails": ["C48_reverse"], "files": {"Verif/Props/Args.lean": ["C48_reverse"]}, "broken": ["C48_reverse"], "hit": ["C48"], "direct": ["C48"], "rounds": 2, "note": ""}
{"i": 21, "file": "Model/Utils.lean", "definition": "hex", "old": "[hexDigit (c.toNat / 16), hexDigit (c.toNat % 16)]", "new": "[hexDigit (c.toNat % 16), hexDigit (c.toNat / 16)]", "claims": ["C06"], "desc": "nibbles swapped in output", "ok": false, "fails": ["C06_hex_text", "C06_roundtrip", "example@245", "hex_cons"], "files": {"Verif/Lemmas/Utils.lean": ["hex_cons"], "Verif/Props/Encoding.lean": ["C06_hex_text", "C06_roundtrip"], "Verif/Props/Args.lean": ["example@245"]}, "broken": ["C06_hex_text", "C06_roundtrip", "C07_hex_key", "C08_injective", "C11_encrypt", "C12_key_forms", "C17_decrypt_encrypt", "C17_refuted", "C17_roundtrip_iff", "C18_encrypt_returns_iff", "C18_refuted", "C19_record", "C22_refuted", "C29_decrypt_create", "C29_refuted", "C31_lot_sequence", "C32_long_seed_lost", "C34_encrypt_flag", "C34_illegal_refuted", "C37_refuted", "C41_other_network", "C48_text", "C51_injective", "C53_reencrypt", "C57_recreate", "C60_encrypt", "C64_decrypt_standard_ec"], "hit": ["C06"], "direct": ["C06"], "rounds": 4, "note": ""}
{"i": 22, "file": "Model/Utils.lean", "definition": "bytesToString", "old": "| some _ => .ok s\n", "new": "| some b => .ok (hex b)\n", "claims": ["C48"], "desc": "hexadecimal text is normalised", "ok": false, "fails": ["C48_text", "example@245"], "files": {"Verif/Props/Args.lean": ["C48_text", "example@245"]}, "broken": ["C48_text"], "hit": ["C48"], "direct": ["C48"], "rounds": 2, "note": ""}
{"i": 23, "file": "Model/Utils.lean", "definition": "bytesToString", "old": "| none => .ok (hex (utf8 s))", "new": "| none => raise .valueError \"\"", "claims": ["C48"], "desc": "text that is not hexadecimal refused", "ok": false, "fails": ["C48_text", "example@245"], "files": {"Verif/Props/Args.lean": ["C48_text", "example@245"]}, "broken": ["C48_text"], "hit": ["C48"], "direct": ["C48"], "rounds": 2, "note": ""}
{"i": 24, "file": "Model/Utils.lean", "definition": "bitLength", "old": "Nat.log2 n + 1", "new": "Nat.log2 n", "claims": ["C05"], "desc": "bit length off by one", "ok": false, "fails": ["auto_bounds", "bitLength_bytes", "c_ec", "c_noEc", "example@317"], "files": {"Verif/Lemmas/Bytes.lean": ["bitLength_bytes"], "Verif/Props/Encoding.lean": ["example@317"], "Verif/Lemmas/Bip38.lean": ["c_noEc", "c_ec"], "Verif/Props/Args.lean": ["auto_bounds"]}, "broken": ["C01_decode_encode", "C01_decode_encode_bitcoin", "C01_decode_encode_ripple", "C01_encode_injective", "C02_decode_injective", "C02_encode_decode", "C03_check_roundtrip", "C04_decode_ascii", "C05_minimal", "C07_wif_roundtrip", "C07_wif_text", "C08_injective", "C08_other_network", "C09_any_checksum_accepted", "C09_decode_wif_iff", "C09_wrong_checksum_refuted", "C10_any_marker_accepted", "C10_wrong_marker_refuted", "C11_create", "C11_encrypt", "C11_wif", "C12_address_roundtrip", "C12_address_text", "C12_key_forms", "C13_bad_checksum", "C13_bad_payload", "C13_decode_iff", "C17_decrypt_encrypt", "C17_refuted", "C17_roundtrip_iff", "C18_encrypt_returns_iff", "C18_refuted", "C19_record", "C20_C21_returned_key", "C22_checksum_ignored", "C22_refuted", "C23_flag", "C23_prefix", "C27_unusable_code", "C28_layout", "C29_decrypt_create", "C29_refuted", "C30_confirm_create", "C30_refuted", "C31_confirm_pair", "C31_lot_sequence", "C31_reported_pair", "C32_long_seed_lost", "C32_refuted_long", "C32_refuted_short", "C33_errors", "C33_returns", "C34_confirm_flag", "C34_confirm_reading", "C34_create_flag", "C34_decrypt_flag", "C34_decrypt_reading", "C34_encrypt_flag", "C34_illegal_refuted", "C34_unknown_flag", "C35_iff", "C35_sound", "C37_refuted", "C37_ripple_confirm", "C37_ripple_create", "C37_ripple_decrypt", "C40_confirm_errors", "C40_decrypt_errors", "C40_ec_iff", "C40_noEc_iff", "C41_other_network", "C47_auto_count", "C47_signed_auto", "C49_any_prefix", "C49_decode_errors", "C49_key_argument", "C49_readers_agree", "C51_injective", "C52_seed_injective", "C53_reencrypt", "C54_address_injective", "C57_recreate", "C58_address_networks", "C58_wif_networks", "C59_address", "C59_wif", "C60_encrypt", "C61_confirm_elsewhere", "C61_decrypt_elsewhere", "C62_determines", "C63_confirmation_injective", "C64_confirm_standard", "C64_decrypt_standard", "C64_decrypt_standard_ec", "C65_created_standard", "C66_ec", "C66_malformed", "C66_noEc", "C67_confirm", "C68_create"], "hit": ["C05"], "direct": [], "rounds": 4, "note": ""}
{"i": 25, "file": "Model/Utils.lean", "definition": "integerToBytes", "old": "if k < 0 then raise .valueError", "new": "if k < 0 then raise .overflowError", "claims": ["C47"], "desc": "wrong class for a negative count", "ok": false, "fails": ["C47_negative_count"], "files": {"Verif/Props/Args.lean": ["C47_negative_count"]}, "broken": ["C47_negative_count"], "hit": ["C47"], "direct": ["C47"], "rounds": 2, "note": ""}
{"i": 26, "file": "Model/Utils.lean", "definition": "integerToBytes", "old": "else if k = 0 then intToBytes data auto endianness signed", "new": "else if k = 0 then intToBytes data 0 endianness signed", "claims": ["C47"], "desc": "byte count 0 taken literally", "ok": false, "fails": ["C47_auto_count"], "files": {"Verif/Props/Args.lean": ["C47_auto_count"]}, "broken": ["C47_auto_count", "C47_signed_auto"], "hit": ["C47"], "direct": ["C47"], "rounds": 2, "note": ""}
{"i": 27, "file": "Model/Utils.lean", "definition": "integerToBytes", "old": "if 0 < data then", "new": "if data ≠ 0 then", "claims": ["C47"], "desc": "negative numbers get a computed length", "ok": false, "fails": ["C47_auto_count", "integerToBytes_fromBE"], "files": {"Verif/Lemmas/Bytes.lean": ["integerToBytes_fromBE"], "Verif/Props/Args.lean": ["C47_auto_count"]}, "broken": ["C05_minimal", "C07_wif_roundtrip", "C07_wif_text", "C08_injective", "C08_other_network", "C09_any_checksum_accepted", "C09_decode_wif_iff", "C09_wrong_checksum_refuted", "C10_any_marker_accepted", "C10_wrong_marker_refuted", "C11_create", "C11_encrypt", "C11_wif", "C12_address_roundtrip", "C12_address_text", "C12_key_forms", "C13_bad_checksum", "C13_bad_payload", "C13_decode_iff", "C17_decrypt_encrypt", "C17_refuted", "C17_roundtrip_iff", "C18_encrypt_returns_iff", "C18_refuted", "C19_record", "C20_C21_returned_key", "C22_refuted", "C29_decrypt_create", "C29_refuted", "C30_confirm_create", "C30_refuted", "C31_confirm_pair", "C31_lot_sequence", "C31_reported_pair", "C32_long_seed_lost", "C32_refuted_long", "C32_refuted_short", "C33_errors", "C33_returns", "C34_confirm_flag", "C34_confirm_reading", "C34_create_flag", "C34_decrypt_flag", "C34_decrypt_reading", "C34_encrypt_flag", "C34_illegal_refuted", "C34_unknown_flag", "C35_iff", "C35_sound", "C37_refuted", "C37_ripple_confirm", "C37_ripple_create", "C37_ripple_decrypt", "C40_confirm_errors", "C40_decrypt_errors", "C40_ec_iff", "C40_noEc_iff", "C41_other_network", "C47_auto_count", "C47_signed_auto", "C49_any_prefix", "C49_decode_errors", "C49_key_argument", "C49_readers_agree", "C51_injective", "C52_seed_injective", "C53_reencrypt", "C54_address_injective", "C57_recreate", "C58_address_networks", "C58_wif_networks", "C59_address", "C59_wif", "C60_encrypt", "C61_confirm_elsewhere", "C61_decrypt_elsewhere", "C63_confirmation_injective", "C64_confirm_standard", "C64_decrypt_standard", "C64_decrypt_standard_ec", "C65_created_standard", "C66_ec", "C66_noEc", "C67_confirm", "C68_create"], "hit": ["C47"], "direct": ["C47"], "rounds": 3, "note": ""}
{"i": 28, "file": "Model/Base58.lean", "definition": "stringToInt", "old": "256 ^ i * c.toNat", "new": "256 ^ i * (c.toNat % 128)", "claims": ["C01"], "desc": "high bit of each byte lost", "ok": false, "fails": ["example@55", "stringToInt_eq"], "files": {"Verif/Lemmas/Base58.lean": ["stringToInt_eq"], "Verif/Props/Encoding.lean": ["example@55"]}, "broken": ["C01_decode_encode", "C01_decode_encode_bitcoin", "C01_decode_encode_ripple", "C01_encode_injective", "C01_encode_text", "C01_encode_wellFormed", "C02_decode_injective", "C02_encode_decode", "C03_check_roundtrip", "C07_wif_roundtrip", "C08_injective", "C08_other_network", "C09_any_checksum_accepted", "C09_wrong_checksum_refuted", "C10_any_marker_accepted", "C10_wrong_marker_refuted", "C11_address", "C11_create", "C11_encrypt", "C11_intermediate", "C11_wif", "C12_address_roundtrip", "C17_decrypt_encrypt", "C17_refuted", "C17_roundtrip_iff", "C18_refuted", "C19_record", "C20_C21_returned_key", "C22_refuted", "C27_unusable_code", "C28_layout", "C29_decrypt_create", "C29_refuted", "C30_confirm_create", "C30_refuted", "C31_lot_sequence", "C32_long_seed_lost", "C32_refuted_long", "C32_refuted_short", "C34_create_flag", "C34_encrypt_flag", "C34_illegal_refuted", "C37_refuted", "C37_ripple_confirm", "C37_ripple_create", "C37_ripple_decrypt", "C41_other_network", "C49_any_prefix", "C51_injective", "C52_seed_injective", "C53_reencrypt", "C54_address_injective", "C57_recreate", "C58_address_networks", "C58_wif_networks", "C59_address", "C59_wif", "C61_decrypt_elsewhere", "C62_determines", "C63_confirmation_injective", "C64_confirm_standard", "C64_decrypt_standard", "C64_decrypt_standard_ec", "C65_created_standard"], "hit": ["C01"], "direct": [], "rounds": 3, "note": ""}
{"i": 29, "file": "Model/Base58.lean", "definition": "stringToInt", "old": "data.reverse.zipIdx", "new": "data.zipIdx", "claims": ["C01"], "desc": "byte order reversed", "ok": false, "fails": ["example@55", "stringToInt_eq"], "files": {"Verif/Lemmas/Base58.lean": ["stringToInt_eq"], "Verif/Props/Encoding.lean": ["example@55"]}, "broken": ["C01_decode_encode", "C01_decode_encode_bitcoin", "C01_decode_encode_ripple", "C01_encode_injective", "C01_encode_text", "C01_encode_wellFormed", "C02_decode_injective", "C02_encode_decode", "C03_check_roundtrip", "C07_wif_roundtrip", "C08_injective", "C08_other_network", "C09_any_checksum_accepted", "C09_wrong_checksum_refuted", "C10_any_marker_accepted", "C10_wrong_marker_refuted", "C11_address", "C11_create", "C11_encrypt", "C11_intermediate", "C11_wif", "C12_address_roundtrip", "C17_decrypt_encrypt", "C17_refuted", "C17_roundtrip_iff", "C18_refuted", "C19_record", "C20_C21_returned_key", "C22_refuted", "C27_unusable_code", "C28_layout", "C29_decrypt_create", "C29_refuted", "C30_confirm_create", "C30_refuted", "C31_lot_sequence", "C32_long_seed_lost", "C32_refuted_long", "C32_refuted_short", "C34_create_flag", "C34_encrypt_flag", "C34_illegal_refuted", "C37_refuted", "C37_ripple_confirm", "C37_ripple_create", "C37_ripple_decrypt", "C41_other_network", "C49_any_prefix", "C51_injective", "C52_seed_injective", "C53_reencrypt", "C54_address_injective", "C57_recreate", "C58_address_networks", "C58_wif_networks", "C59_address", "C59_wif", "C61_decrypt_elsewhere", "C62_determines", "C63_confirmation_injective", "C64_confirm_standard", "C64_decrypt_standard", "C64_decrypt_standard_ec", "C65_created_standard"], "hit": ["C01"], "direct": [], "rounds": 3, "note": ""}
{"i": 30, "file": "Model/Base58.lean", "definition": "decodeLoop", "old": "if 0 < val then", "new": "if 1 < val then", "claims": ["C01"], "desc": "loop stops one early", "ok": false, "fails": ["decodeLoop_fromBE", "example@56"], "files": {"Verif/Lemmas/Base58.lean": ["decodeLoop_fromBE"], "Verif/Props/Encoding.lean": ["example@56"]}, "broken": ["C01_decode_encode", "C01_decode_encode_bitcoin", "C01_decode_encode_ripple", "C01_encode_injective", "C02_decode_injective", "C02_encode_decode", "C03_check_roundtrip", "C04_decode_ascii", "C07_wif_roundtrip", "C08_injective", "C08_other_network", "C09_any_checksum_accepted", "C09_wrong_checksum_refuted", "C10_any_marker_accepted", "C10_wrong_marker_refuted", "C11_create", "C11_encrypt", "C12_address_roundtrip", "C17_decrypt_encrypt", "C17_refuted", "C17_roundtrip_iff", "C18_encrypt_returns_iff", "C18_refuted", "C19_record", "C20_C21_returned_key", "C22_refuted", "C27_unusable_code", "C28_layout", "C29_decrypt_create", "C29_refuted", "C30_confirm_create", "C30_refuted", "C31_lot_sequence", "C32_long_seed_lost", "C32_refuted_long", "C32_refuted_short", "C33_errors", "C33_returns", "C34_create_flag", "C34_encrypt_flag", "C34_illegal_refuted", "C37_refuted", "C37_ripple_create", "C37_ripple_decrypt", "C41_other_network", "C49_any_prefix", "C51_injective", "C52_seed_injective", "C53_reencrypt", "C54_address_injective", "C57_recreate", "C58_address_networks", "C58_wif_networks", "C60_encrypt", "C61_decrypt_elsewhere", "C62_determines", "C63_confirmation_injective", "C64_confirm_standard", "C64_decrypt_standard", "C64_decrypt_standard_ec", "C65_created_standard", "C68_create"], "hit": ["C01"], "direct": [], "rounds": 3, "note": ""}
{"i": 31, "file": "Model/Base58.lean", "definition": "checkEncode", "old": "let chk := (sha256 (sha256 raw)).take 4", "new": "let chk := (sha256 raw).take 4", "claims": ["C03"], "desc": "single hash", "ok": false, "fails": ["C03_check_roundtrip", "C27_lot_zero_ignored", "C28_layout", "checkEncode_eq", "example@293", "intermediate_tail"], "files": {"Verif/Lemmas/P2pkh.lean": ["checkEncode_eq"], "Verif/Props/Encoding.lean": ["C03_check_roundtrip"], "Verif/Lemmas/Intermediate.lean": ["intermediate_tail"], "Verif/Props/Intermediate.lean": ["C27_lot_zero_ignored", "example@293", "C28_layout", "C27_lot_zero_ignored"]}, "broken": ["C03_check_roundtrip", "C27_lot_zero_ignored", "C28_layout"], "hit": ["C03"], "direct": ["C03"], "rounds": 4, "note": "loop C27_lot_zero_ignored"}
{"i": 32, "file": "Model/Base58.lean", "definition": "b58decode", "old": ".ok (dec ++ List.replicate zeros 0).reverse", "new": ".ok (List.replicate zeros 0 ++ dec).reverse", "claims": ["C01"], "desc": "zeros on the wrong side", "ok": false, "fails": ["b58decode_ascii", "example@56"], "files": {"Verif/Lemmas/Base58.lean": ["b58decode_ascii"], "Verif/Props/Encoding.lean": ["example@56"]}, "broken": ["C01_decode_encode", "C01_decode_encode_bitcoin", "C01_decode_encode_ripple", "C01_encode_injective", "C02_decode_injective", "C02_encode_decode", "C03_check_decode_error", "C03_check_roundtrip", "C04_decode_ascii", "C04_leading_foreign", "C07_wif_roundtrip", "C08_injective", "C08_other_network", "C09_any_checksum_accepted", "C09_wrong_checksum_refuted", "C10_any_marker_accepted", "C10_wrong_marker_refuted", "C11_create", "C12_address_roundtrip", "C13_bad_checksum", "C17_decrypt_encrypt", "C17_refuted", "C17_roundtrip_iff", "C18_refuted", "C19_record", "C20_C21_returned_key", "C22_refuted", "C27_unusable_code", "C28_layout", "C29_decrypt_create", "C29_refuted", "C30_confirm_create", "C30_refuted", "C31_lot_sequence", "C32_long_seed_lost", "C32_refuted_long", "C32_refuted_short", "C33_checksum", "C33_errors", "C33_returns", "C34_create_flag", "C34_encrypt_flag", "C34_illegal_refuted", "C35_checksum", "C35_sound", "C37_refuted", "C37_ripple_confirm", "C37_ripple_create", "C37_ripple_decrypt", "C40_confirm_errors", "C40_decrypt_errors", "C41_other_network", "C49_any_prefix", "C49_decode_errors", "C49_negative_prefix", "C51_injective", "C52_seed_injective", "C53_reencrypt", "C54_address_injective", "C57_recreate", "C58_address_networks", "C58_wif_networks", "C60_encrypt", "C61_confirm_elsewhere", "C61_decrypt_elsewhere", "C62_determines", "C63_confirmation_injective", "C64_confirm_standard", "C64_decrypt_standard", "C64_decrypt_standard_ec", "C65_created_standard", "C67_malformed", "C68_refused"], "hit": ["C01"], "direct": [], "rounds": 3, "note": ""}
{"i": 33, "file": "Model/Crypto.lean", "definition": "sha256", "old": ".ok (P.sha256 b)", "new": ".ok (P.sha256 (b ++ [0]))", "claims": ["C50"], "desc": "padded before hashing", "ok": false, "fails": ["sha256_bytes"], "files": {"Verif/Lemmas/Crypto.lean": ["sha256_bytes"]}, "broken": ["C07_hex_key", "C07_wif_roundtrip", "C07_wif_text", "C08_injective", "C08_other_network", "C11_create", "C11_encrypt", "C11_intermediate", "C11_wif", "C12_address_roundtrip", "C12_address_text", "C12_key_forms", "C17_decrypt_encrypt", "C17_refuted", "C17_roundtrip_iff", "C18_encrypt_returns_iff", "C18_refuted", "C19_record", "C20_C21_returned_key", "C22_refuted", "C26_refuted", "C26_validation", "C27_unusable_code", "C28_layout", "C29_decrypt_create", "C29_refuted", "C30_confirm_create", "C30_refuted", "C31_confirm_pair", "C31_lot_sequence", "C31_reported_pair", "C32_long_seed_lost", "C32_refuted_long", "C32_refuted_short", "C33_errors", "C33_factor_point", "C33_returns", "C34_confirm_flag", "C34_confirm_reading", "C34_create_flag", "C34_decrypt_flag", "C34_decrypt_reading", "C34_encrypt_flag", "C34_illegal_refuted", "C34_unknown_flag", "C35_iff", "C35_sound", "C37_refuted", "C37_ripple_confirm", "C37_ripple_create", "C37_ripple_decrypt", "C40_confirm_errors", "C40_decrypt_errors", "C40_ec_iff", "C40_noEc_iff", "C41_other_network", "C49_any_prefix", "C49_key_argument", "C50_lengths", "C50_values", "C51_injective", "C52_seed_injective", "C53_reencrypt", "C54_address_injective", "C57_recreate", "C58_address_networks", "C58_wif_networks", "C59_address", "C59_wif", "C60_encrypt", "C61_confirm_elsewhere", "C61_decrypt_elsewhere", "C62_determines", "C63_confirmation_injective", "C64_confirm_standard", "C64_decrypt_standard", "C64_decrypt_standard_ec", "C65_created_standard", "C66_ec", "C66_noEc", "C67_confirm", "C68_create", "C68_refused_point"], "hit": ["C50"], "direct": [], "rounds": 2, "note": ""}
{"i": 34, "file": "Model/Crypto.lean", "definition": "getChecksum", "old": "doubleSha256 P data", "new": "sha256 P data", "claims": ["C50"], "desc": "checksum of a single hash", "ok": false, "fails": ["getChecksum_bytes"], "files": {"Verif/Lemmas/Crypto.lean": ["getChecksum_bytes"]}, "broken": ["C07_hex_key", "C07_wif_roundtrip", "C07_wif_text", "C08_injective", "C08_other_network", "C11_create", "C11_encrypt", "C11_wif", "C17_decrypt_encrypt", "C17_refuted", "C17_roundtrip_iff", "C18_encrypt_returns_iff", "C18_refuted", "C19_record", "C20_C21_returned_key", "C22_refuted", "C29_decrypt_create", "C29_refuted", "C30_confirm_create", "C30_refuted", "C31_confirm_pair", "C31_lot_sequence", "C31_reported_pair", "C32_long_seed_lost", "C32_refuted_long", "C32_refuted_short", "C33_errors", "C33_returns", "C34_confirm_flag", "C34_confirm_reading", "C34_create_flag", "C34_decrypt_flag", "C34_decrypt_reading", "C34_encrypt_flag", "C34_illegal_refuted", "C34_unknown_flag", "C35_iff", "C35_sound", "C37_refuted", "C37_ripple_confirm", "C37_ripple_create", "C37_ripple_decrypt", "C40_confirm_errors", "C40_decrypt_errors", "C40_ec_iff", "C40_noEc_iff", "C41_other_network", "C49_any_prefix", "C49_key_argument", "C50_lengths", "C50_values", "C51_injective", "C52_seed_injective", "C53_reencrypt", "C57_recreate", "C58_wif_networks", "C59_wif", "C60_encrypt", "C61_confirm_elsewhere", "C61_decrypt_elsewhere", "C63_confirmation_injective", "C64_confirm_standard", "C64_decrypt_standard", "C64_decrypt_standard_ec", "C65_created_standard", "C66_ec", "C66_noEc", "C67_confirm", "C68_create"], "hit": ["C50"], "direct": [], "rounds": 2, "note": ""}
{"i": 35, "file": "Model/Crypto.lean", "definition": "hash160", "old": "ripemd160 P (.bytes h)", "new": "ripemd160 P data", "claims": ["C50"], "desc": "ripemd of the data itself", "ok": false, "fails": ["hash160_bytes", "hash_getBytes"], "files": {"Verif/Lemmas/Crypto.lean": ["hash160_bytes"], "Verif/Props/CryptoFns.lean": ["hash_getBytes"]}, "broken": ["C11_create", "C11_encrypt", "C12_address_roundtrip", "C12_address_text", "C12_key_forms", "C17_decrypt_encrypt", "C17_refuted", "C17_roundtrip_iff", "C18_encrypt_returns_iff", "C18_refuted", "C19_record", "C20_C21_returned_key", "C22_refuted", "C29_decrypt_create", "C29_refuted", "C30_confirm_create", "C30_refuted", "C31_confirm_pair", "C31_lot_sequence", "C31_reported_pair", "C32_long_seed_lost", "C32_refuted_long", "C32_refuted_short", "C33_errors", "C33_returns", "C34_confirm_flag", "C34_confirm_reading", "C34_create_flag", "C34_decrypt_flag", "C34_decrypt_reading", "C34_encrypt_flag", "C34_illegal_refuted", "C34_unknown_flag", "C35_iff", "C35_sound", "C37_refuted", "C37_ripple_confirm", "C37_ripple_create", "C37_ripple_decrypt", "C40_confirm_errors", "C40_decrypt_errors", "C40_ec_iff", "C40_noEc_iff", "C41_other_network", "C50_arguments", "C50_lengths", "C50_values", "C51_injective", "C52_seed_injective", "C53_reencrypt", "C54_address_injective", "C57_recreate", "C58_address_networks", "C59_address", "C60_encrypt", "C61_confirm_elsewhere", "C61_decrypt_elsewhere", "C63_confirmation_injective", "C64_confirm_standard", "C64_decrypt_standard", "C64_decrypt_standard_ec", "C65_created_standard", "C66_ec", "C66_noEc", "C67_confirm", "C68_create"], "hit": ["C50"], "direct": [], "rounds": 3, "note": ""}
{"i": 36, "file": "Model/Crypto.lean", "definition": "ripemd160", "old": "| none => let b ← getBytes data; .ok (Ripemd.ripemd160 b)", "new": "| none => let b ← getBytes data; .ok (P.sha256 b)", "claims": ["C38", "C50"], "desc": "fallback is not RIPEMD", "ok": false, "fails": ["C38_fallback", "C50_values", "hash160_bytes"], "files": {"Verif/Lemmas/Crypto.lean": ["hash160_bytes"], "Verif/Props/Ripemd160.lean": ["C38_fallback"], "Verif/Props/CryptoFns.lean": ["C50_values"]}, "broken": ["C11_create", "C11_encrypt", "C12_address_roundtrip", "C12_address_text", "C12_key_forms", "C17_decrypt_encrypt", "C17_refuted", "C17_roundtrip_iff", "C18_encrypt_returns_iff", "C18_refuted", "C19_record", "C20_C21_returned_key", "C22_refuted", "C29_decrypt_create", "C29_refuted", "C30_confirm_create", "C30_refuted", "C31_confirm_pair", "C31_lot_sequence", "C31_reported_pair", "C32_long_seed_lost", "C32_refuted_long", "C32_refuted_short", "C33_errors", "C33_returns", "C34_confirm_flag", "C34_confirm_reading", "C34_create_flag", "C34_decrypt_flag", "C34_decrypt_reading", "C34_encrypt_flag", "C34_illegal_refuted", "C34_unknown_flag", "C35_iff", "C35_sound", "C37_refuted", "C37_ripple_confirm", "C37_ripple_create", "C37_ripple_decrypt", "C38_fallback", "C40_confirm_errors", "C40_decrypt_errors", "C40_ec_iff", "C40_noEc_iff", "C41_other_network", "C50_lengths", "C50_values", "C51_injective", "C52_seed_injective", "C53_reencrypt", "C54_address_injective", "C57_recreate", "C58_address_networks", "C59_address", "C60_encrypt", "C61_confirm_elsewhere", "C61_decrypt_elsewhere", "C63_confirmation_injective", "C64_confirm_standard", "C64_decrypt_standard", "C64_decrypt_standard_ec", "C65_created_standard", "C66_ec", "C66_noEc", "C67_confirm", "C68_create"], "hit": ["C38", "C50"], "direct": ["C38", "C50"], "rounds": 3, "note": ""}
{"i": 37, "file": "Model/Ripemd160.lean", "definition": "MR", "old": "5, 14, 7, 0", "new": "5, 14, 0, 7", "claims": ["C38"], "desc": "two indices swapped in a table", "ok": false, "fails": ["tables"], "files": {"Verif/Lemmas/Ripemd160.lean": ["tables"]}, "broken": ["C38_fallback", "C38_length", "C38_ripemd160"], "hit": ["C38"], "direct": [], "rounds": 2, "note": ""}
{"i": 38, "file": "Model/Ripemd160.lean", "definition": "RL", "old": "11, 14, 15, 12", "new": "11, 14, 12, 15", "claims": ["C38"], "desc": "two rotations swapped", "ok": false, "fails": ["tables"], "files": {"Verif/Lemmas/Ripemd160.lean": ["tables"]}, "broken": ["C38_fallback", "C38_length", "C38_ripemd160"], "hit": ["C38"], "direct": [], "rounds": 2, "note": ""}
{"i": 39, "file": "Model/Ripemd160.lean", "definition": "KL", "old": "0x5a827999", "new": "0x5a827998", "claims": ["C38"], "desc": "wrong constant", "ok": false, "fails": ["constants"], "files": {"Verif/Lemmas/Ripemd160.lean": ["constants"]}, "broken": ["C38_fallback", "C38_length", "C38_ripemd160"], "hit": ["C38"], "direct": [], "rounds": 2, "note": ""}
{"i": 40, "file": "Model/Ripemd160.lean", "definition": "word", "old": "(slice (4 * i) (4 * (i + 1)) block).reverse", "new": "(slice (4 * i) (4 * (i + 1)) block)", "claims": ["C38"], "desc": "big-endian words", "ok": false, "fails": ["word_eq"], "files": {"Verif/Lemmas/Ripemd160.lean": ["word_eq"]}, "broken": ["C38_fallback", "C38_length", "C38_ripemd160"], "hit": ["C38"], "direct": [], "rounds": 2, "note": ""}
{"i": 41, "file": "Model/Ripemd160.lean", "definition": "packWord", "old": "toLE 4 (h.land 0xffffffff).toNat", "new": "toLE 4 h.toNat", "claims": ["C38"], "desc": "no mask when packing (same value: toLE takes the low bytes of a nonnegative state)", "ok": false, "fails": ["packWord_eq"], "files": {"Verif/Lemmas/Ripemd160.lean": ["packWord_eq"]}, "broken": ["C38_fallback", "C38_length", "C38_ripemd160"], "hit": ["C38"], "direct": [], "rounds": 2, "note": ""}
{"i": 42, "file": "Model/Ripemd160.lean", "definition": "blocks", "old": "data.length >>> 6", "new": "data.length >>> 7", "claims": ["C38"], "desc": "half of the blocks", "ok": false, "fails": ["abs_blocks"], "files": {"Verif/Lemmas/Ripemd160.lean": ["abs_blocks"]}, "broken": ["C38_fallback", "C38_length", "C38_ripemd160"], "hit": ["C38"], "direct": [], "rounds": 2, "note": ""}
{"i": 43, "file": "Model/Ripemd160.lean", "definition": "compress", "old": "pathStep x MR RR KR (4 - rnd) rnd j st.2", "new": "pathStep x MR RR KR rnd rnd j st.2", "claims": ["C38"], "desc": "right path uses the left functions", "ok": false, "fails": ["abs_compress"], "files": {"Verif/Lemmas/Ripemd160.lean": ["abs_compress"]}, "broken": ["C38_fallback", "C38_length", "C38_ripemd160"], "hit": ["C38"], "direct": [], "rounds": 2, "note": ""}
{"i": 44, "file": "Model/Secp256k1.lean", "definition": "powMod", "old": "(1 % m)", "new": "(2 % m)", "claims": ["C16"], "desc": "accumulator starts at 2", "ok": false, "fails": ["example@474", "gen_mul_N", "key153_unit", "powMod_eq", "prime_107361793816595537", "prime_107590001", "prime_115792089237316195423570985008687907852837564279074904382605163141518161494337", "prime_115792089237316195423570985008687907853269984665640564039457584007908834671663", "prime_1206781", "prime_132896956044521568488119", "prime_13331831", "prime_1627771", "prime_173378833005251801", "prime_174723607534414371449", "prime_205115282021455665897114700593932402728804164701536103180137503955397371", "prime_22149492674086928081353", "prime_255515944373312847190720520512484175977", "prime_29047611873442575647497758179", "prime_297159362677", "prime_341948486974166000522343609283189", "prime_44706919", "prime_4681609", "prime_545358713", "prime_7240687"], "files": {"Verif/Lemmas/PowMod.lean": ["powMod_eq"], "Verif/Lemmas/Primes.lean": ["prime_1206781", "prime_1627771", "prime_4681609", "prime_7240687", "prime_13331831", "prime_44706919", "prime_107590001", "prime_545358713", "prime_297159362677", "prime_107361793816595537", "prime_173378833005251801", "prime_174723607534414371449", "prime_22149492674086928081353", "prime_132896956044521568488119", "prime_29047611873442575647497758179", "prime_341948486974166000522343609283189", "prime_255515944373312847190720520512484175977", "prime_205115282021455665897114700593932402728804164701536103180137503955397371", "prime_115792089237316195423570985008687907852837564279074904382605163141518161494337", "prime_115792089237316195423570985008687907853269984665640564039457584007908834671663"], "Verif/Lemmas/Curve.lean": ["gen_mul_N"], "Verif/Props/ConfirmExamples.lean": ["key153_unit"], "Verif/Props/Outcome2.lean": ["example@474"]}, "broken": ["C11_create", "C11_encrypt", "C11_intermediate", "C14_private_key_iff", "C14_private_key_ok", "C15_denotes_unique", "C15_private_key_point", "C15_public_key_error", "C15_public_key_iff", "C15_public_key_roundtrip", "C16_api", "C16_curve", "C16_group", "C16_injective", "C16_mul_is_repeated_addition", "C16_order", "C16_scalar_mul", "C16_surjective", "C17_decrypt_encrypt", "C17_refuted", "C17_roundtrip_iff", "C18_encrypt_returns_iff", "C18_refuted", "C19_record", "C20_C21_returned_key", "C22_refuted", "C26_refuted", "C26_validation", "C27_unusable_code", "C28_layout", "C29_decrypt_create", "C29_refuted", "C30_confirm_create", "C30_refuted", "C31_confirm_pair", "C31_lot_sequence", "C31_reported_pair", "C32_long_seed_lost", "C32_refuted_long", "C32_refuted_short", "C33_errors", "C33_factor_point", "C33_returns", "C34_confirm_flag", "C34_confirm_reading", "C34_create_flag", "C34_decrypt_flag", "C34_decrypt_reading", "C34_encrypt_flag", "C34_illegal_refuted", "C34_unknown_flag", "C35_iff", "C35_sound", "C37_refuted", "C37_ripple_confirm", "C37_ripple_create", "C37_ripple_decrypt", "C40_confirm_errors", "C40_decrypt_errors", "C40_ec_iff", "C40_noEc_iff", "C41_other_network", "C42_point_roundtrip", "C43_add_group", "C43_mul_eq_iff", "C43_mul_is_repeated_addition", "C43_mul_laws", "C51_injective", "C52_seed_injective", "C53_reencrypt", "C54_serialisation_injective", "C57_recreate", "C60_encrypt", "C61_confirm_elsewhere", "C61_decrypt_elsewhere", "C62_determines", "C63_confirmation_injective", "C64_confirm_standard", "C64_decrypt_standard", "C64_decrypt_standard_ec", "C65_created_standard", "C66_ec", "C66_noEc", "C67_confirm", "C68_create", "C68_refused_point", "C69_intermediate", "C70_confirm", "C70_create", "C70_decrypt", "C70_encrypt", "C70_intermediate"], "hit": ["C16"], "direct": [], "rounds": 6, "note": ""}
{"i": 45, "file": "Model/Secp256k1.lean", "definition": "invMod", "old": "fieldP - 2", "new": "fieldP - 1", "claims": ["C16"], "desc": "wrong exponent", "ok": false, "fails": ["cast_invMod", "gen_mul_N", "key153_unit"], "files": {"Verif/Lemmas/Curve.lean": ["cast_invMod", "gen_mul_N"], "Verif/Props/ConfirmExamples.lean": ["key153_unit"]}, "broken": ["C11_create", "C11_encrypt", "C11_intermediate", "C14_private_key_iff", "C14_private_key_ok", "C15_private_key_point", "C16_api", "C16_group", "C16_injective", "C16_mul_is_repeated_addition", "C16_order", "C16_scalar_mul", "C16_surjective", "C17_decrypt_encrypt", "C17_refuted", "C17_roundtrip_iff", "C18_encrypt_returns_iff", "C18_refuted", "C19_record", "C20_C21_returned_key", "C22_refuted", "C26_refuted", "C26_validation", "C27_unusable_code", "C28_layout", "C29_decrypt_create", "C29_refuted", "C30_confirm_create", "C30_refuted", "C31_confirm_pair", "C31_lot_sequence", "C31_reported_pair", "C32_long_seed_lost", "C32_refuted_long", "C32_refuted_short", "C33_errors", "C33_returns", "C34_confirm_flag", "C34_confirm_reading", "C34_create_flag", "C34_decrypt_flag", "C34_decrypt_reading", "C34_encrypt_flag", "C34_illegal_refuted", "C34_unknown_flag", "C35_iff", "C35_sound", "C37_refuted", "C37_ripple_confirm", "C37_ripple_create", "C37_ripple_decrypt", "C40_confirm_errors", "C40_decrypt_errors", "C40_ec_iff", "C40_noEc_iff", "C41_other_network", "C43_add_group", "C43_mul_eq_iff", "C43_mul_is_repeated_addition", "C43_mul_laws", "C51_injective", "C52_seed_injective", "C53_reencrypt", "C57_recreate", "C60_encrypt", "C61_confirm_elsewhere", "C61_decrypt_elsewhere", "C62_determines", "C63_confirmation_injective", "C64_confirm_standard", "C64_decrypt_standard", "C64_decrypt_standard_ec", "C65_created_standard", "C66_ec", "C66_noEc", "C67_confirm", "C68_create", "C69_intermediate", "C70_confirm", "C70_create", "C70_decrypt", "C70_encrypt", "C70_intermediate"], "hit": ["C16"], "direct": [], "rounds": 3, "note": ""}
{"i": 46, "file": "Model/Secp256k1.lean", "definition": "genY", "old": "D4B8", "new": "D4B9", "claims": ["C16"], "desc": "wrong generator", "ok": false, "fails": ["example@474", "example@48", "genKey_unit", "gen_mul_N", "gen_valid", "key153_unit"], "files": {"Verif/Lemmas/Curve.lean": ["gen_valid", "gen_mul_N"], "Verif/Props/AddressInj.lean": ["example@48"], "Verif/Props/EcExamples.lean": ["genKey_unit"], "Verif/Props/ConfirmExamples.lean": ["key153_unit"], "Verif/Props/Outcome2.lean": ["example@474"]}, "broken": ["C11_create", "C11_encrypt", "C11_intermediate", "C14_private_key_iff", "C14_private_key_ok", "C15_private_key_point", "C16_api", "C16_group", "C16_injective", "C16_order", "C16_scalar_mul", "C16_surjective", "C17_decrypt_encrypt", "C17_refuted", "C17_roundtrip_iff", "C18_encrypt_returns_iff", "C18_refuted", "C19_record", "C20_C21_returned_key", "C22_refuted", "C26_refuted", "C26_validation", "C27_unusable_code", "C28_layout", "C29_decrypt_create", "C29_refuted", "C30_confirm_create", "C30_refuted", "C31_confirm_pair", "C31_lot_sequence", "C31_reported_pair", "C32_long_seed_lost", "C32_refuted_long", "C32_refuted_short", "C33_errors", "C33_returns", "C34_confirm_flag", "C34_confirm_reading", "C34_create_flag", "C34_decrypt_flag", "C34_decrypt_reading", "C34_encrypt_flag", "C34_illegal_refuted", "C34_unknown_flag", "C35_iff", "C35_sound", "C37_refuted", "C37_ripple_confirm", "C37_ripple_create", "C37_ripple_decrypt", "C40_confirm_errors", "C40_decrypt_errors", "C40_ec_iff", "C40_noEc_iff", "C41_other_network", "C43_mul_eq_iff", "C43_mul_laws", "C51_injective", "C52_seed_injective", "C53_reencrypt", "C57_recreate", "C60_encrypt", "C61_confirm_elsewhere", "C61_decrypt_elsewhere", "C62_determines", "C63_confirmation_injective", "C64_confirm_standard", "C64_decrypt_standard", "C64_decrypt_standard_ec", "C65_created_standard", "C66_ec", "C66_noEc", "C67_confirm", "C68_create", "C69_intermediate", "C70_confirm", "C70_create", "C70_decrypt", "C70_encrypt", "C70_intermediate"], "hit": ["C16"], "direct": [], "rounds": 5, "note": ""}
{"i": 47, "file": "Model/Secp256k1.lean", "definition": "decodePoint", "old": "if (c = 2) ↔ (beta % 2 = 1) then", "new": "if (c = 3) ↔ (beta % 2 = 1) then", "claims": ["C15"], "desc": "parity inverted", "ok": false, "fails": ["decode_compressed", "example@474"], "files": {"Verif/Lemmas/PublicKey.lean": ["decode_compressed"], "Verif/Props/Outcome2.lean": ["example@474"]}, "broken": ["C11_create", "C15_denotes_unique", "C15_public_key_error", "C15_public_key_iff", "C15_public_key_roundtrip", "C29_decrypt_create", "C29_refuted", "C30_confirm_create", "C30_refuted", "C31_confirm_pair", "C31_lot_sequence", "C32_long_seed_lost", "C32_refuted_long", "C32_refuted_short", "C33_errors", "C33_factor_point", "C33_returns", "C34_confirm_flag", "C34_confirm_reading", "C34_create_flag", "C34_illegal_refuted", "C35_iff", "C35_sound", "C37_ripple_confirm", "C37_ripple_create", "C40_confirm_errors", "C42_point_roundtrip", "C52_seed_injective", "C54_serialisation_injective", "C57_recreate", "C61_confirm_elsewhere", "C62_determines", "C63_confirmation_injective", "C64_confirm_standard", "C65_created_standard", "C67_confirm", "C68_create", "C68_refused_point", "C70_confirm", "C70_create"], "hit": ["C15"], "direct": [], "rounds": 3, "note": ""}
{"i": 48, "file": "Model/Secp256k1.lean", "definition": "decodePoint", "old": "| 6 :: rest => if (raw rest).2 % 2 = 0", "new": "| 6 :: rest => if (raw rest).2 % 2 = 1", "claims": ["C15"], "desc": "hybrid parity inverted", "ok": false, "fails": ["decode_65"], "files": {"Verif/Lemmas/PublicKey.lean": ["decode_65"]}, "broken": ["C11_create", "C15_denotes_unique", "C15_public_key_error", "C15_public_key_iff", "C15_public_key_roundtrip", "C29_decrypt_create", "C29_refuted", "C30_confirm_create", "C30_refuted", "C31_confirm_pair", "C31_lot_sequence", "C32_long_seed_lost", "C32_refuted_long", "C32_refuted_short", "C33_errors", "C33_factor_point", "C33_returns", "C34_confirm_flag", "C34_confirm_reading", "C34_create_flag", "C34_illegal_refuted", "C35_iff", "C35_sound", "C37_ripple_confirm", "C37_ripple_create", "C40_confirm_errors", "C42_point_from_bytes_unchecked", "C42_point_on_curve_refuted", "C42_point_roundtrip", "C52_seed_injective", "C54_serialisation_injective", "C57_recreate", "C61_confirm_elsewhere", "C62_determines", "C63_confirmation_injective", "C64_confirm_standard", "C65_created_standard", "C67_confirm", "C68_create", "C68_refused_point", "C70_confirm", "C70_create"], "hit": ["C15"], "direct": [], "rounds": 2, "note": ""}
{"i": 49, "file": "Model/Secp256k1.lean", "definition": "PublicKey.fromPoint", "old": "| .inf => raise .typeError \"unsupported", "new": "| .inf => raise .secp256k1Error \"unsupported", "claims": ["C44"], "desc": "wrong class for infinity", "ok": false, "fails": ["C44_from_point_errors"], "files": {"Verif/Props/PointOps.lean": ["C44_from_point_errors"]}, "broken": ["C44_from_point_errors"], "hit": ["C44"], "direct": ["C44"], "rounds": 2, "note": ""}
{"i": 50, "file": "Model/Secp256k1.lean", "definition": "PublicKey.fromPoint", "old": "\"Invalid public key point\"\n    else raise .assertionError \"\"", "new": "\"Invalid public key point\"\n    else raise .secp256k1Error \"\"", "claims": ["C44"], "desc": "wrong class off the curve", "ok": false, "fails": ["C44_from_point_errors"], "files": {"Verif/Props/PointOps.lean": ["C44_from_point_errors"]}, "broken": ["C44_from_point_errors"], "hit": ["C44"], "direct": ["C44"], "rounds": 2, "note": ""}
{"i": 51, "file": "Model/Secp256k1.lean", "definition": "PublicKey.point", "old": ":= .aff k.x k.y", "new": ":= .aff k.x (fieldP - k.y)", "claims": ["C44"], "desc": "opposite point", "ok": false, "fails": ["C14_private_key_ok", "C16_surjective", "C35_iff", "C44_from_point_iff", "C44_roundtrip", "C61_confirm_elsewhere", "C63_confirmation_injective", "C67_confirm", "C70_confirm", "create_eq", "create_ready", "example@419", "exists_mul", "exists_pub", "fromPoint_point", "isPublicKeyOf_iff", "key153_unit", "point_injective", "privFromBytes_iff", "pub_valid"], "files": {"Verif/Lemmas/PublicKey.lean": ["exists_pub", "point_injective", "pub_valid", "privFromBytes_iff", "fromPoint_point", "exists_mul"], "Verif/Props/PointOps.lean": ["C44_from_point_iff", "C44_roundtrip"], "Verif/Props/Curve.lean": ["C14_private_key_ok", "C16_surjective"], "Verif/Lemmas/Bip38.lean": ["isPublicKeyOf_iff"], "Verif/Lemmas/Create.lean": ["create_eq"], "Verif/Props/Create.lean": ["create_ready"], "Verif/Props/Confirm.lean": ["C35_iff"], "Verif/Props/ConfirmExamples.lean": ["key153_unit"], "Verif/Props/Outcome.lean": ["C61_confirm_elsewhere", "C63_confirmation_injective", "example@419"], "Verif/Props/Outcome2.lean": ["C67_confirm"], "Verif/Props/Messages.lean": ["C70_confirm"]}, "broken": ["C11_create", "C11_encrypt", "C11_intermediate", "C14_private_key_iff", "C14_private_key_ok", "C15_private_key_point", "C16_api", "C16_injective", "C16_surjective", "C17_decrypt_encrypt", "C17_refuted", "C17_roundtrip_iff", "C18_encrypt_returns_iff", "C18_refuted", "C19_record", "C20_C21_returned_key", "C22_refuted", "C26_refuted", "C26_validation", "C27_unusable_code", "C28_layout", "C29_decrypt_create", "C29_refuted", "C30_confirm_create", "C30_refuted", "C31_confirm_pair", "C31_lot_sequence", "C31_reported_pair", "C32_long_seed_lost", "C32_refuted_long", "C32_refuted_short", "C33_errors", "C33_returns", "C34_confirm_flag", "C34_confirm_reading", "C34_create_flag", "C34_decrypt_flag", "C34_decrypt_reading", "C34_encrypt_flag", "C34_illegal_refuted", "C34_unknown_flag", "C35_iff", "C35_sound", "C37_refuted", "C37_ripple_confirm", "C37_ripple_create", "C37_ripple_decrypt", "C40_confirm_errors", "C40_decrypt_errors", "C40_ec_iff", "C40_noEc_iff", "C41_other_network", "C44_from_point_iff", "C44_roundtrip", "C51_injective", "C52_seed_injective", "C53_reencrypt", "C57_recreate", "C60_encrypt", "C61_confirm_elsewhere", "C61_decrypt_elsewhere", "C62_determines", "C63_confirmation_injective", "C64_confirm_standard", "C64_decrypt_standard", "C64_decrypt_standard_ec", "C65_created_standard", "C66_ec", "C66_noEc", "C67_confirm", "C68_create", "C69_intermediate", "C70_confirm", "C70_create", "C70_decrypt", "C70_encrypt", "C70_intermediate"], "hit": ["C44"], "direct": ["C44"], "rounds": 9, "note": ""}
{"i": 52, "file": "Model/Secp256k1.lean", "definition": "PrivateKey.publicKey", "old": ":= k.verifying", "new": ":= ⟨k.verifying.x, fieldP - k.verifying.y⟩", "claims": ["C15"], "desc": "opposite public key", "ok": false, "fails": ["C14_private_key_ok", "C15_private_key_point", "C16_api", "C16_injective", "C35_iff", "C40_decrypt_errors", "C40_ec_iff", "C40_noEc_iff", "confirm_eq", "confirm_written", "create_eq", "decryptEc_eq", "decryptNoEc_eq", "decrypt_record", "decrypt_written", "decrypt_written_zero", "describes_keyDetail", "ec_returns", "encrypt_eq", "exists_multiple", "intermediate_tail", "noEc_returns", "privFromBytes_ok", "priv_ok"], "files": {"Verif/Lemmas/PublicKey.lean": ["privFromBytes_ok"], "Verif/Props/Curve.lean": ["C14_private_key_ok", "C15_private_key_point", "C16_api", "C16_injective"], "Verif/Lemmas/Bip38.lean": ["priv_ok"], "Verif/Lemmas/NoEc.lean": ["encrypt_eq", "decryptNoEc_eq"], "Verif/Lemmas/Ec.lean": ["decryptEc_eq"], "Verif/Lemmas/Create.lean": ["create_eq"], "Verif/Lemmas/Confirm.lean": ["confirm_eq"], "Verif/Lemmas/Intermediate.lean": ["intermediate_tail"], "Verif/Props/NoEc.lean": ["decrypt_record"], "Verif/Props/Decrypt.lean": ["describes_keyDetail", "noEc_returns", "ec_returns", "C40_noEc_iff", "C40_ec_iff", "C40_decrypt_errors"], "Verif/Props/Create.lean": ["exists_multiple"], "Verif/Props/Ec.lean": ["decrypt_written", "decrypt_written_zero"], "Verif/Props/Confirm.lean": ["C35_iff", "confirm_written"]}, "broken": ["C14_private_key_ok", "C15_private_key_point", "C16_api", "C16_injective", "C35_iff", "C40_decrypt_errors", "C40_ec_iff", "C40_noEc_iff"], "hit": ["C15"], "direct": ["C15"], "rounds": 12, "note": ""}
{"i": 53, "file": "Model/Secp256k1.lean", "definition": "Point.rawDecoded", "old": "toBE 32 x ++ toBE 32 y", "new": "toBE 32 y ++ toBE 32 x", "claims": ["C42"], "desc": "coordinates swapped", "ok": false, "fails": ["C42_point_roundtrip", "C45_old_raw"], "files": {"Verif/Props/PointOps.lean": ["C45_old_raw"], "Verif/Props/Curve.lean": ["C42_point_roundtrip"]}, "broken": ["C42_point_roundtrip", "C45_old_raw"], "hit": ["C42"], "direct": ["C42"], "rounds": 2, "note": ""}
{"i": 54, "file": "Model/Const.lean", "definition": "EC_MULTIPLIED_PRIVATE_KEY_PREFIX", "old": "EC_MULTIPLIED_PRIVATE_KEY_PREFIX : Nat := 0x0143", "new": "EC_MULTIPLIED_PRIVATE_KEY_PREFIX : Nat := 0x0144", "claims": ["C11"], "desc": "wrong prefix", "ok": false, "fails": ["c_ec"], "files": {"Verif/Lemmas/Bip38.lean": ["c_ec"]}, "broken": ["C11_create", "C17_decrypt_encrypt", "C17_refuted", "C17_roundtrip_iff", "C20_C21_returned_key", "C22_checksum_ignored", "C22_refuted", "C23_flag", "C23_prefix", "C29_decrypt_create", "C29_refuted", "C30_confirm_create", "C30_refuted", "C31_lot_sequence", "C31_reported_pair", "C32_long_seed_lost", "C32_refuted_long", "C32_refuted_short", "C33_errors", "C33_returns", "C34_create_flag", "C34_decrypt_flag", "C34_decrypt_reading", "C34_illegal_refuted", "C34_unknown_flag", "C37_refuted", "C37_ripple_create", "C37_ripple_decrypt", "C40_decrypt_errors", "C40_ec_iff", "C40_noEc_iff", "C41_other_network", "C52_seed_injective", "C53_reencrypt", "C57_recreate", "C61_decrypt_elsewhere", "C63_confirmation_injective", "C64_decrypt_standard", "C64_decrypt_standard_ec", "C65_created_standard", "C66_ec", "C66_malformed", "C66_noEc", "C68_create", "C70_create", "C70_decrypt"], "hit": ["C11"], "direct": [], "rounds": 2, "note": ""}
{"i": 55, "file": "Model/Const.lean", "definition": "MAGIC_NO_LOT_AND_SEQUENCE", "old": ": Nat := 0x2ce9b3e1ff39e253", "new": ": Nat := 0x2ce9b3e1ff39e255", "claims": ["C28"], "desc": "wrong magic", "ok": false, "fails": ["c_magicNo"], "files": {"Verif/Lemmas/Bip38.lean": ["c_magicNo"]}, "broken": ["C11_create", "C11_intermediate", "C26_refuted", "C26_validation", "C27_unusable_code", "C28_layout", "C29_decrypt_create", "C29_refuted", "C30_confirm_create", "C30_refuted", "C31_lot_sequence", "C32_long_seed_lost", "C32_refuted_long", "C32_refuted_short", "C33_errors", "C33_factor_point", "C33_magic", "C33_returns", "C34_create_flag", "C34_illegal_refuted", "C37_ripple_create", "C52_seed_injective", "C57_recreate", "C62_determines", "C63_confirmation_injective", "C65_created_standard", "C68_create", "C68_refused", "C68_refused_point", "C69_intermediate", "C70_create", "C70_intermediate"], "hit": ["C28"], "direct": [], "rounds": 2, "note": ""}
{"i": 56, "file": "Model/Const.lean", "definition": "FLAGS_non_ec", "old": "NO_EC_MULTIPLIED_WIF_COMPRESSED_FLAG, 0xc8", "new": "NO_EC_MULTIPLIED_WIF_COMPRESSED_FLAG, 0xc4", "claims": ["C34"], "desc": "an illegal flag listed as usable", "ok": false, "fails": ["C34_classes_disjoint", "C34_tables"], "files": {"Verif/Props/Flags.lean": ["C34_tables", "C34_classes_disjoint"]}, "broken": ["C34_classes_disjoint", "C34_tables", "C34_unknown_flag"], "hit": ["C34"], "direct": ["C34"], "rounds": 2, "note": ""}
{"i": 57, "file": "Model/Const.lean", "definition": "PRIVATE_KEY_LENGTH", "old": "def PRIVATE_KEY_LENGTH : Nat := 32", "new": "def PRIVATE_KEY_LENGTH : Nat := 33", "claims": ["C14"], "desc": "length off by one", "ok": false, "fails": ["C44_lengths", "privFromBytes_error", "privFromBytes_iff"], "files": {"Verif/Lemmas/PublicKey.lean": ["privFromBytes_iff", "privFromBytes_error"], "Verif/Props/PointOps.lean": ["C44_lengths"]}, "broken": ["C11_create", "C11_encrypt", "C11_intermediate", "C14_private_key_error", "C14_private_key_iff", "C14_private_key_ok", "C15_private_key_point", "C16_api", "C16_injective", "C16_surjective", "C17_decrypt_encrypt", "C17_refuted", "C17_roundtrip_iff", "C18_encrypt_returns_iff", "C18_refuted", "C19_record", "C20_C21_returned_key", "C22_refuted", "C26_refuted", "C26_validation", "C27_unusable_code", "C28_layout", "C29_decrypt_create", "C29_refuted", "C30_confirm_create", "C30_refuted", "C31_confirm_pair", "C31_lot_sequence", "C31_reported_pair", "C32_long_seed_lost", "C32_refuted_long", "C32_refuted_short", "C33_errors", "C33_returns", "C34_confirm_flag", "C34_confirm_reading", "C34_create_flag", "C34_decrypt_flag", "C34_decrypt_reading", "C34_encrypt_flag", "C34_illegal_refuted", "C34_unknown_flag", "C35_iff", "C35_sound", "C37_refuted", "C37_ripple_confirm", "C37_ripple_create", "C37_ripple_decrypt", "C40_confirm_errors", "C40_decrypt_errors", "C40_ec_iff", "C40_noEc_iff", "C41_other_network", "C44_lengths", "C51_injective", "C52_seed_injective", "C53_reencrypt", "C57_recreate", "C60_encrypt", "C61_confirm_elsewhere", "C61_decrypt_elsewhere", "C62_determines", "C63_confirmation_injective", "C64_confirm_standard", "C64_decrypt_standard", "C64_decrypt_standard_ec", "C65_created_standard", "C66_ec", "C66_noEc", "C67_confirm", "C68_create", "C69_intermediate", "C70_confirm", "C70_create", "C70_decrypt", "C70_encrypt", "C70_intermediate"], "hit": ["C14"], "direct": [], "rounds": 3, "note": ""}
{"i": 58, "file": "Model/Const.lean", "definition": "UNCOMPRESSED_PUBLIC_KEY_LENGTH", "old": "def UNCOMPRESSED_PUBLIC_KEY_LENGTH : Nat := 65", "new": "def UNCOMPRESSED_PUBLIC_KEY_LENGTH : Nat := 64", "claims": ["C44"], "desc": "length off by one", "ok": false, "fails": ["C44_lengths"], "files": {"Verif/Props/PointOps.lean": ["C44_lengths"]}, "broken": ["C44_lengths"], "hit": ["C44"], "direct": ["C44"], "rounds": 2, "note": ""}
{"i": 59, "file": "Model/Exceptions.lean", "definition": "ErrorObj.str", "old": "\" | got: \".toList ++ e.got ++ \")\".toList", "new": "\" | got: \".toList ++ exp ++ \")\".toList", "claims": ["C39"], "desc": "expected shown as got", "ok": false, "fails": ["C39_text", "example@137"], "files": {"Verif/Props/Exceptions.lean": ["C39_text", "example@137"]}, "broken": ["C07_wrong_length", "C07_wrong_type", "C11_create", "C24_constructor_errors", "C24_unknown_network", "C29_decrypt_create", "C29_refuted", "C30_confirm_create", "C30_refuted", "C31_lot_sequence", "C32_long_seed_lost", "C33_errors", "C33_magic", "C33_returns", "C33_type", "C34_create_flag", "C34_illegal_refuted", "C37_ripple_create", "C39_detail", "C39_expected", "C39_message", "C39_plain", "C39_text", "C49_key_argument", "C52_seed_injective", "C63_confirmation_injective", "C65_created_standard", "C66_malformed", "C67_malformed", "C68_refused", "C69_intermediate", "C70_confirm", "C70_create", "C70_decrypt", "C70_intermediate"], "hit": ["C39"], "direct": ["C39"], "rounds": 2, "note": ""}
{"i": 60, "file": "Model/Exceptions.lean", "definition": "optTruthy", "old": "| some s => !s.isEmpty", "new": "| some _ => true", "claims": ["C39"], "desc": "an empty detail counts as given", "ok": false, "fails": ["C39_text"], "files": {"Verif/Props/Exceptions.lean": ["C39_text"]}, "broken": ["C07_wrong_length", "C07_wrong_type", "C11_create", "C24_constructor_errors", "C24_unknown_network", "C29_decrypt_create", "C29_refuted", "C30_confirm_create", "C30_refuted", "C31_lot_sequence", "C32_long_seed_lost", "C33_errors", "C33_magic", "C33_returns", "C33_type", "C34_create_flag", "C34_illegal_refuted", "C37_ripple_create", "C39_detail", "C39_expected", "C39_message", "C39_plain", "C39_text", "C49_key_argument", "C52_seed_injective", "C63_confirmation_injective", "C65_created_standard", "C66_malformed", "C67_malformed", "C68_refused", "C69_intermediate", "C70_confirm", "C70_create", "C70_decrypt", "C70_intermediate"], "hit": ["C39"], "direct": ["C39"], "rounds": 2, "note": ""}
{"i": 61, "file": "Model/Exceptions.lean", "definition": "quoted", "old": "'\\'' :: (x ++ ['\\''])", "new": "(x ++ ['\\''])", "claims": ["C39"], "desc": "missing opening quote", "ok": false, "fails": ["C39_expected", "C39_text", "example@137", "quotedList_cons"], "files": {"Verif/Props/Exceptions.lean": ["quotedList_cons", "C39_text", "C39_expected", "example@137"]}, "broken": ["C39_expected", "C39_text"], "hit": ["C39"], "direct": ["C39"], "rounds": 1, "note": "patch Verif/Props/Exceptions.lean"}
{"i": 62, "file": "Model/Wif.lean", "definition": "wifToPrivateKey", "old": "let (key, _, _) ← decodeWif wif net.wifPrefix\n  bytesToString (.bytes key)", "new": "let (key, _, _) ← decodeWif wif net.addressPrefix\n  bytesToString (.bytes key)", "claims": ["C07"], "desc": "address prefix used", "ok": false, "fails": ["C07_wif_roundtrip", "C08_other_network", "C09_any_checksum_accepted", "C10_any_marker_accepted", "C49_readers_agree", "encrypt_reads", "example@70", "wifLike_reads", "wif_reads"], "files": {"Verif/Props/Wif.lean": ["C07_wif_roundtrip", "C08_other_network", "C09_any_checksum_accepted", "C10_any_marker_accepted"], "Verif/Lemmas/NoEc.lean": ["wif_reads"], "Verif/Props/WifMore.lean": ["C49_readers_agree"], "Verif/Props/NoEc.lean": ["encrypt_reads"], "Verif/Props/Inject.lean": ["example@70"], "Verif/Props/Outcome.lean": ["wifLike_reads"]}, "broken": ["C07_wif_roundtrip", "C08_injective", "C08_other_network", "C09_any_checksum_accepted", "C09_wrong_checksum_refuted", "C10_any_marker_accepted", "C10_wrong_marker_refuted", "C11_encrypt", "C17_decrypt_encrypt", "C17_refuted", "C17_roundtrip_iff", "C18_refuted", "C19_record", "C20_C21_returned_key", "C22_refuted", "C34_encrypt_flag", "C34_illegal_refuted", "C37_refuted", "C37_ripple_decrypt", "C41_other_network", "C49_readers_agree", "C51_injective", "C53_reencrypt", "C57_recreate", "C58_wif_networks", "C60_encrypt", "C61_decrypt_elsewhere", "C70_encrypt"], "hit": ["C07"], "direct": ["C07"], "rounds": 6, "note": ""}
{"i": 63, "file": "Model/Wif.lean", "definition": "getWifType", "old": "let (_, type, _) ← decodeWif wif net.wifPrefix\n  .ok type", "new": "let (_, _, _) ← decodeWif wif net.wifPrefix\n  .ok \"wif\"", "claims": ["C07"], "desc": "type hard-coded", "ok": false, "fails": ["C07_wif_roundtrip", "C09_any_checksum_accepted", "C10_any_marker_accepted", "C49_readers_agree", "encrypt_reads", "wifLike_reads"], "files": {"Verif/Props/Wif.lean": ["C07_wif_roundtrip", "C09_any_checksum_accepted", "C10_any_marker_accepted"], "Verif/Props/WifMore.lean": ["C49_readers_agree"], "Verif/Props/NoEc.lean": ["encrypt_reads"], "Verif/Props/Outcome.lean": ["wifLike_reads"]}, "broken": ["C07_wif_roundtrip", "C08_injective", "C09_any_checksum_accepted", "C09_wrong_checksum_refuted", "C10_any_marker_accepted", "C10_wrong_marker_refuted", "C11_encrypt", "C17_decrypt_encrypt", "C17_refuted", "C17_roundtrip_iff", "C18_refuted", "C19_record", "C20_C21_returned_key", "C22_refuted", "C34_encrypt_flag", "C34_illegal_refuted", "C37_refuted", "C37_ripple_decrypt", "C41_other_network", "C49_readers_agree", "C51_injective", "C53_reencrypt", "C57_recreate", "C58_wif_networks", "C60_encrypt", "C61_decrypt_elsewhere", "C70_encrypt"], "hit": ["C07"], "direct": ["C07"], "rounds": 4, "note": ""}
{"i": 64, "file": "Model/Wif.lean", "definition": "decodeWif", "old": "raiseIf (¬ pre.isPrefixOf raw) .wifError \"Invalid Wallet Import Format (WIF)\"\n", "new": "", "claims": ["C49"], "desc": "first prefix check dropped (the second one is equivalent)", "ok": false, "fails": ["decodeWif_wrong_prefix"], "files": {"Verif/Lemmas/Wif.lean": ["decodeWif_wrong_prefix"]}, "broken": ["C08_other_network", "C09_decode_wif_iff", "C11_encrypt", "C17_decrypt_encrypt", "C17_refuted", "C17_roundtrip_iff", "C19_record", "C22_refuted", "C34_encrypt_flag", "C37_refuted", "C41_other_network", "C49_decode_errors", "C49_readers_agree", "C51_injective", "C58_wif_networks", "C60_encrypt", "C70_encrypt"], "hit": ["C49"], "direct": [], "rounds": 2, "note": ""}
{"i": 65, "file": "Model/Wif.lean", "definition": "decodeWif", "old": "raiseIf (pre ≠ prefixGot) .wifError\n    (errText \"Invalid WIF prefix\" (.one true (toString prefixLength).toList) (String.ofList (bytesRepr prefixGot)))\n", "new": "", "claims": ["C49"], "desc": "second prefix check dropped (redundant)", "ok": true, "fails": [], "files": {}, "broken": [], "hit": [], "direct": [], "rounds": 1, "note": ""}
{"i": 66, "file": "Model/P2pkh.lean", "definition": "p2pkhEncode", "old": "| .data d => do PublicKey.fromBytes (← getBytes d)", "new": "| .data d => do PublicKey.fromBytes (← getBytes d (unhexlify := false))", "claims": ["C12"], "desc": "hex text of a key not decoded", "ok": false, "fails": ["C12_key_forms", "p2pkhEncode_data"], "files": {"Verif/Lemmas/P2pkh.lean": ["p2pkhEncode_data"], "Verif/Props/Address.lean": ["C12_key_forms"]}, "broken": ["C12_key_forms"], "hit": ["C12"], "direct": ["C12"], "rounds": 3, "note": ""}
{"i": 67, "file": "Model/P2pkh.lean", "definition": "p2pkhEncode", "old": "(publicKeyType : String := \"compressed\")\n    (alphabet : Str := bitcoinAlphabet) : Py Str", "new": "(publicKeyType : String := \"uncompressed\")\n    (alphabet : Str := bitcoinAlphabet) : Py Str", "claims": ["C12"], "desc": "default serialisation changed", "ok": true, "fails": [], "files": {}, "broken": [], "hit": [], "direct": [], "rounds": 1, "note": ""}
{"i": 68, "file": "Model/Coins.lean", "definition": "Litecoin", "old": "(\"mainnet\", ⟨0xb0, 0x30⟩), (\"testnet\", ⟨0xef, 0x6f⟩)], none⟩", "new": "(\"mainnet\", ⟨0xb0, 0x05⟩), (\"testnet\", ⟨0xef, 0x6f⟩)], none⟩", "claims": ["C59"], "desc": "Litecoin P2SH prefix in place of the P2PKH one", "ok": false, "fails": ["starts_check"], "files": {"Verif/Props/Starts.lean": ["starts_check"]}, "broken": ["C59_address", "C59_wif"], "hit": ["C59"], "direct": [], "rounds": 2, "note": ""}
{"i": 69, "file": "Model/Coins.lean", "definition": "Dash", "old": "⟨\"Dash\", [(\"mainnet\", ⟨0xcc, 0x4c⟩", "new": "⟨\"Dash\", [(\"mainnet\", ⟨0x80, 0x4c⟩", "claims": ["C59"], "desc": "Dash with Bitcoin's WIF prefix", "ok": false, "fails": ["starts_check"], "files": {"Verif/Props/Starts.lean": ["starts_check"]}, "broken": ["C59_address", "C59_wif"], "hit": ["C59"], "direct": [], "rounds": 2, "note": ""}
{"i": 70, "file": "Model/Coins.lean", "definition": "Dogecoin", "old": "(\"testnet\", ⟨0xf1, 0x71⟩)", "new": "(\"testnet\", ⟨0xef, 0x71⟩)", "claims": ["C58"], "desc": "another WIF prefix for Dogecoin testnet", "ok": false, "fails": ["example@92", "shared_check"], "files": {"Verif/Props/Starts.lean": ["shared_check", "example@92"]}, "broken": ["C58_address_networks", "C58_wif_networks"], "hit": ["C58"], "direct": [], "rounds": 2, "note": ""}
{"i": 71, "file": "Model/Coins.lean", "definition": "Dogecoin", "old": "(\"mainnet\", ⟨0xf1, 0x1e⟩)", "new": "(\"main\", ⟨0xf1, 0x1e⟩)", "claims": ["C36"], "desc": "network misspelt", "ok": false, "fails": ["C59_complete", "all_check", "example@92", "shared_check"], "files": {"Verif/Props/Coins.lean": ["all_check"], "Verif/Props/Starts.lean": ["shared_check", "example@92", "C59_complete"]}, "broken": ["C36_constructs", "C36_proper", "C36_table", "C37_stored", "C58_address_networks", "C58_wif_networks", "C59_address", "C59_complete", "C59_wif"], "hit": ["C36"], "direct": [], "rounds": 3, "note": ""}
{"i": 72, "file": "Model/Coins.lean", "definition": "LitecoinZ", "old": "⟨0x80, 0xab3⟩", "new": "⟨0x80, 0xab30b⟩", "claims": ["C36"], "desc": "prefix of three bytes", "ok": false, "fails": ["all_check", "starts_check"], "files": {"Verif/Props/Coins.lean": ["all_check"], "Verif/Props/Starts.lean": ["starts_check"]}, "broken": ["C36_constructs", "C36_proper", "C36_table", "C37_stored", "C58_address_networks", "C58_wif_networks", "C59_address", "C59_wif"], "hit": ["C36"], "direct": [], "rounds": 3, "note": ""}
{"i": 73, "file": "Model/Coins.lean", "definition": "Litecoin", "old": "(\"mainnet\", ⟨0xb0, 0x30⟩), (\"testnet\", ⟨0xef, 0x6f⟩)], none⟩", "new": "(\"mainnet\", ⟨0xb0, 0x30⟩), (\"mainnet\", ⟨0xef, 0x6f⟩)], none⟩", "claims": ["C36"], "desc": "a network listed twice", "ok": false, "fails": ["all_check", "starts_check"], "files": {"Verif/Props/Coins.lean": ["all_check"], "Verif/Props/Starts.lean": ["starts_check"]}, "broken": ["C36_constructs", "C36_proper", "C36_table", "C37_stored", "C58_address_networks", "C58_wif_networks", "C59_address", "C59_wif"], "hit": ["C36"], "direct": [], "rounds": 3, "note": ""}
{"i": 74, "file": "Model/Bip38.lean", "definition": "b2i", "old": "(bytesToInteger data).toNat", "new": "(bytesToInteger data .little).toNat", "claims": ["C17"], "desc": "little-endian masks", "ok": false, "fails": ["b2i_eq"], "files": {"Verif/Lemmas/Bip38.lean": ["b2i_eq"]}, "broken": ["C11_create", "C11_encrypt", "C17_decrypt_encrypt", "C17_refuted", "C17_roundtrip_iff", "C18_encrypt_returns_iff", "C18_refuted", "C19_record", "C20_C21_returned_key", "C22_refuted", "C29_decrypt_create", "C29_refuted", "C30_confirm_create", "C30_refuted", "C31_confirm_pair", "C31_lot_sequence", "C31_reported_pair", "C32_long_seed_lost", "C32_refuted_long", "C32_refuted_short", "C33_errors", "C33_factor_point", "C33_returns", "C34_confirm_flag", "C34_confirm_reading", "C34_create_flag", "C34_decrypt_flag", "C34_decrypt_reading", "C34_encrypt_flag", "C34_illegal_refuted", "C34_unknown_flag", "C35_iff", "C35_sound", "C37_refuted", "C37_ripple_confirm", "C37_ripple_create", "C37_ripple_decrypt", "C40_confirm_errors", "C40_decrypt_errors", "C40_ec_iff", "C40_noEc_iff", "C41_other_network", "C51_injective", "C52_seed_injective", "C53_reencrypt", "C57_recreate", "C60_encrypt", "C61_confirm_elsewhere", "C61_decrypt_elsewhere", "C63_confirmation_injective", "C64_confirm_standard", "C64_decrypt_standard", "C64_decrypt_standard_ec", "C65_created_standard", "C66_ec", "C66_noEc", "C67_confirm", "C68_create", "C68_refused_point", "C70_confirm", "C70_create", "C70_decrypt", "C70_encrypt"], "hit": ["C17"], "direct": [], "rounds": 2, "note": ""}
{"i": 75, "file": "Model/Bip38.lean", "definition": "BIP38.new", "old": "if a.isEmpty then bitcoinAlphabet else a", "new": "bitcoinAlphabet", "claims": ["C37"], "desc": "alphabet of the coin ignored by the constructor", "ok": false, "fails": ["C37_stored", "example@45", "ripple_decrypts", "ripple_selects"], "files": {"Verif/Props/Alphabet.lean": ["C37_stored", "ripple_selects", "example@45", "ripple_decrypts", "ripple_decrypts"]}, "broken": ["C37_stored"], "hit": ["C37"], "direct": ["C37"], "rounds": 2, "note": "loop ripple_decrypts"}
{"i": 76, "file": "Model/Bip38.lean", "definition": "truthyInt", "old": "| some n => n ≠ 0", "new": "| some _ => true", "claims": ["C27"], "desc": "zero counted as given", "ok": false, "fails": ["C27_lot_zero_ignored", "C27_sequence_zero_ignored", "intermediate_eq", "intermediate_lot", "intermediate_noLot", "usesLot_eq"], "files": {"Verif/Lemmas/Intermediate.lean": ["intermediate_lot", "intermediate_noLot"], "Verif/Props/Intermediate.lean": ["usesLot_eq", "intermediate_eq", "C27_sequence_zero_ignored", "C27_lot_zero_ignored"]}, "broken": ["C11_intermediate", "C26_refuted", "C26_validation", "C27_lot_zero_ignored", "C27_sequence_zero_ignored", "C27_unusable_code", "C28_layout", "C29_decrypt_create", "C29_refuted", "C30_confirm_create", "C30_refuted", "C31_lot_sequence", "C32_long_seed_lost", "C32_refuted_long", "C32_refuted_short", "C34_illegal_refuted", "C57_recreate", "C62_determines", "C65_created_standard", "C69_intermediate", "C70_intermediate"], "hit": ["C27"], "direct": ["C27"], "rounds": 3, "note": ""}
{"i": 77, "file": "Model/Bip38.lean", "definition": "bytesOrRandom", "old": "if x.truthy then getBytes x else .ok u", "new": ".ok u", "claims": ["C46"], "desc": "the given seed is ignored", "ok": false, "fails": ["C26_refuted", "C30_refuted", "C57_recreate", "C62_salt_prefix", "absent_random", "example@114", "example@156", "example@173", "example@182", "example@202", "example@238", "example@293", "example@409", "example@419", "example@516", "example@7", "present_random", "supplies_iff", "unit_create", "unit_decrypt", "unreadable"], "files": {"Verif/Lemmas/Supplies.lean": ["supplies_iff"], "Verif/Props/Intermediate.lean": ["unreadable", "example@202", "C26_refuted", "example@238", "example@293"], "Verif/Props/Args.lean": ["absent_random", "present_random"], "Verif/Props/EcExamples.lean": ["unit_create", "unit_decrypt", "example@173"], "Verif/Props/ConfirmExamples.lean": ["example@7", "C30_refuted"], "Verif/Props/InverseEc.lean": ["C57_recreate", "example@156"], "Verif/Props/Interop.lean": ["example@182"], "Verif/Props/Outcome.lean": ["C62_salt_prefix", "example@419"], "Verif/Props/Outcome2.lean": ["example@516"], "Verif/Props/Messages.lean": ["example@114", "example@409"]}, "broken": ["C11_create", "C11_intermediate", "C26_refuted", "C26_salt", "C26_validation", "C27_lot_zero_ignored", "C27_sequence_zero_ignored", "C27_unusable_code", "C28_layout", "C29_decrypt_create", "C29_refuted", "C30_confirm_create", "C30_refuted", "C31_lot_sequence", "C32_long_seed_lost", "C32_refuted_long", "C32_refuted_short", "C33_checksum", "C33_errors", "C33_factor_point", "C33_length", "C33_magic", "C33_returns", "C33_seed", "C33_type", "C34_create_flag", "C34_illegal_refuted", "C37_ripple_create", "C46_hex", "C46_salt_given", "C46_salt_omitted", "C46_seed_given", "C46_seed_omitted", "C52_seed_injective", "C57_recreate", "C62_determines", "C62_salt_prefix", "C63_confirmation_injective", "C65_created_standard", "C68_create", "C68_refused", "C68_refused_point", "C69_intermediate", "C70_create", "C70_intermediate"], "hit": ["C46"], "direct": [], "rounds": 8, "note": ""}
{"i": 78, "file": "Model/Bip38.lean", "definition": "lotFactor", "old": "scryptPassphrase P passphrase (ownerSalt.take 4) 32", "new": "scryptPassphrase P passphrase ownerSalt 32", "claims": ["C62"], "desc": "whole salt used with lot numbers", "ok": false, "fails": ["C62_salt_prefix", "intermediate_lot"], "files": {"Verif/Lemmas/Intermediate.lean": ["intermediate_lot"], "Verif/Props/Outcome.lean": ["C62_salt_prefix"]}, "broken": ["C11_intermediate", "C26_refuted", "C26_validation", "C27_unusable_code", "C28_layout", "C29_decrypt_create", "C29_refuted", "C30_confirm_create", "C30_refuted", "C31_lot_sequence", "C32_long_seed_lost", "C32_refuted_long", "C32_refuted_short", "C34_illegal_refuted", "C57_recreate", "C62_determines", "C62_salt_prefix", "C65_created_standard", "C69_intermediate", "C70_intermediate"], "hit": ["C62"], "direct": ["C62"], "rounds": 3, "note": ""}
{"i": 79, "file": "Model/Bip38.lean", "definition": "checkDecodeOr", "old": "if e.cls.isValueError then raise cls msg else .error e", "new": ".error e", "claims": ["C33"], "desc": "ValueError not converted", "ok": false, "fails": ["checkDecodeOr_error"], "files": {"Verif/Lemmas/Confirm.lean": ["checkDecodeOr_error"]}, "broken": ["C11_create", "C29_decrypt_create", "C29_refuted", "C30_confirm_create", "C30_refuted", "C31_lot_sequence", "C32_long_seed_lost", "C33_checksum", "C33_errors", "C33_returns", "C34_create_flag", "C34_illegal_refuted", "C35_checksum", "C35_sound", "C37_ripple_confirm", "C37_ripple_create", "C40_confirm_errors", "C52_seed_injective", "C61_confirm_elsewhere", "C63_confirmation_injective", "C65_created_standard", "C67_malformed", "C68_refused", "C70_confirm", "C70_create"], "hit": ["C33"], "direct": [], "rounds": 2, "note": ""}
{"i": 80, "file": "Model/Bip38.lean", "definition": "createNewEncryptedWif", "old": "let seedText ← bytesToString (.bytes seedB)\n  .ok { encryptedWif", "new": "let seedText ← bytesToString (.bytes factorB)\n  .ok { encryptedWif", "claims": ["C29"], "desc": "factor reported as seed", "ok": false, "fails": ["create_eq"], "files": {"Verif/Lemmas/Create.lean": ["create_eq"]}, "broken": ["C11_create", "C29_decrypt_create", "C29_refuted", "C30_confirm_create", "C30_refuted", "C31_lot_sequence", "C32_long_seed_lost", "C32_refuted_long", "C32_refuted_short", "C33_errors", "C33_returns", "C34_create_flag", "C34_illegal_refuted", "C37_ripple_create", "C52_seed_injective", "C57_recreate", "C63_confirmation_injective", "C65_created_standard", "C68_create", "C70_create"], "hit": ["C29"], "direct": [], "rounds": 2, "note": ""}
{"i": 81, "file": "Model/Bip38.lean", "definition": "createNewEncryptedWif", "old": "let pointBPrefix ← integerToBytes (((b2i (scryptHash.drop 63) &&& 1)", "new": "let pointBPrefix ← integerToBytes (((b2i (scryptHash.drop 63) &&& 3)", "claims": ["C30", "C63"], "desc": "two bits masked in the point prefix", "ok": false, "fails": ["create_eq"], "files": {"Verif/Lemmas/Create.lean": ["create_eq"]}, "broken": ["C11_create", "C29_decrypt_create", "C29_refuted", "C30_confirm_create", "C30_refuted", "C31_lot_sequence", "C32_long_seed_lost", "C32_refuted_long", "C32_refuted_short", "C33_errors", "C33_returns", "C34_create_flag", "C34_illegal_refuted", "C37_ripple_create", "C52_seed_injective", "C57_recreate", "C63_confirmation_injective", "C65_created_standard", "C68_create", "C70_create"], "hit": ["C30", "C63"], "direct": [], "rounds": 2, "note": ""}
{"i": 82, "file": "Model/Bip38.lean", "definition": "createNewEncryptedWif", "old": "aes.encrypt P (← xorBytes (pointB.drop 17) derivedHalf2)", "new": "aes.encrypt P (← xorBytes (slice 1 17 pointB) derivedHalf2)", "claims": ["C30", "C63"], "desc": "the first half of the point encrypted twice", "ok": false, "fails": ["create_eq"], "files": {"Verif/Lemmas/Create.lean": ["create_eq"]}, "broken": ["C11_create", "C29_decrypt_create", "C29_refuted", "C30_confirm_create", "C30_refuted", "C31_lot_sequence", "C32_long_seed_lost", "C32_refuted_long", "C32_refuted_short", "C33_errors", "C33_returns", "C34_create_flag", "C34_illegal_refuted", "C37_ripple_create", "C52_seed_injective", "C57_recreate", "C63_confirmation_injective", "C65_created_standard", "C68_create", "C70_create"], "hit": ["C30", "C63"], "direct": [], "rounds": 2, "note": ""}
{"i": 83, "file": "Model/Bip38.lean", "definition": "createNewEncryptedWif", "old": "(ecPrefix ++ flag ++ addressHash ++ ownerEntropy ++ encryptedHalf1.take 8 ++ encryptedHalf2)", "new": "(ecPrefix ++ flag ++ addressHash ++ ownerEntropy ++ encryptedHalf1.drop 8 ++ encryptedHalf2)", "claims": ["C29", "C52"], "desc": "wrong half of the first block stored", "ok": false, "fails": ["create_eq"], "files": {"Verif/Lemmas/Create.lean": ["create_eq"]}, "broken": ["C11_create", "C29_decrypt_create", "C29_refuted", "C30_confirm_create", "C30_refuted", "C31_lot_sequence", "C32_long_seed_lost", "C32_refuted_long", "C32_refuted_short", "C33_errors", "C33_returns", "C34_create_flag", "C34_illegal_refuted", "C37_ripple_create", "C52_seed_injective", "C57_recreate", "C63_confirmation_injective", "C65_created_standard", "C68_create", "C70_create"], "hit": ["C29", "C52"], "direct": [], "rounds": 2, "note": ""}
{"i": 84, "file": "Model/Bip38.lean", "definition": "createNewEncryptedWif", "old": "raiseIf (¬ (0 < b2i factorB ∧ b2i factorB < N)) .error \"Invalid EC encrypted WIF (Wallet Import Format)\"\n", "new": "", "claims": ["C33"], "desc": "range of the factor not checked", "ok": false, "fails": ["C33_factor_point", "C68_refused_point", "create_eq"], "files": {"Verif/Lemmas/Create.lean": ["create_eq"], "Verif/Props/Create.lean": ["C33_factor_point"], "Verif/Props/Outcome2.lean": ["C68_refused_point"]}, "broken": ["C11_create", "C29_decrypt_create", "C29_refuted", "C30_confirm_create", "C30_refuted", "C31_lot_sequence", "C32_long_seed_lost", "C32_refuted_long", "C32_refuted_short", "C33_errors", "C33_factor_point", "C33_returns", "C34_create_flag", "C34_illegal_refuted", "C37_ripple_create", "C52_seed_injective", "C57_recreate", "C63_confirmation_injective", "C65_created_standard", "C68_create", "C68_refused_point", "C70_create"], "hit": ["C33"], "direct": ["C33"], "rounds": 4, "note": ""}
{"i": 85, "file": "Model/Bip38.lean", "definition": "confirmCode", "old": "let salt := addressHash ++ ownerEntropy\n  let scryptHash := P.scrypt passPoint salt 1024 1 1 64\n  let derivedHalf1 := slice 1 17", "new": "let salt := addressHash ++ ownerSalt\n  let scryptHash := P.scrypt passPoint salt 1024 1 1 64\n  let derivedHalf1 := slice 1 17", "claims": ["C30"], "desc": "owner salt instead of owner entropy", "ok": false, "fails": ["confirm_eq"], "files": {"Verif/Lemmas/Confirm.lean": ["confirm_eq"]}, "broken": ["C30_confirm_create", "C30_refuted", "C31_confirm_pair", "C34_confirm_flag", "C34_confirm_reading", "C35_iff", "C35_sound", "C37_ripple_confirm", "C40_confirm_errors", "C61_confirm_elsewhere", "C64_confirm_standard", "C67_confirm", "C70_confirm"], "hit": ["C30"], "direct": [], "rounds": 2, "note": ""}
{"i": 86, "file": "Model/Bip38.lean", "definition": "confirmCode", "old": "(pb.point.mul (b2i passFactor))", "new": "(pb.point.mul (b2i passFactor + 1))", "claims": ["C35", "C30"], "desc": "factor off by one", "ok": false, "fails": ["confirm_eq"], "files": {"Verif/Lemmas/Confirm.lean": ["confirm_eq"]}, "broken": ["C30_confirm_create", "C30_refuted", "C31_confirm_pair", "C34_confirm_flag", "C34_confirm_reading", "C35_iff", "C35_sound", "C37_ripple_confirm", "C40_confirm_errors", "C61_confirm_elsewhere", "C64_confirm_standard", "C67_confirm", "C70_confirm"], "hit": ["C35", "C30"], "direct": [], "rounds": 2, "note": ""}
{"i": 87, "file": "Model/Bip38.lean", "definition": "decryptNoEc", "old": "(decryptedHalf1 ++ decryptedHalf2)", "new": "(decryptedHalf2 ++ decryptedHalf1)", "claims": ["C17", "C53"], "desc": "halves swapped", "ok": false, "fails": ["decryptNoEc_eq"], "files": {"Verif/Lemmas/NoEc.lean": ["decryptNoEc_eq"]}, "broken": ["C17_decrypt_encrypt", "C17_refuted", "C17_roundtrip_iff", "C20_C21_returned_key", "C22_refuted", "C34_illegal_refuted", "C37_refuted", "C37_ripple_decrypt", "C40_decrypt_errors", "C40_noEc_iff", "C41_other_network", "C53_reencrypt", "C57_recreate", "C61_decrypt_elsewhere", "C64_decrypt_standard", "C66_noEc", "C70_decrypt"], "hit": ["C17", "C53"], "direct": [], "rounds": 2, "note": ""}
{"i": 88, "file": "Model/Bip38.lean", "definition": "decryptNoEc", "old": "seed := none, address, lot := none, sequence := none", "new": "seed := some [], address, lot := none, sequence := none", "claims": ["C21"], "desc": "empty seed reported", "ok": false, "fails": ["decryptNoEc_eq"], "files": {"Verif/Lemmas/NoEc.lean": ["decryptNoEc_eq"]}, "broken": ["C17_decrypt_encrypt", "C17_refuted", "C17_roundtrip_iff", "C20_C21_returned_key", "C22_refuted", "C34_illegal_refuted", "C37_refuted", "C37_ripple_decrypt", "C40_decrypt_errors", "C40_noEc_iff", "C41_other_network", "C53_reencrypt", "C57_recreate", "C61_decrypt_elsewhere", "C64_decrypt_standard", "C66_noEc", "C70_decrypt"], "hit": ["C21"], "direct": [], "rounds": 2, "note": ""}
{"i": 89, "file": "Model/Bip38.lean", "definition": "decryptEc", "old": "let encryptedHalf2 := dropLastN 4 decoded |>.drop 23", "new": "let encryptedHalf2 := decoded.drop 23", "claims": ["C29"], "desc": "checksum not cut off", "ok": false, "fails": ["C22_checksum_ignored", "decryptEc_eq"], "files": {"Verif/Lemmas/Ec.lean": ["decryptEc_eq"], "Verif/Props/Decrypt.lean": ["C22_checksum_ignored"]}, "broken": ["C20_C21_returned_key", "C22_checksum_ignored", "C22_refuted", "C29_decrypt_create", "C29_refuted", "C31_lot_sequence", "C31_reported_pair", "C32_long_seed_lost", "C34_decrypt_flag", "C34_decrypt_reading", "C34_illegal_refuted", "C34_unknown_flag", "C37_refuted", "C37_ripple_decrypt", "C40_decrypt_errors", "C40_ec_iff", "C53_reencrypt", "C57_recreate", "C61_decrypt_elsewhere", "C64_decrypt_standard_ec", "C66_ec", "C70_decrypt"], "hit": ["C29"], "direct": [], "rounds": 3, "note": ""}
{"i": 90, "file": "Model/Bip38.lean", "definition": "decryptEc", "old": "let seedB := head ++ tail.drop 8", "new": "let seedB := head ++ tail.take 8", "claims": ["C29", "C57"], "desc": "wrong part of the tail used as seed", "ok": false, "fails": ["decryptEc_eq"], "files": {"Verif/Lemmas/Ec.lean": ["decryptEc_eq"]}, "broken": ["C20_C21_returned_key", "C22_refuted", "C29_decrypt_create", "C29_refuted", "C31_lot_sequence", "C31_reported_pair", "C32_long_seed_lost", "C34_decrypt_flag", "C34_decrypt_reading", "C34_illegal_refuted", "C34_unknown_flag", "C37_refuted", "C37_ripple_decrypt", "C40_decrypt_errors", "C40_ec_iff", "C53_reencrypt", "C57_recreate", "C61_decrypt_elsewhere", "C64_decrypt_standard_ec", "C66_ec", "C70_decrypt"], "hit": ["C29", "C57"], "direct": [], "rounds": 2, "note": ""}
{"i": 91, "file": "Model/Bip38.lean", "definition": "decryptEc", "old": "(b2i passFactor * b2i factorB % N : Nat)", "new": "(b2i passFactor + b2i factorB % N : Nat)", "claims": ["C29"], "desc": "sum instead of product", "ok": false, "fails": ["decryptEc_eq"], "files": {"Verif/Lemmas/Ec.lean": ["decryptEc_eq"]}, "broken": ["C20_C21_returned_key", "C22_refuted", "C29_decrypt_create", "C29_refuted", "C31_lot_sequence", "C31_reported_pair", "C32_long_seed_lost", "C34_decrypt_flag", "C34_decrypt_reading", "C34_illegal_refuted", "C34_unknown_flag", "C37_refuted", "C37_ripple_decrypt", "C40_decrypt_errors", "C40_ec_iff", "C53_reencrypt", "C57_recreate", "C61_decrypt_elsewhere", "C64_decrypt_standard_ec", "C66_ec", "C70_decrypt"], "hit": ["C29"], "direct": [], "rounds": 2, "note": ""}
{"i": 92, "file": "Model/Bip38.lean", "definition": "decrypt", "old": "else raise .error (errText \"Invalid prefix\" (.list [hexText noEcPrefix, hexText ecPrefix]) (String.ofList (hexText pre)))", "new": "else self.decryptEc P decoded passphrase network detail", "claims": ["C23"], "desc": "unknown prefix treated as EC record", "ok": false, "fails": ["C23_prefix", "C66_malformed"], "files": {"Verif/Props/Decrypt.lean": ["C23_prefix"], "Verif/Props/Outcome2.lean": ["C66_malformed"]}, "broken": ["C20_C21_returned_key", "C22_refuted", "C23_prefix", "C34_illegal_refuted", "C37_refuted", "C37_ripple_decrypt", "C40_decrypt_errors", "C53_reencrypt", "C57_recreate", "C61_decrypt_elsewhere", "C66_malformed", "C70_decrypt"], "hit": ["C23"], "direct": ["C23"], "rounds": 3, "note": ""}
{"i": 93, "file": "Model/Bip38.lean", "definition": "decrypt", "old": "raiseIf (decoded.length ≠ 43) .wifError", "new": "raiseIf (decoded.length < 39) .wifError", "claims": ["C23"], "desc": "longer and shorter records accepted", "ok": false, "fails": ["C22_checksum_ignored", "C23_length", "C23_prefix", "C66_malformed"], "files": {"Verif/Props/Decrypt.lean": ["C23_length", "C23_prefix", "C22_checksum_ignored"], "Verif/Props/Outcome2.lean": ["C66_malformed"]}, "broken": ["C20_C21_returned_key", "C22_checksum_ignored", "C22_refuted", "C23_length", "C23_prefix", "C34_illegal_refuted", "C37_refuted", "C37_ripple_decrypt", "C40_decrypt_errors", "C53_reencrypt", "C57_recreate", "C61_decrypt_elsewhere", "C66_malformed", "C70_decrypt"], "hit": ["C23"], "direct": ["C23"], "rounds": 3, "note": ""}
{"i": 94, "file": "Model/Bip38.lean", "definition": "intermediateCode", "old": "(magic ++ ownerEntropy ++ passPoint.rawCompressed)", "new": "(magic ++ ownerEntropy ++ passPoint.rawUncompressed)", "claims": ["C28", "C62"], "desc": "uncompressed pass point", "ok": false, "fails": ["intermediate_lot", "intermediate_noLot"], "files": {"Verif/Lemmas/Intermediate.lean": ["intermediate_lot", "intermediate_noLot"]}, "broken": ["C11_intermediate", "C26_refuted", "C26_validation", "C27_unusable_code", "C28_layout", "C29_decrypt_create", "C29_refuted", "C30_confirm_create", "C30_refuted", "C31_lot_sequence", "C32_long_seed_lost", "C32_refuted_long", "C32_refuted_short", "C34_illegal_refuted", "C57_recreate", "C62_determines", "C65_created_standard", "C69_intermediate", "C70_intermediate"], "hit": ["C28", "C62"], "direct": [], "rounds": 2, "note": ""}
{"i": 95, "file": "Model/Bip38.lean", "definition": "encrypt", "old": "if wifType = \"wif\" then do\n      let flag ← integerToBytes NO_EC_MULTIPLIED_WIF_FLAG", "new": "if wifType = \"wif\" then do\n      let flag ← integerToBytes NO_EC_MULTIPLIED_WIF_COMPRESSED_FLAG", "claims": ["C51", "C17"], "desc": "same flag for both types", "ok": false, "fails": ["C60_encrypt", "encrypt_eq", "encrypt_reads", "wif_reads"], "files": {"Verif/Lemmas/NoEc.lean": ["encrypt_eq", "wif_reads"], "Verif/Props/NoEc.lean": ["encrypt_reads"], "Verif/Props/Outcome.lean": ["C60_encrypt"]}, "broken": ["C11_encrypt", "C17_decrypt_encrypt", "C17_refuted", "C17_roundtrip_iff", "C18_encrypt_returns_iff", "C18_refuted", "C19_record", "C22_refuted", "C34_encrypt_flag", "C37_refuted", "C41_other_network", "C51_injective", "C53_reencrypt", "C60_encrypt", "C70_encrypt"], "hit": ["C51", "C17"], "direct": [], "rounds": 4, "note": ""}
{"i": 96, "file": "Model/Bip38.lean", "definition": "encrypt", "old": "aes.encrypt P (← xorBytes (slice 16 32 privateKey.raw) (slice 16 32 derivedHalf1))", "new": "aes.encrypt P (← xorBytes (slice 0 16 privateKey.raw) (slice 16 32 derivedHalf1))", "claims": ["C51", "C17"], "desc": "second half of the key lost", "ok": false, "fails": ["encrypt_eq"], "files": {"Verif/Lemmas/NoEc.lean": ["encrypt_eq"]}, "broken": ["C11_encrypt", "C17_decrypt_encrypt", "C17_refuted", "C17_roundtrip_iff", "C18_encrypt_returns_iff", "C18_refuted", "C19_record", "C22_refuted", "C34_encrypt_flag", "C37_refuted", "C41_other_network", "C51_injective", "C53_reencrypt", "C60_encrypt", "C70_encrypt"], "hit": ["C51", "C17"], "direct": [], "rounds": 2, "note": ""}
