{"i": 0, "file": "Model/Utils.lean", "definition": "isHexSpace", "old": "c = ' ' || ", "new": "", "claims": ["C06"], "desc": "a space is no longer skipped in hex text", "ok": false, "modules": ["Verif/Lemmas/Hex.lean"], "fails": ["isHexSpace_iff"], "broken": ["C06_get_bytes_error", "C06_get_bytes_iff", "C11_create", "C11_intermediate", "C26_refuted", "C26_salt", "C26_validation", "C27_lot_zero_ignored", "C27_sequence_zero_ignored", "C27_unusable_code", "C28_layout", "C29_decrypt_create", "C29_refuted", "C30_confirm_create", "C30_refuted", "C31_lot_sequence", "C32_long_seed_lost", "C32_refuted_long", "C32_refuted_short", "C33_checksum", "C33_errors", "C33_factor_point", "C33_length", "C33_magic", "C33_returns", "C33_seed", "C33_type", "C34_create_flag", "C34_illegal_refuted", "C37_ripple_create"], "hit": ["C06"]}
{"i": 1, "file": "Model/Utils.lean", "definition": "hexVal", "old": "'a' ≤ c ∧ c ≤ 'f' then some (c.toNat - 87)", "new": "'a' ≤ c ∧ c ≤ 'e' then some (c.toNat - 87)", "claims": ["C06"], "desc": "digit f refused", "ok": false, "modules": ["Verif/Lemmas/Utils.lean"], "fails": ["hexVal_hexDigit"], "broken": ["C06_roundtrip", "C07_hex_key", "C08_injective", "C11_encrypt", "C12_key_forms", "C17_decrypt_encrypt", "C17_refuted", "C17_roundtrip_iff", "C18_encrypt_returns_iff", "C18_refuted", "C19_record", "C22_refuted", "C29_decrypt_create", "C29_refuted", "C31_lot_sequence", "C32_long_seed_lost", "C34_encrypt_flag", "C34_illegal_refuted", "C37_refuted", "C41_other_network"], "hit": ["C06"]}
{"i": 2, "file": "Model/Utils.lean", "definition": "fromHex", "old": "| [c] => if isHexSpace c then some [] else none", "new": "| [c] => if isHexSpace c then some [] else (hexVal c).map fun v => [UInt8.ofNat v]", "claims": ["C06"], "desc": "an odd trailing digit is accepted", "ok": false, "modules": ["Verif/Lemmas/Hex.lean"], "fails": ["fromHex_iff"], "broken": ["C06_get_bytes_error", "C06_get_bytes_iff", "C11_create", "C11_intermediate", "C26_refuted", "C26_salt", "C26_validation", "C27_lot_zero_ignored", "C27_sequence_zero_ignored", "C27_unusable_code", "C28_layout", "C29_decrypt_create", "C29_refuted", "C30_confirm_create", "C30_refuted", "C31_lot_sequence", "C32_long_seed_lost", "C32_refuted_long", "C32_refuted_short", "C33_checksum", "C33_errors", "C33_factor_point", "C33_length", "C33_magic", "C33_returns", "C33_seed", "C33_type", "C34_create_flag", "C34_illegal_refuted", "C37_ripple_create"], "hit": ["C06"]}
{"i": 3, "file": "Model/Utils.lean", "definition": "fromHex", "old": "UInt8.ofNat (16 * h + l)", "new": "UInt8.ofNat (16 * l + h)", "claims": ["C06"], "desc": "nibbles swapped", "ok": false, "modules": ["Verif/Lemmas/Utils.lean"], "fails": ["fromHex_hex"], "broken": ["C06_roundtrip", "C07_hex_key", "C08_injective", "C11_encrypt", "C12_key_forms", "C17_decrypt_encrypt", "C17_refuted", "C17_roundtrip_iff", "C18_encrypt_returns_iff", "C18_refuted", "C19_record", "C22_refuted", "C29_decrypt_create", "C29_refuted", "C31_lot_sequence", "C32_long_seed_lost", "C34_encrypt_flag", "C34_illegal_refuted", "C37_refuted", "C41_other_network"], "hit": ["C06"]}
{"i": 4, "file": "Model/Utils.lean", "definition": "getBytes", "old": "| .bytes b => .ok b\n    | .str s", "new": "| .bytes b => .ok (b.dropWhile (· == 0))\n    | .str s", "claims": ["C06"], "desc": "leading zero bytes dropped", "ok": false, "modules": ["Verif/Lemmas/Utils.lean"], "fails": ["getBytes_bytes"], "broken": ["C07_hex_key", "C07_wif_roundtrip", "C07_wif_text", "C07_wrong_length", "C08_injective", "C08_other_network", "C11_create", "C11_encrypt", "C11_intermediate", "C11_wif", "C12_address_roundtrip", "C12_address_text", "C12_key_forms", "C17_decrypt_encrypt", "C17_refuted", "C17_roundtrip_iff", "C18_encrypt_returns_iff", "C18_refuted", "C19_record", "C20_C21_returned_key", "C22_refuted", "C26_refuted", "C26_validation", "C27_unusable_code", "C28_layout", "C29_decrypt_create", "C29_refuted", "C30_confirm_create", "C30_refuted", "C31_confirm_pair", "C31_lot_sequence", "C31_reported_pair", "C32_long_seed_lost", "C32_refuted_long", "C32_refuted_short", "C33_errors", "C33_factor_point", "C33_returns", "C34_confirm_flag", "C34_confirm_reading", "C34_create_flag", "C34_decrypt_flag", "C34_decrypt_reading", "C34_encrypt_flag", "C34_illegal_refuted", "C34_unknown_flag", "C35_iff", "C35_sound", "C37_refuted", "C37_ripple_confirm", "C37_ripple_create", "C37_ripple_decrypt", "C38_fallback", "C40_confirm_errors", "C40_decrypt_errors", "C40_ec_iff", "C40_noEc_iff", "C41_other_network"], "hit": []}
{"i": 5, "file": "Model/Utils.lean", "definition": "getBytes", "old": "else .ok (utf8 s)", "new": "else .ok (s.map fun c => UInt8.ofNat c.toNat)", "claims": ["C19"], "desc": "latin-1 instead of UTF-8 (same for every address, which is ASCII)", "ok": false, "modules": ["Verif/Lemmas/Utils.lean"], "fails": ["getBytes_text"], "broken": ["C11_create", "C11_encrypt", "C17_decrypt_encrypt", "C17_refuted", "C17_roundtrip_iff", "C18_encrypt_returns_iff", "C18_refuted", "C19_record", "C20_C21_returned_key", "C22_refuted", "C29_decrypt_create", "C29_refuted", "C30_confirm_create", "C30_refuted", "C31_confirm_pair", "C31_lot_sequence", "C31_reported_pair", "C32_long_seed_lost", "C32_refuted_long", "C32_refuted_short", "C33_errors", "C33_returns", "C34_confirm_flag", "C34_confirm_reading", "C34_create_flag", "C34_decrypt_flag", "C34_decrypt_reading", "C34_encrypt_flag", "C34_illegal_refuted", "C34_unknown_flag", "C35_iff", "C35_sound", "C37_refuted", "C37_ripple_confirm", "C37_ripple_create", "C37_ripple_decrypt", "C40_confirm_errors", "C40_decrypt_errors", "C40_ec_iff", "C40_noEc_iff", "C41_other_network"], "hit": ["C19"]}
{"i": 6, "file": "Model/Utils.lean", "definition": "getBytes", "old": "| none => raise .valueError \"non-hexadecimal number", "new": "| none => raise .typeError \"non-hexadecimal number", "claims": ["C06"], "desc": "wrong exception class", "ok": false, "modules": ["Verif/Props/Encoding.lean"], "fails": ["C06_get_bytes_error"], "broken": ["C06_get_bytes_error", "C11_create", "C26_salt", "C29_decrypt_create", "C29_refuted", "C30_confirm_create", "C30_refuted", "C31_lot_sequence", "C32_long_seed_lost", "C33_errors", "C33_returns", "C33_seed", "C34_create_flag", "C34_illegal_refuted", "C37_ripple_create"], "hit": ["C06"]}
{"i": 7, "file": "Model/Utils.lean", "definition": "hexDigit", "old": "87 + n", "new": "55 + n", "claims": ["C06"], "desc": "upper-case hex output", "ok": false, "modules": ["Verif/Props/Encoding.lean"], "fails": ["C06_hex_text", "C06_roundtrip"], "broken": ["C06_hex_text", "C06_roundtrip"], "hit": ["C06"]}
{"i": 8, "file": "Model/Utils.lean", "definition": "bytesToString", "old": "| .bytes b => .ok (hex b)", "new": "| .bytes b => .ok (hex b.reverse)", "claims": ["C06"], "desc": "bytes reversed", "ok": false, "modules": ["Verif/Lemmas/Utils.lean"], "fails": ["bytesToString_bytes"], "broken": ["C06_hex_text", "C06_roundtrip", "C07_wif_roundtrip", "C08_injective", "C09_any_checksum_accepted", "C09_wrong_checksum_refuted", "C10_any_marker_accepted", "C10_wrong_marker_refuted", "C11_create", "C11_encrypt", "C12_address_roundtrip", "C13_bad_checksum", "C13_bad_payload", "C13_decode_iff", "C17_decrypt_encrypt", "C17_refuted", "C17_roundtrip_iff", "C18_refuted", "C19_record", "C20_C21_returned_key", "C22_refuted", "C29_decrypt_create", "C29_refuted", "C30_confirm_create", "C30_refuted", "C31_confirm_pair", "C31_lot_sequence", "C31_reported_pair", "C32_long_seed_lost", "C32_refuted_long", "C32_refuted_short", "C33_errors", "C33_returns", "C34_confirm_flag", "C34_confirm_reading", "C34_create_flag", "C34_decrypt_flag", "C34_decrypt_reading", "C34_encrypt_flag", "C34_illegal_refuted", "C34_unknown_flag", "C35_iff", "C35_sound", "C37_refuted", "C37_ripple_confirm", "C37_ripple_create", "C37_ripple_decrypt", "C40_confirm_errors", "C40_decrypt_errors", "C40_ec_iff", "C40_noEc_iff", "C41_other_network"], "hit": ["C06"]}
{"i": 9, "file": "Model/Utils.lean", "definition": "bytesToInteger", "old": "2 ^ (8 * data.length) ≤ 2 * u", "new": "2 ^ (8 * data.length) < 2 * u", "claims": ["C05"], "desc": "sign boundary", "ok": false, "modules": ["Verif/Props/Encoding.lean"], "fails": ["C05_read_injective", "bytesToInteger_toBE", "bytesToInteger_toLE"], "broken": ["C05_read_injective", "C05_with_length"], "hit": ["C05"]}
{"i": 10, "file": "Model/Utils.lean", "definition": "bytesToInteger", "old": "| .little => data.reverse)", "new": "| .little => data)", "claims": ["C05"], "desc": "endianness ignored", "ok": false, "modules": ["Verif/Props/Encoding.lean"], "fails": ["C05_read_injective", "C05_value", "bytesToInteger_toLE"], "broken": ["C05_read_injective", "C05_value", "C05_with_length"], "hit": ["C05"]}
{"i": 11, "file": "Model/Utils.lean", "definition": "intToBytes", "old": "2 * data < 2 ^ (8 * length)", "new": "2 * data ≤ 2 ^ (8 * length)", "claims": ["C05"], "desc": "signed upper bound off by one", "ok": false, "modules": ["Verif/Props/Encoding.lean"], "fails": ["C05_with_length"], "broken": ["C05_with_length"], "hit": ["C05"]}
{"i": 12, "file": "Model/Utils.lean", "definition": "intToBytes", "old": "else if data < 2 ^ (8 * length) then", "new": "else if data ≤ 2 ^ (8 * length) then", "claims": ["C05"], "desc": "unsigned bound off by one", "ok": false, "modules": ["Verif/Lemmas/Bytes.lean"], "fails": ["intToBytes_nat"], "broken": ["C05_minimal", "C07_wif_roundtrip", "C07_wif_text", "C08_injective", "C08_other_network", "C09_any_checksum_accepted", "C09_decode_wif_iff", "C09_wrong_checksum_refuted", "C10_any_marker_accepted", "C10_wrong_marker_refuted", "C11_create", "C11_encrypt", "C11_wif", "C12_address_roundtrip", "C12_address_text", "C12_key_forms", "C13_bad_checksum", "C13_bad_payload", "C13_decode_iff", "C17_decrypt_encrypt", "C17_refuted", "C17_roundtrip_iff", "C18_encrypt_returns_iff", "C18_refuted", "C19_record", "C20_C21_returned_key", "C22_refuted", "C29_decrypt_create", "C29_refuted", "C30_confirm_create", "C30_refuted", "C31_confirm_pair", "C31_lot_sequence", "C31_reported_pair", "C32_long_seed_lost", "C32_refuted_long", "C32_refuted_short", "C33_errors", "C33_returns", "C34_confirm_flag", "C34_confirm_reading", "C34_create_flag", "C34_decrypt_flag", "C34_decrypt_reading", "C34_encrypt_flag", "C34_illegal_refuted", "C34_unknown_flag", "C35_iff", "C35_sound", "C37_refuted", "C37_ripple_confirm", "C37_ripple_create", "C37_ripple_decrypt", "C40_confirm_errors", "C40_decrypt_errors", "C40_ec_iff", "C40_noEc_iff", "C41_other_network"], "hit": ["C05"]}
{"i": 13, "file": "Model/Utils.lean", "definition": "intToBytes", "old": "else if data < 0 then raise .overflowError", "new": "else if data < 0 then raise .valueError", "claims": ["C05"], "desc": "wrong exception class for negative", "ok": false, "modules": ["Verif/Props/Encoding.lean"], "fails": ["C05_with_length"], "broken": ["C05_with_length"], "hit": ["C05"]}
{"i": 14, "file": "Model/Utils.lean", "definition": "integerToBytes", "old": "bitLength data.toNat else 1) + 7) / 8", "new": "bitLength data.toNat else 1) + 8) / 8", "claims": ["C05"], "desc": "automatic length one too large for full bytes", "ok": false, "modules": ["Verif/Lemmas/Bytes.lean"], "fails": ["integerToBytes_fromBE"], "broken": ["C05_minimal", "C07_wif_roundtrip", "C07_wif_text", "C08_injective", "C08_other_network", "C09_any_checksum_accepted", "C09_decode_wif_iff", "C09_wrong_checksum_refuted", "C10_any_marker_accepted", "C10_wrong_marker_refuted", "C11_create", "C11_encrypt", "C11_wif", "C12_address_roundtrip", "C12_address_text", "C12_key_forms", "C13_bad_checksum", "C13_bad_payload", "C13_decode_iff", "C17_decrypt_encrypt", "C17_refuted", "C17_roundtrip_iff", "C18_encrypt_returns_iff", "C18_refuted", "C19_record", "C20_C21_returned_key", "C22_refuted", "C29_decrypt_create", "C29_refuted", "C30_confirm_create", "C30_refuted", "C31_confirm_pair", "C31_lot_sequence", "C31_reported_pair", "C32_long_seed_lost", "C32_refuted_long", "C32_refuted_short", "C33_errors", "C33_returns", "C34_confirm_flag", "C34_confirm_reading", "C34_create_flag", "C34_decrypt_flag", "C34_decrypt_reading", "C34_encrypt_flag", "C34_illegal_refuted", "C34_unknown_flag", "C35_iff", "C35_sound", "C37_refuted", "C37_ripple_confirm", "C37_ripple_create", "C37_ripple_decrypt", "C40_confirm_errors", "C40_decrypt_errors", "C40_ec_iff", "C40_noEc_iff", "C41_other_network"], "hit": ["C05"]}
{"i": 15, "file": "Model/Utils.lean", "definition": "integerToBytes", "old": "bitLength data.toNat else 1)", "new": "bitLength data.toNat else 0)", "claims": ["C05"], "desc": "zero becomes the empty string", "ok": false, "modules": ["Verif/Lemmas/Bytes.lean"], "fails": ["integerToBytes_fromBE"], "broken": ["C05_minimal", "C07_wif_roundtrip", "C07_wif_text", "C08_injective", "C08_other_network", "C09_any_checksum_accepted", "C09_decode_wif_iff", "C09_wrong_checksum_refuted", "C10_any_marker_accepted", "C10_wrong_marker_refuted", "C11_create", "C11_encrypt", "C11_wif", "C12_address_roundtrip", "C12_address_text", "C12_key_forms", "C13_bad_checksum", "C13_bad_payload", "C13_decode_iff", "C17_decrypt_encrypt", "C17_refuted", "C17_roundtrip_iff", "C18_encrypt_returns_iff", "C18_refuted", "C19_record", "C20_C21_returned_key", "C22_refuted", "C29_decrypt_create", "C29_refuted", "C30_confirm_create", "C30_refuted", "C31_confirm_pair", "C31_lot_sequence", "C31_reported_pair", "C32_long_seed_lost", "C32_refuted_long", "C32_refuted_short", "C33_errors", "C33_returns", "C34_confirm_flag", "C34_confirm_reading", "C34_create_flag", "C34_decrypt_flag", "C34_decrypt_reading", "C34_encrypt_flag", "C34_illegal_refuted", "C34_unknown_flag", "C35_iff", "C35_sound", "C37_refuted", "C37_ripple_confirm", "C37_ripple_create", "C37_ripple_decrypt", "C40_confirm_errors", "C40_decrypt_errors", "C40_ec_iff", "C40_noEc_iff", "C41_other_network"], "hit": ["C05"]}
{"i": 16, "file": "Model/Base58.lean", "definition": "bitcoinAlphabet", "old": "HJKLMN", "new": "HJKLNM", "claims": ["C01"], "desc": "two letters swapped in the alphabet", "ok": false, "modules": ["Verif/Spec/Toy.lean"], "fails": ["bitcoin_selects", "bitcoin_selects_testnet"], "broken": ["C17_refuted", "C18_refuted", "C22_refuted", "C29_refuted", "C30_refuted", "C32_refuted_long", "C32_refuted_short", "C34_illegal_refuted"], "hit": []}
{"i": 17, "file": "Model/Base58.lean", "definition": "encodeLoop", "old": "if alphabet.length ≤ val then", "new": "if alphabet.length < val then", "claims": ["C01"], "desc": "loop boundary", "ok": false, "modules": ["Verif/Lemmas/Base58.lean"], "fails": ["encodeLoop_digits"], "broken": ["C01_decode_encode", "C01_decode_encode_bitcoin", "C01_decode_encode_ripple", "C01_encode_injective", "C01_encode_text", "C01_encode_wellFormed", "C02_decode_injective", "C02_encode_decode", "C03_check_roundtrip", "C07_wif_roundtrip", "C08_injective", "C08_other_network", "C09_any_checksum_accepted", "C09_wrong_checksum_refuted", "C10_any_marker_accepted", "C10_wrong_marker_refuted", "C11_address", "C11_create", "C11_encrypt", "C11_intermediate", "C11_wif", "C12_address_roundtrip", "C17_decrypt_encrypt", "C17_refuted", "C17_roundtrip_iff", "C18_refuted", "C19_record", "C20_C21_returned_key", "C22_refuted", "C27_unusable_code", "C28_layout", "C29_decrypt_create", "C29_refuted", "C30_confirm_create", "C30_refuted", "C31_lot_sequence", "C32_long_seed_lost", "C32_refuted_long", "C32_refuted_short", "C34_create_flag", "C34_encrypt_flag", "C34_illegal_refuted", "C37_refuted", "C37_ripple_confirm", "C37_ripple_create", "C37_ripple_decrypt", "C41_other_network"], "hit": ["C01"]}
{"i": 18, "file": "Model/Base58.lean", "definition": "leadingZeros", "old": "data.length - (data.dropWhile (· == 0)).length", "new": "(data.filter (· == 0)).length", "claims": ["C01"], "desc": "counts every zero byte", "ok": false, "modules": ["Verif/Lemmas/Base58.lean"], "fails": ["leadingZeros_eq"], "broken": ["C01_decode_encode", "C01_decode_encode_bitcoin", "C01_decode_encode_ripple", "C01_encode_injective", "C01_encode_text", "C02_decode_injective", "C02_encode_decode", "C03_check_roundtrip", "C07_wif_roundtrip", "C08_injective", "C08_other_network", "C09_any_checksum_accepted", "C09_wrong_checksum_refuted", "C10_any_marker_accepted", "C10_wrong_marker_refuted", "C11_address", "C11_create", "C11_encrypt", "C11_intermediate", "C11_wif", "C12_address_roundtrip", "C17_decrypt_encrypt", "C17_refuted", "C17_roundtrip_iff", "C18_refuted", "C19_record", "C20_C21_returned_key", "C22_refuted", "C27_unusable_code", "C28_layout", "C29_decrypt_create", "C29_refuted", "C30_confirm_create", "C30_refuted", "C31_lot_sequence", "C32_long_seed_lost", "C32_refuted_long", "C32_refuted_short", "C34_create_flag", "C34_encrypt_flag", "C34_illegal_refuted", "C37_refuted", "C37_ripple_confirm", "C37_ripple_create", "C37_ripple_decrypt", "C41_other_network"], "hit": ["C01"]}
{"i": 19, "file": "Model/Base58.lean", "definition": "b58encode", "old": "if val ≠ 0 then alphabet.getD val '?' :: enc else enc", "new": "if 1 < val then alphabet.getD val '?' :: enc else enc", "claims": ["C01"], "desc": "leading digit 1 dropped", "ok": false, "modules": ["Verif/Lemmas/Base58.lean"], "fails": ["b58encode_eq"], "broken": ["C01_decode_encode", "C01_decode_encode_bitcoin", "C01_decode_encode_ripple", "C01_encode_injective", "C01_encode_text", "C01_encode_wellFormed", "C02_decode_injective", "C02_encode_decode", "C03_check_roundtrip", "C07_wif_roundtrip", "C08_injective", "C08_other_network", "C09_any_checksum_accepted", "C09_wrong_checksum_refuted", "C10_any_marker_accepted", "C10_wrong_marker_refuted", "C11_address", "C11_create", "C11_encrypt", "C11_intermediate", "C11_wif", "C12_address_roundtrip", "C17_decrypt_encrypt", "C17_refuted", "C17_roundtrip_iff", "C18_refuted", "C19_record", "C20_C21_returned_key", "C22_refuted", "C27_unusable_code", "C28_layout", "C29_decrypt_create", "C29_refuted", "C30_confirm_create", "C30_refuted", "C31_lot_sequence", "C32_long_seed_lost", "C32_refuted_long", "C32_refuted_short", "C34_create_flag", "C34_encrypt_flag", "C34_illegal_refuted", "C37_refuted", "C37_ripple_confirm", "C37_ripple_create", "C37_ripple_decrypt", "C41_other_network"], "hit": ["C01"]}
{"i": 20, "file": "Model/Base58.lean", "definition": "b58encode", "old": "alphabet.getD 0 '?') ++ enc", "new": "'1') ++ enc", "claims": ["C01"], "desc": "hard-coded zero digit", "ok": false, "modules": ["Verif/Lemmas/Base58.lean"], "fails": ["b58encode_eq"], "broken": ["C01_decode_encode", "C01_decode_encode_bitcoin", "C01_decode_encode_ripple", "C01_encode_injective", "C01_encode_text", "C01_encode_wellFormed", "C02_decode_injective", "C02_encode_decode", "C03_check_roundtrip", "C07_wif_roundtrip", "C08_injective", "C08_other_network", "C09_any_checksum_accepted", "C09_wrong_checksum_refuted", "C10_any_marker_accepted", "C10_wrong_marker_refuted", "C11_address", "C11_create", "C11_encrypt", "C11_intermediate", "C11_wif", "C12_address_roundtrip", "C17_decrypt_encrypt", "C17_refuted", "C17_roundtrip_iff", "C18_refuted", "C19_record", "C20_C21_returned_key", "C22_refuted", "C27_unusable_code", "C28_layout", "C29_decrypt_create", "C29_refuted", "C30_confirm_create", "C30_refuted", "C31_lot_sequence", "C32_long_seed_lost", "C32_refuted_long", "C32_refuted_short", "C34_create_flag", "C34_encrypt_flag", "C34_illegal_refuted", "C37_refuted", "C37_ripple_confirm", "C37_ripple_create", "C37_ripple_decrypt", "C41_other_network"], "hit": ["C01"]}
{"i": 21, "file": "Model/Base58.lean", "definition": "asciiBytes", "old": "c.toNat < 128", "new": "c.toNat < 256", "claims": ["C04"], "desc": "latin-1 accepted", "ok": false, "modules": ["Verif/Lemmas/Base58.lean"], "fails": ["b58decode_ascii", "b58decode_nonascii"], "broken": ["C01_decode_encode", "C01_decode_encode_bitcoin", "C01_decode_encode_ripple", "C01_encode_injective", "C02_decode_injective", "C02_encode_decode", "C03_check_decode_error", "C03_check_roundtrip", "C04_decode_ascii", "C04_decode_nonascii", "C04_leading_foreign", "C07_wif_roundtrip", "C08_injective", "C08_other_network", "C09_any_checksum_accepted", "C09_wrong_checksum_refuted", "C10_any_marker_accepted", "C10_wrong_marker_refuted", "C11_create", "C12_address_roundtrip", "C13_bad_checksum", "C17_decrypt_encrypt", "C17_refuted", "C17_roundtrip_iff", "C18_refuted", "C19_record", "C20_C21_returned_key", "C22_refuted", "C23_non_ascii", "C27_unusable_code", "C28_layout", "C29_decrypt_create", "C29_refuted", "C30_confirm_create", "C30_refuted", "C31_lot_sequence", "C32_long_seed_lost", "C32_refuted_long", "C32_refuted_short", "C33_checksum", "C33_errors", "C33_returns", "C34_create_flag", "C34_encrypt_flag", "C34_illegal_refuted", "C35_checksum", "C35_sound", "C37_refuted", "C37_ripple_confirm", "C37_ripple_create", "C37_ripple_decrypt", "C40_confirm_errors", "C40_decrypt_errors", "C41_other_network"], "hit": ["C04"]}
{"i": 22, "file": "Model/Base58.lean", "definition": "bytesFind", "old": "| none => -1", "new": "| none => 0", "claims": ["C04"], "desc": "foreign character acts as digit 0", "ok": false, "modules": ["Verif/Lemmas/Base58.lean"], "fails": ["bytesFind_eq"], "broken": ["C01_decode_encode", "C01_decode_encode_bitcoin", "C01_decode_encode_ripple", "C01_encode_injective", "C02_decode_injective", "C02_encode_decode", "C03_check_decode_error", "C03_check_roundtrip", "C04_decode_ascii", "C04_leading_foreign", "C07_wif_roundtrip", "C08_injective", "C08_other_network", "C09_any_checksum_accepted", "C09_wrong_checksum_refuted", "C10_any_marker_accepted", "C10_wrong_marker_refuted", "C11_create", "C12_address_roundtrip", "C13_bad_checksum", "C17_decrypt_encrypt", "C17_refuted", "C17_roundtrip_iff", "C18_refuted", "C19_record", "C20_C21_returned_key", "C22_refuted", "C27_unusable_code", "C28_layout", "C29_decrypt_create", "C29_refuted", "C30_confirm_create", "C30_refuted", "C31_lot_sequence", "C32_long_seed_lost", "C32_refuted_long", "C32_refuted_short", "C33_checksum", "C33_errors", "C33_returns", "C34_create_flag", "C34_encrypt_flag", "C34_illegal_refuted", "C35_checksum", "C35_sound", "C37_refuted", "C37_ripple_confirm", "C37_ripple_create", "C37_ripple_decrypt", "C40_confirm_errors", "C40_decrypt_errors", "C41_other_network"], "hit": ["C04"]}
{"i": 23, "file": "Model/Base58.lean", "definition": "decodeStep", "old": "if val = 0 then st.2 + 1 else st.2", "new": "if bytesFind (utf8 alphabet) c = 0 then st.2 + 1 else st.2", "claims": ["C01"], "desc": "every zero digit counted, not only leading ones", "ok": false, "modules": ["Verif/Lemmas/Base58.lean"], "fails": ["decode_fold"], "broken": ["C01_decode_encode", "C01_decode_encode_bitcoin", "C01_decode_encode_ripple", "C01_encode_injective", "C02_decode_injective", "C02_encode_decode", "C03_check_decode_error", "C03_check_roundtrip", "C04_decode_ascii", "C04_leading_foreign", "C07_wif_roundtrip", "C08_injective", "C08_other_network", "C09_any_checksum_accepted", "C09_wrong_checksum_refuted", "C10_any_marker_accepted", "C10_wrong_marker_refuted", "C11_create", "C12_address_roundtrip", "C13_bad_checksum", "C17_decrypt_encrypt", "C17_refuted", "C17_roundtrip_iff", "C18_refuted", "C19_record", "C20_C21_returned_key", "C22_refuted", "C27_unusable_code", "C28_layout", "C29_decrypt_create", "C29_refuted", "C30_confirm_create", "C30_refuted", "C31_lot_sequence", "C32_long_seed_lost", "C32_refuted_long", "C32_refuted_short", "C33_checksum", "C33_errors", "C33_returns", "C34_create_flag", "C34_encrypt_flag", "C34_illegal_refuted", "C35_checksum", "C35_sound", "C37_refuted", "C37_ripple_confirm", "C37_ripple_create", "C37_ripple_decrypt", "C40_confirm_errors", "C40_decrypt_errors", "C41_other_network"], "hit": ["C01"]}
{"i": 24, "file": "Model/Base58.lean", "definition": "decodeStep", "old": "st.1 * alphabet.length", "new": "st.1 * 58", "claims": ["C01"], "desc": "hard-coded base", "ok": false, "modules": ["Verif/Lemmas/Base58.lean"], "fails": ["decode_fold"], "broken": ["C01_decode_encode", "C01_decode_encode_bitcoin", "C01_decode_encode_ripple", "C01_encode_injective", "C02_decode_injective", "C02_encode_decode", "C03_check_decode_error", "C03_check_roundtrip", "C04_decode_ascii", "C04_leading_foreign", "C07_wif_roundtrip", "C08_injective", "C08_other_network", "C09_any_checksum_accepted", "C09_wrong_checksum_refuted", "C10_any_marker_accepted", "C10_wrong_marker_refuted", "C11_create", "C12_address_roundtrip", "C13_bad_checksum", "C17_decrypt_encrypt", "C17_refuted", "C17_roundtrip_iff", "C18_refuted", "C19_record", "C20_C21_returned_key", "C22_refuted", "C27_unusable_code", "C28_layout", "C29_decrypt_create", "C29_refuted", "C30_confirm_create", "C30_refuted", "C31_lot_sequence", "C32_long_seed_lost", "C32_refuted_long", "C32_refuted_short", "C33_checksum", "C33_errors", "C33_returns", "C34_create_flag", "C34_encrypt_flag", "C34_illegal_refuted", "C35_checksum", "C35_sound", "C37_refuted", "C37_ripple_confirm", "C37_ripple_create", "C37_ripple_decrypt", "C40_confirm_errors", "C40_decrypt_errors", "C41_other_network"], "hit": ["C01"]}
{"i": 25, "file": "Model/Base58.lean", "definition": "b58decode", "old": "(dec ++ List.replicate zeros 0).reverse", "new": "(List.replicate zeros 0 ++ dec).reverse", "claims": ["C01"], "desc": "zero bytes at the wrong end", "ok": false, "modules": ["Verif/Lemmas/Base58.lean"], "fails": ["b58decode_ascii"], "broken": ["C01_decode_encode", "C01_decode_encode_bitcoin", "C01_decode_encode_ripple", "C01_encode_injective", "C02_decode_injective", "C02_encode_decode", "C03_check_decode_error", "C03_check_roundtrip", "C04_decode_ascii", "C04_leading_foreign", "C07_wif_roundtrip", "C08_injective", "C08_other_network", "C09_any_checksum_accepted", "C09_wrong_checksum_refuted", "C10_any_marker_accepted", "C10_wrong_marker_refuted", "C11_create", "C12_address_roundtrip", "C13_bad_checksum", "C17_decrypt_encrypt", "C17_refuted", "C17_roundtrip_iff", "C18_refuted", "C19_record", "C20_C21_returned_key", "C22_refuted", "C27_unusable_code", "C28_layout", "C29_decrypt_create", "C29_refuted", "C30_confirm_create", "C30_refuted", "C31_lot_sequence", "C32_long_seed_lost", "C32_refuted_long", "C32_refuted_short", "C33_checksum", "C33_errors", "C33_returns", "C34_create_flag", "C34_encrypt_flag", "C34_illegal_refuted", "C35_checksum", "C35_sound", "C37_refuted", "C37_ripple_confirm", "C37_ripple_create", "C37_ripple_decrypt", "C40_confirm_errors", "C40_decrypt_errors", "C41_other_network"], "hit": ["C01"]}
{"i": 26, "file": "Model/Base58.lean", "definition": "checkEncode", "old": "sha256 (sha256 raw)).take 4\n  b58encode", "new": "sha256 raw).take 4\n  b58encode", "claims": ["C03"], "desc": "single SHA-256 in check_encode", "ok": false, "modules": ["Verif/Lemmas/P2pkh.lean", "Verif/Props/Encoding.lean"], "fails": ["C03_check_roundtrip", "checkEncode_eq"], "broken": ["C03_check_roundtrip", "C27_unusable_code", "C28_layout", "C30_confirm_create", "C30_refuted"], "hit": ["C03"]}
{"i": 27, "file": "Model/Base58.lean", "definition": "checkDecode", "old": "if chk ≠ (sha256 (sha256 raw)).take 4 then", "new": "if chk ≠ (sha256 (sha256 raw)).take 4 ∧ chk.length = 4 then", "claims": ["C03"], "desc": "short payloads accepted without checksum", "ok": false, "modules": ["Verif/Lemmas/P2pkh.lean", "Verif/Props/Encoding.lean"], "fails": ["C03_check_decode_iff", "checkDecode_iff", "example@126"], "broken": ["C03_check_decode_iff", "C11_create", "C12_address_roundtrip", "C13_bad_checksum", "C13_bad_payload", "C13_decode_iff", "C19_record", "C29_decrypt_create", "C29_refuted", "C30_confirm_create", "C30_refuted", "C31_lot_sequence", "C32_long_seed_lost", "C32_refuted_long", "C32_refuted_short", "C33_checksum", "C33_errors", "C33_factor_point", "C33_length", "C33_magic", "C33_returns", "C33_type", "C34_confirm_flag", "C34_create_flag", "C34_encrypt_flag", "C34_illegal_refuted", "C35_checksum", "C35_length", "C35_prefix", "C35_sound", "C37_ripple_confirm", "C37_ripple_create", "C40_confirm_errors"], "hit": ["C03"]}
{"i": 28, "file": "Model/Base58.lean", "definition": "checkDecode", "old": "lastN 4 dec\n", "new": "(lastN 4 dec).take 3\n", "claims": ["C03"], "desc": "only three checksum bytes compared", "ok": false, "modules": ["Verif/Lemmas/P2pkh.lean", "Verif/Props/Encoding.lean"], "fails": ["C03_check_decode_iff", "C03_check_roundtrip", "checkDecode_iff"], "broken": ["C03_check_decode_iff", "C03_check_roundtrip", "C11_create", "C12_address_roundtrip", "C13_bad_checksum", "C13_bad_payload", "C13_decode_iff", "C19_record", "C27_unusable_code", "C28_layout", "C29_decrypt_create", "C29_refuted", "C30_confirm_create", "C30_refuted", "C31_lot_sequence", "C32_long_seed_lost", "C32_refuted_long", "C32_refuted_short", "C33_checksum", "C33_errors", "C33_factor_point", "C33_length", "C33_magic", "C33_returns", "C33_type", "C34_confirm_flag", "C34_create_flag", "C34_encrypt_flag", "C34_illegal_refuted", "C35_checksum", "C35_length", "C35_prefix", "C35_sound", "C37_ripple_confirm", "C37_ripple_create", "C40_confirm_errors"], "hit": ["C03"]}
{"i": 29, "file": "Model/Base58.lean", "definition": "checkDecode", "old": "raise .valueError \"base58 decoding checksum error\"", "new": "raise .error \"base58 decoding checksum error\"", "claims": ["C03"], "desc": "wrong class", "ok": false, "modules": ["Verif/Props/Encoding.lean"], "fails": ["C03_check_decode_error", "example@126"], "broken": ["C03_check_decode_error", "C11_create", "C13_bad_checksum", "C29_decrypt_create", "C29_refuted", "C30_confirm_create", "C30_refuted", "C31_lot_sequence", "C32_long_seed_lost", "C33_checksum", "C33_errors", "C33_returns", "C34_create_flag", "C34_illegal_refuted", "C35_checksum", "C35_sound", "C37_ripple_confirm", "C37_ripple_create", "C40_confirm_errors"], "hit": ["C03"]}
{"i": 30, "file": "Model/Const.lean", "definition": "NO_EC_MULTIPLIED_PRIVATE_KEY_PREFIX", "old": "0x0142 ", "new": "0x0143 ", "claims": ["C19"], "desc": "wrong prefix", "ok": false, "modules": ["Verif/Lemmas/Bip38.lean"], "fails": ["c_noEc"], "broken": ["C11_encrypt", "C17_decrypt_encrypt", "C17_refuted", "C17_roundtrip_iff", "C18_encrypt_returns_iff", "C18_refuted", "C19_record", "C20_C21_returned_key", "C22_checksum_ignored", "C22_refuted", "C23_flag", "C23_prefix", "C29_decrypt_create", "C29_refuted", "C31_lot_sequence", "C31_reported_pair", "C32_long_seed_lost", "C34_decrypt_flag", "C34_decrypt_reading", "C34_encrypt_flag", "C34_illegal_refuted", "C34_unknown_flag", "C37_refuted", "C37_ripple_decrypt", "C40_decrypt_errors", "C40_ec_iff", "C40_noEc_iff", "C41_other_network"], "hit": ["C19"]}
{"i": 31, "file": "Model/Const.lean", "definition": "NO_EC_MULTIPLIED_WIF_FLAG", "old": ": Nat := 0xc0 ", "new": ": Nat := 0xc4 ", "claims": ["C19"], "desc": "wrong flag", "ok": false, "modules": ["Verif/Lemmas/Bip38.lean"], "fails": ["c_flagU"], "broken": ["C11_encrypt", "C17_decrypt_encrypt", "C17_refuted", "C17_roundtrip_iff", "C18_encrypt_returns_iff", "C18_refuted", "C19_record", "C20_C21_returned_key", "C22_refuted", "C23_flag", "C34_encrypt_flag", "C34_illegal_refuted", "C37_refuted", "C37_ripple_decrypt", "C40_decrypt_errors", "C40_noEc_iff", "C41_other_network"], "hit": ["C19"]}
{"i": 32, "file": "Model/Const.lean", "definition": "NO_EC_MULTIPLIED_WIF_COMPRESSED_FLAG", "old": ": Nat := 0xe0 ", "new": ": Nat := 0xe8 ", "claims": ["C19"], "desc": "wrong flag", "ok": false, "modules": ["Verif/Lemmas/Bip38.lean"], "fails": ["c_flagC"], "broken": ["C11_encrypt", "C17_decrypt_encrypt", "C17_refuted", "C17_roundtrip_iff", "C18_encrypt_returns_iff", "C18_refuted", "C19_record", "C20_C21_returned_key", "C22_refuted", "C23_flag", "C34_encrypt_flag", "C34_illegal_refuted", "C37_refuted", "C37_ripple_decrypt", "C40_decrypt_errors", "C40_noEc_iff", "C41_other_network"], "hit": ["C19"]}
{"i": 33, "file": "Model/Const.lean", "definition": "MAGIC_LOT_AND_SEQUENCE", "old": "0x2ce9b3e1ff39e251", "new": "0x2ce9b3e1ff39e252", "claims": ["C28"], "desc": "wrong magic", "ok": false, "modules": ["Verif/Lemmas/Bip38.lean"], "fails": ["c_magicLot"], "broken": ["C11_create", "C11_intermediate", "C26_refuted", "C26_validation", "C27_unusable_code", "C28_layout", "C29_decrypt_create", "C29_refuted", "C30_confirm_create", "C30_refuted", "C31_lot_sequence", "C32_long_seed_lost", "C32_refuted_long", "C32_refuted_short", "C33_errors", "C33_factor_point", "C33_magic", "C33_returns", "C34_create_flag", "C34_illegal_refuted", "C37_ripple_create"], "hit": ["C28"]}
{"i": 34, "file": "Model/Const.lean", "definition": "MAGIC_LOT_AND_SEQUENCE / MAGIC_NO_LOT_AND_SEQUENCE", "old": "0x2ce9b3e1ff39e251           -- bip38/const.py:18\ndef MAGIC_NO_LOT_AND_SEQUENCE : Nat := 0x2ce9b3e1ff39e253", "new": "0x2ce9b3e1ff39e253           -- bip38/const.py:18\ndef MAGIC_NO_LOT_AND_SEQUENCE : Nat := 0x2ce9b3e1ff39e251", "claims": ["C28"], "desc": "magics swapped", "ok": false, "modules": ["Verif/Lemmas/Bip38.lean"], "fails": ["c_magicLot", "c_magicNo"], "broken": ["C11_create", "C11_intermediate", "C26_refuted", "C26_validation", "C27_unusable_code", "C28_layout", "C29_decrypt_create", "C29_refuted", "C30_confirm_create", "C30_refuted", "C31_lot_sequence", "C32_long_seed_lost", "C32_refuted_long", "C32_refuted_short", "C33_errors", "C33_factor_point", "C33_magic", "C33_returns", "C34_create_flag", "C34_illegal_refuted", "C37_ripple_create"], "hit": ["C28"]}
{"i": 35, "file": "Model/Const.lean", "definition": "MAGIC_LOT_AND_SEQUENCE_COMPRESSED_FLAG", "old": "0x24 ", "new": "0x2c ", "claims": ["C34"], "desc": "wrong flag, still in the tables", "ok": false, "modules": ["Verif/Lemmas/Bip38.lean"], "fails": ["c_24"], "broken": ["C11_create", "C29_decrypt_create", "C29_refuted", "C30_confirm_create", "C30_refuted", "C31_lot_sequence", "C32_long_seed_lost", "C32_refuted_long", "C32_refuted_short", "C33_errors", "C33_factor_point", "C33_returns", "C34_create_flag", "C34_illegal_refuted", "C37_ripple_create"], "hit": ["C34"]}
{"i": 36, "file": "Model/Const.lean", "definition": "MAGIC_NO_LOT_AND_SEQUENCE_COMPRESSED_FLAG", "old": ": Nat := 0x20 ", "new": ": Nat := 0x30 ", "claims": ["C34"], "desc": "wrong flag", "ok": false, "modules": ["Verif/Lemmas/Bip38.lean"], "fails": ["c_20"], "broken": ["C11_create", "C29_decrypt_create", "C29_refuted", "C30_confirm_create", "C30_refuted", "C31_lot_sequence", "C32_long_seed_lost", "C32_refuted_long", "C32_refuted_short", "C33_errors", "C33_factor_point", "C33_returns", "C34_create_flag", "C34_illegal_refuted", "C37_ripple_create"], "hit": ["C34"]}
{"i": 37, "file": "Model/Const.lean", "definition": "CONFIRMATION_CODE_PREFIX", "old": "0x643bf6a89a", "new": "0x643bf6a89b", "claims": ["C30"], "desc": "wrong confirmation prefix", "ok": false, "modules": ["Verif/Lemmas/Bip38.lean"], "fails": ["c_conf"], "broken": ["C11_create", "C29_decrypt_create", "C29_refuted", "C30_confirm_create", "C30_refuted", "C31_confirm_pair", "C31_lot_sequence", "C32_long_seed_lost", "C32_refuted_long", "C32_refuted_short", "C33_errors", "C33_returns", "C34_confirm_flag", "C34_confirm_reading", "C34_create_flag", "C34_illegal_refuted", "C35_iff", "C35_prefix", "C35_sound", "C37_ripple_confirm", "C37_ripple_create", "C40_confirm_errors"], "hit": ["C30"]}
{"i": 38, "file": "Model/Const.lean", "definition": "N", "old": "D0364141", "new": "D0364143", "claims": ["C14"], "desc": "wrong group order", "ok": false, "modules": ["Verif/Lemmas/Primes.lean"], "fails": ["N_prime"], "broken": ["C11_create", "C11_encrypt", "C11_intermediate", "C14_private_key_iff", "C14_private_key_ok", "C15_private_key_point", "C16_api", "C16_group", "C16_injective", "C16_order", "C16_scalar_mul", "C16_surjective", "C17_decrypt_encrypt", "C17_refuted", "C17_roundtrip_iff", "C18_encrypt_returns_iff", "C18_refuted", "C19_record", "C20_C21_returned_key", "C22_refuted", "C26_refuted", "C26_validation", "C27_unusable_code", "C28_layout", "C29_decrypt_create", "C29_refuted", "C30_confirm_create", "C30_refuted", "C31_confirm_pair", "C31_lot_sequence", "C31_reported_pair", "C32_long_seed_lost", "C32_refuted_long", "C32_refuted_short", "C33_errors", "C33_returns", "C34_confirm_flag", "C34_confirm_reading", "C34_create_flag", "C34_decrypt_flag", "C34_decrypt_reading", "C34_encrypt_flag", "C34_illegal_refuted", "C34_unknown_flag", "C35_iff", "C35_sound", "C37_refuted", "C37_ripple_confirm", "C37_ripple_create", "C37_ripple_decrypt", "C40_confirm_errors", "C40_decrypt_errors", "C40_ec_iff", "C40_noEc_iff", "C41_other_network"], "hit": ["C14"]}
{"i": 39, "file": "Model/Const.lean", "definition": "CHECKSUM_BYTE_LENGTH", "old": "Nat := 4 ", "new": "Nat := 3 ", "claims": ["C07"], "desc": "three checksum bytes", "ok": false, "modules": ["Verif/Lemmas/Crypto.lean"], "fails": ["getChecksum_bytes"], "broken": ["C07_wif_roundtrip", "C07_wif_text", "C08_injective", "C08_other_network", "C11_create", "C11_encrypt", "C11_wif", "C17_decrypt_encrypt", "C17_refuted", "C17_roundtrip_iff", "C18_encrypt_returns_iff", "C18_refuted", "C19_record", "C20_C21_returned_key", "C22_refuted", "C29_decrypt_create", "C29_refuted", "C30_confirm_create", "C30_refuted", "C31_confirm_pair", "C31_lot_sequence", "C31_reported_pair", "C32_long_seed_lost", "C32_refuted_long", "C32_refuted_short", "C33_errors", "C33_returns", "C34_confirm_flag", "C34_confirm_reading", "C34_create_flag", "C34_decrypt_flag", "C34_decrypt_reading", "C34_encrypt_flag", "C34_illegal_refuted", "C34_unknown_flag", "C35_iff", "C35_sound", "C37_refuted", "C37_ripple_confirm", "C37_ripple_create", "C37_ripple_decrypt", "C40_confirm_errors", "C40_decrypt_errors", "C40_ec_iff", "C40_noEc_iff", "C41_other_network"], "hit": ["C07"]}
{"i": 40, "file": "Model/Const.lean", "definition": "COMPRESSED_PRIVATE_KEY_PREFIX", "old": "Nat := 0x01 ", "new": "Nat := 0x02 ", "claims": ["C07"], "desc": "wrong compression marker", "ok": false, "modules": ["Verif/Lemmas/Wif.lean"], "fails": ["integerToBytes_one"], "broken": ["C07_wif_roundtrip", "C07_wif_text", "C08_injective", "C08_other_network", "C09_any_checksum_accepted", "C09_decode_wif_iff", "C09_wrong_checksum_refuted", "C10_any_marker_accepted", "C10_wrong_marker_refuted", "C11_encrypt", "C11_wif", "C17_decrypt_encrypt", "C17_refuted", "C17_roundtrip_iff", "C18_refuted", "C19_record", "C20_C21_returned_key", "C22_refuted", "C29_decrypt_create", "C29_refuted", "C31_lot_sequence", "C31_reported_pair", "C32_long_seed_lost", "C34_decrypt_flag", "C34_decrypt_reading", "C34_encrypt_flag", "C34_illegal_refuted", "C34_unknown_flag", "C37_refuted", "C37_ripple_decrypt", "C40_decrypt_errors", "C40_ec_iff", "C40_noEc_iff", "C41_other_network"], "hit": ["C07"]}
{"i": 41, "file": "Model/Const.lean", "definition": "FLAGS_compression", "old": "0x28, 0x2c, 0x30, 0x34, 0x38, 0x3c, 0xe0", "new": "0x28, 0x30, 0x34, 0x38, 0x3c, 0xe0", "claims": ["C34"], "desc": "a flag missing from the table", "ok": false, "modules": ["Verif/Lemmas/Ec.lean"], "fails": ["compr_iff"], "broken": ["C20_C21_returned_key", "C22_refuted", "C29_decrypt_create", "C29_refuted", "C30_confirm_create", "C30_refuted", "C31_confirm_pair", "C31_lot_sequence", "C31_reported_pair", "C32_long_seed_lost", "C34_confirm_flag", "C34_confirm_reading", "C34_decrypt_flag", "C34_decrypt_reading", "C34_illegal_refuted", "C34_unknown_flag", "C35_iff", "C35_sound", "C37_refuted", "C37_ripple_confirm", "C37_ripple_decrypt", "C40_confirm_errors", "C40_decrypt_errors", "C40_ec_iff"], "hit": ["C34"]}
{"i": 42, "file": "Model/Const.lean", "definition": "FLAGS_lot_and_sequence", "old": "0x0c, 0x14, 0x1c, 0x2c", "new": "0x0c, 0x18, 0x1c, 0x2c", "claims": ["C34"], "desc": "a wrong flag in the table", "ok": false, "modules": ["Verif/Lemmas/Ec.lean"], "fails": ["lot_iff"], "broken": ["C20_C21_returned_key", "C22_refuted", "C29_decrypt_create", "C29_refuted", "C30_confirm_create", "C30_refuted", "C31_confirm_pair", "C31_lot_sequence", "C31_reported_pair", "C32_long_seed_lost", "C34_confirm_flag", "C34_confirm_reading", "C34_decrypt_flag", "C34_decrypt_reading", "C34_illegal_refuted", "C34_unknown_flag", "C35_iff", "C35_sound", "C37_refuted", "C37_ripple_confirm", "C37_ripple_decrypt", "C40_confirm_errors", "C40_decrypt_errors", "C40_ec_iff"], "hit": ["C34"]}
{"i": 43, "file": "Model/Const.lean", "definition": "FLAGS_illegal", "old": "0xc4, ", "new": "", "claims": ["C34"], "desc": "a flag missing from the illegal table", "ok": false, "modules": ["Verif/Props/Flags.lean"], "fails": ["C34_illegal_refuted", "C34_tables"], "broken": ["C34_illegal_refuted", "C34_tables", "C34_unknown_flag"], "hit": ["C34"]}
{"i": 44, "file": "Model/Const.lean", "definition": "FLAGS_ec", "old": "0x38, 0x3c]", "new": "0x38]", "claims": ["C34"], "desc": "a flag missing from the EC table", "ok": false, "modules": ["Verif/Props/Flags.lean"], "fails": ["C34_tables"], "broken": ["C34_tables", "C34_unknown_flag"], "hit": ["C34"]}
{"i": 45, "file": "Model/Const.lean", "definition": "WIF_TYPES", "old": "[\"wif\", \"wif-compressed\"]", "new": "[\"wif\", \"wif-compressed\", \"\"]", "claims": ["C07"], "desc": "an extra WIF type accepted", "ok": false, "modules": ["Verif/Props/Wif.lean"], "fails": ["C07_wrong_type"], "broken": ["C07_wrong_type"], "hit": ["C07"]}
{"i": 46, "file": "Model/Secp256k1.lean", "definition": "fieldP", "old": "FFFFFC2F", "new": "FFFFFC2D", "claims": ["C15"], "desc": "wrong field prime", "ok": false, "modules": ["Verif/Lemmas/Primes.lean"], "fails": ["fieldP_prime"], "broken": ["C11_create", "C11_encrypt", "C11_intermediate", "C14_private_key_iff", "C14_private_key_ok", "C15_denotes_unique", "C15_private_key_point", "C15_public_key_error", "C15_public_key_iff", "C15_public_key_roundtrip", "C16_api", "C16_curve", "C16_group", "C16_injective", "C16_mul_is_repeated_addition", "C16_order", "C16_scalar_mul", "C16_surjective", "C17_decrypt_encrypt", "C17_refuted", "C17_roundtrip_iff", "C18_encrypt_returns_iff", "C18_refuted", "C19_record", "C20_C21_returned_key", "C22_refuted", "C26_refuted", "C26_validation", "C27_unusable_code", "C28_layout", "C29_decrypt_create", "C29_refuted", "C30_confirm_create", "C30_refuted", "C31_confirm_pair", "C31_lot_sequence", "C31_reported_pair", "C32_long_seed_lost", "C32_refuted_long", "C32_refuted_short", "C33_errors", "C33_factor_point", "C33_returns", "C34_confirm_flag", "C34_confirm_reading", "C34_create_flag", "C34_decrypt_flag", "C34_decrypt_reading", "C34_encrypt_flag", "C34_illegal_refuted", "C34_unknown_flag", "C35_iff", "C35_sound", "C37_refuted", "C37_ripple_confirm", "C37_ripple_create", "C37_ripple_decrypt", "C40_confirm_errors", "C40_decrypt_errors", "C40_ec_iff", "C40_noEc_iff", "C41_other_network", "C42_point_roundtrip"], "hit": ["C15"]}
{"i": 47, "file": "Model/Secp256k1.lean", "definition": "onCurve", "old": "(y * y) % fieldP = (x * x * x + 7)", "new": "(y * y) % fieldP = (x * x * x + 5)", "claims": ["C15"], "desc": "wrong curve", "ok": false, "modules": ["Verif/Lemmas/Curve.lean"], "fails": ["gen_valid", "onCurve_iff"], "broken": ["C11_create", "C11_encrypt", "C11_intermediate", "C14_private_key_iff", "C14_private_key_ok", "C15_denotes_unique", "C15_private_key_point", "C15_public_key_error", "C15_public_key_iff", "C15_public_key_roundtrip", "C16_api", "C16_group", "C16_injective", "C16_mul_is_repeated_addition", "C16_order", "C16_scalar_mul", "C16_surjective", "C17_decrypt_encrypt", "C17_refuted", "C17_roundtrip_iff", "C18_encrypt_returns_iff", "C18_refuted", "C19_record", "C20_C21_returned_key", "C22_refuted", "C26_refuted", "C26_validation", "C27_unusable_code", "C28_layout", "C29_decrypt_create", "C29_refuted", "C30_confirm_create", "C30_refuted", "C31_confirm_pair", "C31_lot_sequence", "C31_reported_pair", "C32_long_seed_lost", "C32_refuted_long", "C32_refuted_short", "C33_errors", "C33_factor_point", "C33_returns", "C34_confirm_flag", "C34_confirm_reading", "C34_create_flag", "C34_decrypt_flag", "C34_decrypt_reading", "C34_encrypt_flag", "C34_illegal_refuted", "C34_unknown_flag", "C35_iff", "C35_sound", "C37_refuted", "C37_ripple_confirm", "C37_ripple_create", "C37_ripple_decrypt", "C40_confirm_errors", "C40_decrypt_errors", "C40_ec_iff", "C40_noEc_iff", "C41_other_network", "C42_point_roundtrip"], "hit": ["C15"]}
{"i": 48, "file": "Model/Secp256k1.lean", "definition": "Pt.add", "old": "if (y1 + y2) % fieldP = 0 then .inf\n", "new": "if y1 ≠ y2 then .inf\n", "claims": ["C16"], "desc": "doubling of a point of order 2 not special-cased (no such point on the curve): equivalent on curve points", "ok": false, "modules": ["Verif/Lemmas/Curve.lean"], "fails": ["add_toPt"], "broken": ["C11_create", "C11_encrypt", "C11_intermediate", "C14_private_key_iff", "C14_private_key_ok", "C15_private_key_point", "C16_api", "C16_group", "C16_injective", "C16_mul_is_repeated_addition", "C16_order", "C16_scalar_mul", "C16_surjective", "C17_decrypt_encrypt", "C17_refuted", "C17_roundtrip_iff", "C18_encrypt_returns_iff", "C18_refuted", "C19_record", "C20_C21_returned_key", "C22_refuted", "C26_refuted", "C26_validation", "C27_unusable_code", "C28_layout", "C29_decrypt_create", "C29_refuted", "C30_confirm_create", "C30_refuted", "C31_confirm_pair", "C31_lot_sequence", "C31_reported_pair", "C32_long_seed_lost", "C32_refuted_long", "C32_refuted_short", "C33_errors", "C33_returns", "C34_confirm_flag", "C34_confirm_reading", "C34_create_flag", "C34_decrypt_flag", "C34_decrypt_reading", "C34_encrypt_flag", "C34_illegal_refuted", "C34_unknown_flag", "C35_iff", "C35_sound", "C37_refuted", "C37_ripple_confirm", "C37_ripple_create", "C37_ripple_decrypt", "C40_confirm_errors", "C40_decrypt_errors", "C40_ec_iff", "C40_noEc_iff", "C41_other_network"], "hit": ["C16"]}
{"i": 49, "file": "Model/Secp256k1.lean", "definition": "Pt.add", "old": "(3 * x1 * x1 *", "new": "(2 * x1 * x1 *", "claims": ["C16"], "desc": "wrong tangent slope", "ok": false, "modules": ["Verif/Lemmas/Curve.lean"], "fails": ["add_toPt", "gen_mul_N"], "broken": ["C11_create", "C11_encrypt", "C11_intermediate", "C14_private_key_iff", "C14_private_key_ok", "C15_private_key_point", "C16_api", "C16_group", "C16_injective", "C16_mul_is_repeated_addition", "C16_order", "C16_scalar_mul", "C16_surjective", "C17_decrypt_encrypt", "C17_refuted", "C17_roundtrip_iff", "C18_encrypt_returns_iff", "C18_refuted", "C19_record", "C20_C21_returned_key", "C22_refuted", "C26_refuted", "C26_validation", "C27_unusable_code", "C28_layout", "C29_decrypt_create", "C29_refuted", "C30_confirm_create", "C30_refuted", "C31_confirm_pair", "C31_lot_sequence", "C31_reported_pair", "C32_long_seed_lost", "C32_refuted_long", "C32_refuted_short", "C33_errors", "C33_returns", "C34_confirm_flag", "C34_confirm_reading", "C34_create_flag", "C34_decrypt_flag", "C34_decrypt_reading", "C34_encrypt_flag", "C34_illegal_refuted", "C34_unknown_flag", "C35_iff", "C35_sound", "C37_refuted", "C37_ripple_confirm", "C37_ripple_create", "C37_ripple_decrypt", "C40_confirm_errors", "C40_decrypt_errors", "C40_ec_iff", "C40_noEc_iff", "C41_other_network"], "hit": ["C16"]}
{"i": 50, "file": "Model/Secp256k1.lean", "definition": "chord", "old": "(l * (x1 + (fieldP - x3)) + (fieldP - y1))", "new": "(l * (x1 + (fieldP - x3)) + y1)", "claims": ["C16"], "desc": "wrong sign", "ok": false, "modules": ["Verif/Lemmas/Curve.lean"], "fails": ["chord_eq", "gen_mul_N"], "broken": ["C11_create", "C11_encrypt", "C11_intermediate", "C14_private_key_iff", "C14_private_key_ok", "C15_private_key_point", "C16_api", "C16_group", "C16_injective", "C16_mul_is_repeated_addition", "C16_order", "C16_scalar_mul", "C16_surjective", "C17_decrypt_encrypt", "C17_refuted", "C17_roundtrip_iff", "C18_encrypt_returns_iff", "C18_refuted", "C19_record", "C20_C21_returned_key", "C22_refuted", "C26_refuted", "C26_validation", "C27_unusable_code", "C28_layout", "C29_decrypt_create", "C29_refuted", "C30_confirm_create", "C30_refuted", "C31_confirm_pair", "C31_lot_sequence", "C31_reported_pair", "C32_long_seed_lost", "C32_refuted_long", "C32_refuted_short", "C33_errors", "C33_returns", "C34_confirm_flag", "C34_confirm_reading", "C34_create_flag", "C34_decrypt_flag", "C34_decrypt_reading", "C34_encrypt_flag", "C34_illegal_refuted", "C34_unknown_flag", "C35_iff", "C35_sound", "C37_refuted", "C37_ripple_confirm", "C37_ripple_create", "C37_ripple_decrypt", "C40_confirm_errors", "C40_decrypt_errors", "C40_ec_iff", "C40_noEc_iff", "C41_other_network"], "hit": ["C16"]}
{"i": 51, "file": "Model/Secp256k1.lean", "definition": "Pt.mulAux", "old": "if e % 2 = 1 then acc.add b else acc", "new": "if e % 2 = 0 then acc.add b else acc", "claims": ["C16"], "desc": "wrong bit test", "ok": false, "modules": ["Verif/Lemmas/Curve.lean"], "fails": ["gen_mul_N", "mulAux_toPt"], "broken": ["C11_create", "C11_encrypt", "C11_intermediate", "C14_private_key_iff", "C14_private_key_ok", "C15_private_key_point", "C16_api", "C16_group", "C16_injective", "C16_mul_is_repeated_addition", "C16_order", "C16_scalar_mul", "C16_surjective", "C17_decrypt_encrypt", "C17_refuted", "C17_roundtrip_iff", "C18_encrypt_returns_iff", "C18_refuted", "C19_record", "C20_C21_returned_key", "C22_refuted", "C26_refuted", "C26_validation", "C27_unusable_code", "C28_layout", "C29_decrypt_create", "C29_refuted", "C30_confirm_create", "C30_refuted", "C31_confirm_pair", "C31_lot_sequence", "C31_reported_pair", "C32_long_seed_lost", "C32_refuted_long", "C32_refuted_short", "C33_errors", "C33_returns", "C34_confirm_flag", "C34_confirm_reading", "C34_create_flag", "C34_decrypt_flag", "C34_decrypt_reading", "C34_encrypt_flag", "C34_illegal_refuted", "C34_unknown_flag", "C35_iff", "C35_sound", "C37_refuted", "C37_ripple_confirm", "C37_ripple_create", "C37_ripple_decrypt", "C40_confirm_errors", "C40_decrypt_errors", "C40_ec_iff", "C40_noEc_iff", "C41_other_network"], "hit": ["C16"]}
{"i": 52, "file": "Model/Secp256k1.lean", "definition": "Pt.mul", "old": "(k.log2 + 1)", "new": "(k.log2)", "claims": ["C16"], "desc": "one iteration too few", "ok": false, "modules": ["Verif/Lemmas/Curve.lean"], "fails": ["gen_mul_N", "mul_toPt"], "broken": ["C11_create", "C11_encrypt", "C11_intermediate", "C14_private_key_iff", "C14_private_key_ok", "C15_private_key_point", "C16_api", "C16_group", "C16_injective", "C16_mul_is_repeated_addition", "C16_order", "C16_scalar_mul", "C16_surjective", "C17_decrypt_encrypt", "C17_refuted", "C17_roundtrip_iff", "C18_encrypt_returns_iff", "C18_refuted", "C19_record", "C20_C21_returned_key", "C22_refuted", "C26_refuted", "C26_validation", "C27_unusable_code", "C28_layout", "C29_decrypt_create", "C29_refuted", "C30_confirm_create", "C30_refuted", "C31_confirm_pair", "C31_lot_sequence", "C31_reported_pair", "C32_long_seed_lost", "C32_refuted_long", "C32_refuted_short", "C33_errors", "C33_returns", "C34_confirm_flag", "C34_confirm_reading", "C34_create_flag", "C34_decrypt_flag", "C34_decrypt_reading", "C34_encrypt_flag", "C34_illegal_refuted", "C34_unknown_flag", "C35_iff", "C35_sound", "C37_refuted", "C37_ripple_confirm", "C37_ripple_create", "C37_ripple_decrypt", "C40_confirm_errors", "C40_decrypt_errors", "C40_ec_iff", "C40_noEc_iff", "C41_other_network"], "hit": ["C16"]}
{"i": 53, "file": "Model/Secp256k1.lean", "definition": "genX", "old": "16F81798", "new": "16F81799", "claims": ["C16"], "desc": "wrong generator", "ok": false, "modules": ["Verif/Lemmas/Curve.lean"], "fails": ["gen_mul_N", "gen_valid"], "broken": ["C11_create", "C11_encrypt", "C11_intermediate", "C14_private_key_iff", "C14_private_key_ok", "C15_private_key_point", "C16_api", "C16_group", "C16_injective", "C16_order", "C16_scalar_mul", "C16_surjective", "C17_decrypt_encrypt", "C17_refuted", "C17_roundtrip_iff", "C18_encrypt_returns_iff", "C18_refuted", "C19_record", "C20_C21_returned_key", "C22_refuted", "C26_refuted", "C26_validation", "C27_unusable_code", "C28_layout", "C29_decrypt_create", "C29_refuted", "C30_confirm_create", "C30_refuted", "C31_confirm_pair", "C31_lot_sequence", "C31_reported_pair", "C32_long_seed_lost", "C32_refuted_long", "C32_refuted_short", "C33_errors", "C33_returns", "C34_confirm_flag", "C34_confirm_reading", "C34_create_flag", "C34_decrypt_flag", "C34_decrypt_reading", "C34_encrypt_flag", "C34_illegal_refuted", "C34_unknown_flag", "C35_iff", "C35_sound", "C37_refuted", "C37_ripple_confirm", "C37_ripple_create", "C37_ripple_decrypt", "C40_confirm_errors", "C40_decrypt_errors", "C40_ec_iff", "C40_noEc_iff", "C41_other_network"], "hit": ["C16"]}
{"i": 54, "file": "Model/Secp256k1.lean", "definition": "sqrtMod", "old": "if r * r % fieldP = a % fieldP then some r else none", "new": "some r", "claims": ["C15"], "desc": "no squareness test", "ok": false, "modules": ["Verif/Lemmas/PublicKey.lean"], "fails": ["sqrtMod_lt", "sqrtMod_of_sq", "sqrtMod_sq"], "broken": ["C11_create", "C15_denotes_unique", "C15_public_key_error", "C15_public_key_iff", "C15_public_key_roundtrip", "C29_decrypt_create", "C29_refuted", "C30_confirm_create", "C30_refuted", "C31_confirm_pair", "C31_lot_sequence", "C32_long_seed_lost", "C32_refuted_long", "C32_refuted_short", "C33_errors", "C33_factor_point", "C33_returns", "C34_confirm_flag", "C34_confirm_reading", "C34_create_flag", "C34_illegal_refuted", "C35_iff", "C35_sound", "C37_ripple_confirm", "C37_ripple_create", "C40_confirm_errors", "C42_point_roundtrip"], "hit": ["C15"]}
{"i": 55, "file": "Model/Secp256k1.lean", "definition": "decodePoint", "old": "(c = 2) ↔ (beta % 2 = 1)", "new": "(c = 3) ↔ (beta % 2 = 1)", "claims": ["C15"], "desc": "parity inverted", "ok": false, "modules": ["Verif/Lemmas/PublicKey.lean"], "fails": ["decode_compressed"], "broken": ["C11_create", "C15_denotes_unique", "C15_public_key_error", "C15_public_key_iff", "C15_public_key_roundtrip", "C29_decrypt_create", "C29_refuted", "C30_confirm_create", "C30_refuted", "C31_confirm_pair", "C31_lot_sequence", "C32_long_seed_lost", "C32_refuted_long", "C32_refuted_short", "C33_errors", "C33_factor_point", "C33_returns", "C34_confirm_flag", "C34_confirm_reading", "C34_create_flag", "C34_illegal_refuted", "C35_iff", "C35_sound", "C37_ripple_confirm", "C37_ripple_create", "C40_confirm_errors", "C42_point_roundtrip"], "hit": ["C15"]}
{"i": 56, "file": "Model/Secp256k1.lean", "definition": "decodePoint", "old": "if c = 2 ∨ c = 3 then", "new": "if c = 2 ∨ c = 3 ∨ c = 5 then", "claims": ["C15"], "desc": "extra prefix accepted", "ok": false, "modules": ["Verif/Lemmas/PublicKey.lean"], "fails": ["decode_compressed"], "broken": ["C11_create", "C15_denotes_unique", "C15_public_key_error", "C15_public_key_iff", "C15_public_key_roundtrip", "C29_decrypt_create", "C29_refuted", "C30_confirm_create", "C30_refuted", "C31_confirm_pair", "C31_lot_sequence", "C32_long_seed_lost", "C32_refuted_long", "C32_refuted_short", "C33_errors", "C33_factor_point", "C33_returns", "C34_confirm_flag", "C34_confirm_reading", "C34_create_flag", "C34_illegal_refuted", "C35_iff", "C35_sound", "C37_ripple_confirm", "C37_ripple_create", "C40_confirm_errors", "C42_point_roundtrip"], "hit": ["C15"]}
{"i": 57, "file": "Model/Secp256k1.lean", "definition": "decodePoint", "old": "(raw rest).2 % 2 = 1 then some", "new": "(raw rest).2 % 2 = 0 then some", "claims": ["C15"], "desc": "hybrid parity not as stated", "ok": false, "modules": ["Verif/Lemmas/PublicKey.lean"], "fails": ["decode_65"], "broken": ["C11_create", "C15_denotes_unique", "C15_public_key_error", "C15_public_key_iff", "C15_public_key_roundtrip", "C29_decrypt_create", "C29_refuted", "C30_confirm_create", "C30_refuted", "C31_confirm_pair", "C31_lot_sequence", "C32_long_seed_lost", "C32_refuted_long", "C32_refuted_short", "C33_errors", "C33_factor_point", "C33_returns", "C34_confirm_flag", "C34_confirm_reading", "C34_create_flag", "C34_illegal_refuted", "C35_iff", "C35_sound", "C37_ripple_confirm", "C37_ripple_create", "C40_confirm_errors", "C42_point_from_bytes_unchecked", "C42_point_on_curve_refuted", "C42_point_roundtrip"], "hit": ["C15"]}
{"i": 58, "file": "Model/Secp256k1.lean", "definition": "decodePoint", "old": "if data.length = 64 then some (raw data)\n  else ", "new": "", "claims": ["C42"], "desc": "raw encoding refused", "ok": false, "modules": ["Verif/Lemmas/PublicKey.lean"], "fails": ["decode_65", "decode_compressed", "decode_raw"], "broken": ["C11_create", "C15_denotes_unique", "C15_public_key_error", "C15_public_key_iff", "C15_public_key_roundtrip", "C29_decrypt_create", "C29_refuted", "C30_confirm_create", "C30_refuted", "C31_confirm_pair", "C31_lot_sequence", "C32_long_seed_lost", "C32_refuted_long", "C32_refuted_short", "C33_errors", "C33_factor_point", "C33_returns", "C34_confirm_flag", "C34_confirm_reading", "C34_create_flag", "C34_illegal_refuted", "C35_iff", "C35_sound", "C37_ripple_confirm", "C37_ripple_create", "C40_confirm_errors", "C42_point_from_bytes_unchecked", "C42_point_on_curve_refuted", "C42_point_roundtrip"], "hit": ["C42"]}
{"i": 59, "file": "Model/Secp256k1.lean", "definition": "validXY", "old": "x < fieldP && y < fieldP && onCurve x y", "new": "onCurve x y", "claims": ["C15"], "desc": "coordinates not range checked", "ok": false, "modules": ["Verif/Lemmas/PublicKey.lean"], "fails": ["decode_compressed", "validXY_iff", "valid_aff"], "broken": ["C11_create", "C11_encrypt", "C11_intermediate", "C14_private_key_iff", "C15_denotes_unique", "C15_private_key_point", "C15_public_key_error", "C15_public_key_iff", "C15_public_key_roundtrip", "C16_api", "C16_group", "C16_mul_is_repeated_addition", "C16_surjective", "C17_decrypt_encrypt", "C17_refuted", "C17_roundtrip_iff", "C18_encrypt_returns_iff", "C18_refuted", "C19_record", "C20_C21_returned_key", "C22_refuted", "C26_refuted", "C26_validation", "C27_unusable_code", "C28_layout", "C29_decrypt_create", "C29_refuted", "C30_confirm_create", "C30_refuted", "C31_confirm_pair", "C31_lot_sequence", "C31_reported_pair", "C32_long_seed_lost", "C32_refuted_long", "C32_refuted_short", "C33_errors", "C33_factor_point", "C33_returns", "C34_confirm_flag", "C34_confirm_reading", "C34_create_flag", "C34_decrypt_flag", "C34_decrypt_reading", "C34_encrypt_flag", "C34_illegal_refuted", "C34_unknown_flag", "C35_iff", "C35_sound", "C37_refuted", "C37_ripple_confirm", "C37_ripple_create", "C37_ripple_decrypt", "C40_confirm_errors", "C40_decrypt_errors", "C40_ec_iff", "C40_noEc_iff", "C41_other_network", "C42_point_roundtrip"], "hit": ["C15"]}
{"i": 60, "file": "Model/Secp256k1.lean", "definition": "validXY", "old": "x < fieldP && y < fieldP && onCurve x y", "new": "x < fieldP && y < fieldP", "claims": ["C15"], "desc": "curve membership not checked", "ok": false, "modules": ["Verif/Lemmas/PublicKey.lean"], "fails": ["decode_compressed", "validXY_iff", "valid_aff"], "broken": ["C11_create", "C11_encrypt", "C11_intermediate", "C14_private_key_iff", "C15_denotes_unique", "C15_private_key_point", "C15_public_key_error", "C15_public_key_iff", "C15_public_key_roundtrip", "C16_api", "C16_group", "C16_mul_is_repeated_addition", "C16_surjective", "C17_decrypt_encrypt", "C17_refuted", "C17_roundtrip_iff", "C18_encrypt_returns_iff", "C18_refuted", "C19_record", "C20_C21_returned_key", "C22_refuted", "C26_refuted", "C26_validation", "C27_unusable_code", "C28_layout", "C29_decrypt_create", "C29_refuted", "C30_confirm_create", "C30_refuted", "C31_confirm_pair", "C31_lot_sequence", "C31_reported_pair", "C32_long_seed_lost", "C32_refuted_long", "C32_refuted_short", "C33_errors", "C33_factor_point", "C33_returns", "C34_confirm_flag", "C34_confirm_reading", "C34_create_flag", "C34_decrypt_flag", "C34_decrypt_reading", "C34_encrypt_flag", "C34_illegal_refuted", "C34_unknown_flag", "C35_iff", "C35_sound", "C37_refuted", "C37_ripple_confirm", "C37_ripple_create", "C37_ripple_decrypt", "C40_confirm_errors", "C40_decrypt_errors", "C40_ec_iff", "C40_noEc_iff", "C41_other_network", "C42_point_roundtrip"], "hit": ["C15"]}
{"i": 61, "file": "Model/Secp256k1.lean", "definition": "PublicKey.rawCompressed", "old": "(if k.y % 2 = 1 then 3 else 2) :: toBE 32 k.x", "new": "(if k.y % 2 = 1 then 2 else 3) :: toBE 32 k.x", "claims": ["C15"], "desc": "parity byte swapped", "ok": false, "modules": ["Verif/Lemmas/P2pkh.lean", "Verif/Lemmas/PublicKey.lean"], "fails": ["denotes_rawCompressed", "sec1_eq"], "broken": ["C11_create", "C11_encrypt", "C11_intermediate", "C12_address_roundtrip", "C12_address_text", "C15_public_key_roundtrip", "C17_decrypt_encrypt", "C17_refuted", "C17_roundtrip_iff", "C18_encrypt_returns_iff", "C18_refuted", "C19_record", "C20_C21_returned_key", "C22_refuted", "C26_refuted", "C26_validation", "C27_unusable_code", "C28_layout", "C29_decrypt_create", "C29_refuted", "C30_confirm_create", "C30_refuted", "C31_confirm_pair", "C31_lot_sequence", "C31_reported_pair", "C32_long_seed_lost", "C32_refuted_long", "C32_refuted_short", "C33_errors", "C33_returns", "C34_confirm_flag", "C34_confirm_reading", "C34_create_flag", "C34_decrypt_flag", "C34_decrypt_reading", "C34_encrypt_flag", "C34_illegal_refuted", "C34_unknown_flag", "C35_iff", "C35_sound", "C37_refuted", "C37_ripple_confirm", "C37_ripple_create", "C37_ripple_decrypt", "C40_confirm_errors", "C40_decrypt_errors", "C40_ec_iff", "C40_noEc_iff", "C41_other_network", "C42_point_roundtrip"], "hit": ["C15"]}
{"i": 62, "file": "Model/Secp256k1.lean", "definition": "PublicKey.rawUncompressed", "old": "4 :: (toBE 32 k.x ++ toBE 32 k.y)", "new": "4 :: (toBE 32 k.y ++ toBE 32 k.x)", "claims": ["C15"], "desc": "coordinates swapped", "ok": false, "modules": ["Verif/Lemmas/P2pkh.lean", "Verif/Lemmas/PublicKey.lean"], "fails": ["denotes_rawUncompressed", "sec1_eq"], "broken": ["C11_create", "C11_encrypt", "C11_intermediate", "C12_address_roundtrip", "C12_address_text", "C15_public_key_roundtrip", "C17_decrypt_encrypt", "C17_refuted", "C17_roundtrip_iff", "C18_encrypt_returns_iff", "C18_refuted", "C19_record", "C20_C21_returned_key", "C22_refuted", "C26_refuted", "C26_validation", "C27_unusable_code", "C28_layout", "C29_decrypt_create", "C29_refuted", "C30_confirm_create", "C30_refuted", "C31_confirm_pair", "C31_lot_sequence", "C31_reported_pair", "C32_long_seed_lost", "C32_refuted_long", "C32_refuted_short", "C33_errors", "C33_returns", "C34_confirm_flag", "C34_confirm_reading", "C34_create_flag", "C34_decrypt_flag", "C34_decrypt_reading", "C34_encrypt_flag", "C34_illegal_refuted", "C34_unknown_flag", "C35_iff", "C35_sound", "C37_refuted", "C37_ripple_confirm", "C37_ripple_create", "C37_ripple_decrypt", "C40_confirm_errors", "C40_decrypt_errors", "C40_ec_iff", "C40_noEc_iff", "C41_other_network"], "hit": ["C15"]}
{"i": 63, "file": "Model/Secp256k1.lean", "definition": "PublicKey.raw", "old": "if publicKeyType = \"compressed\" then k.rawCompressed else k.rawUncompressed", "new": "if publicKeyType = \"uncompressed\" then k.rawCompressed else k.rawUncompressed", "claims": ["C21"], "desc": "types swapped in the reported public key", "ok": false, "modules": ["Verif/Lemmas/P2pkh.lean", "Verif/Props/Curve.lean"], "fails": ["C15_public_key_roundtrip", "raw_eq_sec1"], "broken": ["C11_create", "C11_intermediate", "C15_public_key_roundtrip", "C17_decrypt_encrypt", "C17_refuted", "C17_roundtrip_iff", "C20_C21_returned_key", "C22_refuted", "C26_refuted", "C26_validation", "C27_unusable_code", "C28_layout", "C29_decrypt_create", "C29_refuted", "C30_confirm_create", "C30_refuted", "C31_confirm_pair", "C31_lot_sequence", "C31_reported_pair", "C32_long_seed_lost", "C32_refuted_long", "C32_refuted_short", "C33_errors", "C33_returns", "C34_confirm_flag", "C34_confirm_reading", "C34_create_flag", "C34_decrypt_flag", "C34_decrypt_reading", "C34_illegal_refuted", "C34_unknown_flag", "C35_iff", "C35_sound", "C37_refuted", "C37_ripple_confirm", "C37_ripple_create", "C37_ripple_decrypt", "C40_confirm_errors", "C40_decrypt_errors", "C40_ec_iff", "C40_noEc_iff", "C41_other_network"], "hit": ["C21"]}
{"i": 64, "file": "Model/Secp256k1.lean", "definition": "PrivateKey.fromBytes", "old": "fromBE b < N then", "new": "fromBE b ≤ N then", "claims": ["C14"], "desc": "N accepted", "ok": false, "modules": ["Verif/Lemmas/PublicKey.lean"], "fails": ["privFromBytes_error", "privFromBytes_iff"], "broken": ["C11_create", "C11_encrypt", "C11_intermediate", "C14_private_key_error", "C14_private_key_iff", "C14_private_key_ok", "C15_private_key_point", "C16_api", "C16_injective", "C16_surjective", "C17_decrypt_encrypt", "C17_refuted", "C17_roundtrip_iff", "C18_encrypt_returns_iff", "C18_refuted", "C19_record", "C20_C21_returned_key", "C22_refuted", "C26_refuted", "C26_validation", "C27_unusable_code", "C28_layout", "C29_decrypt_create", "C29_refuted", "C30_confirm_create", "C30_refuted", "C31_confirm_pair", "C31_lot_sequence", "C31_reported_pair", "C32_long_seed_lost", "C32_refuted_long", "C32_refuted_short", "C33_errors", "C33_returns", "C34_confirm_flag", "C34_confirm_reading", "C34_create_flag", "C34_decrypt_flag", "C34_decrypt_reading", "C34_encrypt_flag", "C34_illegal_refuted", "C34_unknown_flag", "C35_iff", "C35_sound", "C37_refuted", "C37_ripple_confirm", "C37_ripple_create", "C37_ripple_decrypt", "C40_confirm_errors", "C40_decrypt_errors", "C40_ec_iff", "C40_noEc_iff", "C41_other_network"], "hit": ["C14"]}
{"i": 65, "file": "Model/Secp256k1.lean", "definition": "PrivateKey.fromBytes", "old": "if 1 ≤ fromBE b ∧", "new": "if", "claims": ["C14"], "desc": "zero accepted", "ok": false, "modules": ["Verif/Lemmas/PublicKey.lean"], "fails": ["privFromBytes_error", "privFromBytes_iff"], "broken": ["C11_create", "C11_encrypt", "C11_intermediate", "C14_private_key_error", "C14_private_key_iff", "C14_private_key_ok", "C15_private_key_point", "C16_api", "C16_injective", "C16_surjective", "C17_decrypt_encrypt", "C17_refuted", "C17_roundtrip_iff", "C18_encrypt_returns_iff", "C18_refuted", "C19_record", "C20_C21_returned_key", "C22_refuted", "C26_refuted", "C26_validation", "C27_unusable_code", "C28_layout", "C29_decrypt_create", "C29_refuted", "C30_confirm_create", "C30_refuted", "C31_confirm_pair", "C31_lot_sequence", "C31_reported_pair", "C32_long_seed_lost", "C32_refuted_long", "C32_refuted_short", "C33_errors", "C33_returns", "C34_confirm_flag", "C34_confirm_reading", "C34_create_flag", "C34_decrypt_flag", "C34_decrypt_reading", "C34_encrypt_flag", "C34_illegal_refuted", "C34_unknown_flag", "C35_iff", "C35_sound", "C37_refuted", "C37_ripple_confirm", "C37_ripple_create", "C37_ripple_decrypt", "C40_confirm_errors", "C40_decrypt_errors", "C40_ec_iff", "C40_noEc_iff", "C41_other_network"], "hit": ["C14"]}
{"i": 66, "file": "Model/Secp256k1.lean", "definition": "PrivateKey.fromBytes", "old": "if b.length ≠ PRIVATE_KEY_LENGTH then raise", "new": "if b.length < PRIVATE_KEY_LENGTH then raise", "claims": ["C14"], "desc": "longer keys accepted", "ok": false, "modules": ["Verif/Lemmas/PublicKey.lean"], "fails": ["privFromBytes_error", "privFromBytes_iff"], "broken": ["C11_create", "C11_encrypt", "C11_intermediate", "C14_private_key_error", "C14_private_key_iff", "C14_private_key_ok", "C15_private_key_point", "C16_api", "C16_injective", "C16_surjective", "C17_decrypt_encrypt", "C17_refuted", "C17_roundtrip_iff", "C18_encrypt_returns_iff", "C18_refuted", "C19_record", "C20_C21_returned_key", "C22_refuted", "C26_refuted", "C26_validation", "C27_unusable_code", "C28_layout", "C29_decrypt_create", "C29_refuted", "C30_confirm_create", "C30_refuted", "C31_confirm_pair", "C31_lot_sequence", "C31_reported_pair", "C32_long_seed_lost", "C32_refuted_long", "C32_refuted_short", "C33_errors", "C33_returns", "C34_confirm_flag", "C34_confirm_reading", "C34_create_flag", "C34_decrypt_flag", "C34_decrypt_reading", "C34_encrypt_flag", "C34_illegal_refuted", "C34_unknown_flag", "C35_iff", "C35_sound", "C37_refuted", "C37_ripple_confirm", "C37_ripple_create", "C37_ripple_decrypt", "C40_confirm_errors", "C40_decrypt_errors", "C40_ec_iff", "C40_noEc_iff", "C41_other_network"], "hit": ["C14"]}
{"i": 67, "file": "Model/Secp256k1.lean", "definition": "PrivateKey.raw", "old": "toBE 32 k.secexp", "new": "toBE 32 (k.secexp % N) |>.dropWhile (· == 0)", "claims": ["C14"], "desc": "leading zeros stripped", "ok": false, "modules": ["Verif/Lemmas/PublicKey.lean"], "fails": ["privFromBytes_ok"], "broken": ["C11_create", "C11_encrypt", "C11_intermediate", "C14_private_key_iff", "C16_api", "C16_surjective", "C17_decrypt_encrypt", "C17_refuted", "C17_roundtrip_iff", "C18_encrypt_returns_iff", "C18_refuted", "C19_record", "C20_C21_returned_key", "C22_refuted", "C26_refuted", "C26_validation", "C27_unusable_code", "C28_layout", "C29_decrypt_create", "C29_refuted", "C30_confirm_create", "C30_refuted", "C31_confirm_pair", "C31_lot_sequence", "C31_reported_pair", "C32_long_seed_lost", "C32_refuted_long", "C32_refuted_short", "C33_errors", "C33_returns", "C34_confirm_flag", "C34_confirm_reading", "C34_create_flag", "C34_decrypt_flag", "C34_decrypt_reading", "C34_encrypt_flag", "C34_illegal_refuted", "C34_unknown_flag", "C35_iff", "C35_sound", "C37_refuted", "C37_ripple_confirm", "C37_ripple_create", "C37_ripple_decrypt", "C40_confirm_errors", "C40_decrypt_errors", "C40_ec_iff", "C40_noEc_iff", "C41_other_network"], "hit": ["C14"]}
{"i": 68, "file": "Model/Secp256k1.lean", "definition": "Point.fromBytes", "old": "| some (x, y) => .ok (.aff x y)", "new": "| some (x, y) => if onCurve x y then .ok (.aff x y) else raise .secp256k1Error \"Invalid point key bytes\"", "claims": ["C42"], "desc": "curve check added (the finding would no longer hold)", "ok": false, "modules": ["Verif/Props/Curve.lean"], "fails": ["C42_point_from_bytes_unchecked", "C42_point_roundtrip"], "broken": ["C42_point_from_bytes_unchecked", "C42_point_on_curve_refuted", "C42_point_roundtrip"], "hit": ["C42"]}
{"i": 69, "file": "Model/Secp256k1.lean", "definition": "Point.fromCoordinates", "old": "if onCurve x y then .ok (.aff x y)", "new": "if validXY x y then .ok (.aff x y)", "claims": ["C42"], "desc": "range check added", "ok": false, "modules": ["Verif/Props/Curve.lean"], "fails": ["C42_from_coordinates"], "broken": ["C42_from_coordinates"], "hit": ["C42"]}
{"i": 70, "file": "Model/Secp256k1.lean", "definition": "Point.rawDecoded", "old": "toBE 32 x ++ toBE 32 y", "new": "toBE 32 y ++ toBE 32 x", "claims": ["C42"], "desc": "coordinates swapped", "ok": false, "modules": ["Verif/Props/Curve.lean"], "fails": ["C42_point_roundtrip"], "broken": ["C42_point_roundtrip"], "hit": ["C42"]}
{"i": 71, "file": "Model/Secp256k1.lean", "definition": "Point.rawEncoded", "old": "(if y % 2 = 1 then 3 else 2) :: toBE 32 x", "new": "(if x % 2 = 1 then 3 else 2) :: toBE 32 x", "claims": ["C42"], "desc": "parity of the wrong coordinate", "ok": false, "modules": ["Verif/Props/Curve.lean"], "fails": ["C42_point_roundtrip"], "broken": ["C42_point_roundtrip"], "hit": ["C42"]}
{"i": 72, "file": "Model/Secp256k1.lean", "definition": "PublicKey.fromPoint", "old": "if x < fieldP ∧ y < fieldP then .ok ⟨x, y⟩", "new": "if x < fieldP ∧ y < fieldP then .ok ⟨x, fieldP - y⟩", "claims": ["C16"], "desc": "negated point", "ok": false, "modules": ["Verif/Lemmas/PublicKey.lean"], "fails": ["fromPoint_point"], "broken": ["C11_create", "C16_api", "C29_decrypt_create", "C29_refuted", "C30_confirm_create", "C30_refuted", "C31_confirm_pair", "C31_lot_sequence", "C32_long_seed_lost", "C32_refuted_long", "C32_refuted_short", "C33_errors", "C33_returns", "C34_confirm_flag", "C34_confirm_reading", "C34_create_flag", "C34_illegal_refuted", "C35_iff", "C35_sound", "C37_ripple_confirm", "C37_ripple_create", "C40_confirm_errors"], "hit": ["C16"]}
{"i": 73, "file": "Model/Crypto.lean", "definition": "doubleSha256", "old": "sha256 P (.bytes h)\n\n/-- `bip38/crypto.py:62", "new": "sha256 P data\n\n/-- `bip38/crypto.py:62", "claims": ["C07"], "desc": "single hash", "ok": false, "modules": ["Verif/Lemmas/Crypto.lean"], "fails": ["doubleSha256_bytes"], "broken": ["C07_wif_roundtrip", "C07_wif_text", "C08_injective", "C08_other_network", "C11_create", "C11_encrypt", "C11_intermediate", "C11_wif", "C17_decrypt_encrypt", "C17_refuted", "C17_roundtrip_iff", "C18_encrypt_returns_iff", "C18_refuted", "C19_record", "C20_C21_returned_key", "C22_refuted", "C26_refuted", "C26_validation", "C27_unusable_code", "C28_layout", "C29_decrypt_create", "C29_refuted", "C30_confirm_create", "C30_refuted", "C31_confirm_pair", "C31_lot_sequence", "C31_reported_pair", "C32_long_seed_lost", "C32_refuted_long", "C32_refuted_short", "C33_errors", "C33_factor_point", "C33_returns", "C34_confirm_flag", "C34_confirm_reading", "C34_create_flag", "C34_decrypt_flag", "C34_decrypt_reading", "C34_encrypt_flag", "C34_illegal_refuted", "C34_unknown_flag", "C35_iff", "C35_sound", "C37_refuted", "C37_ripple_confirm", "C37_ripple_create", "C37_ripple_decrypt", "C40_confirm_errors", "C40_decrypt_errors", "C40_ec_iff", "C40_noEc_iff", "C41_other_network"], "hit": ["C07"]}
{"i": 74, "file": "Model/Crypto.lean", "definition": "hash160", "old": "ripemd160 P (.bytes h)", "new": "ripemd160 P data", "claims": ["C12"], "desc": "RIPEMD-160 of the data itself", "ok": false, "modules": ["Verif/Lemmas/Crypto.lean"], "fails": ["hash160_bytes"], "broken": ["C11_create", "C11_encrypt", "C12_address_roundtrip", "C12_address_text", "C12_key_forms", "C17_decrypt_encrypt", "C17_refuted", "C17_roundtrip_iff", "C18_encrypt_returns_iff", "C18_refuted", "C19_record", "C20_C21_returned_key", "C22_refuted", "C29_decrypt_create", "C29_refuted", "C30_confirm_create", "C30_refuted", "C31_confirm_pair", "C31_lot_sequence", "C31_reported_pair", "C32_long_seed_lost", "C32_refuted_long", "C32_refuted_short", "C33_errors", "C33_returns", "C34_confirm_flag", "C34_confirm_reading", "C34_create_flag", "C34_decrypt_flag", "C34_decrypt_reading", "C34_encrypt_flag", "C34_illegal_refuted", "C34_unknown_flag", "C35_iff", "C35_sound", "C37_refuted", "C37_ripple_confirm", "C37_ripple_create", "C37_ripple_decrypt", "C40_confirm_errors", "C40_decrypt_errors", "C40_ec_iff", "C40_noEc_iff", "C41_other_network"], "hit": ["C12"]}
{"i": 75, "file": "Model/Crypto.lean", "definition": "ripemd160", "old": "| none => let b ← getBytes data; .ok (Ripemd.ripemd160 b)", "new": "| none => let b ← getBytes data; .ok (P.sha256 b)", "claims": ["C38"], "desc": "fallback uses another hash", "ok": false, "modules": ["Verif/Lemmas/Crypto.lean", "Verif/Props/Ripemd160.lean"], "fails": ["C38_fallback", "hash160_bytes"], "broken": ["C11_create", "C11_encrypt", "C12_address_roundtrip", "C12_address_text", "C12_key_forms", "C17_decrypt_encrypt", "C17_refuted", "C17_roundtrip_iff", "C18_encrypt_returns_iff", "C18_refuted", "C19_record", "C20_C21_returned_key", "C22_refuted", "C29_decrypt_create", "C29_refuted", "C30_confirm_create", "C30_refuted", "C31_confirm_pair", "C31_lot_sequence", "C31_reported_pair", "C32_long_seed_lost", "C32_refuted_long", "C32_refuted_short", "C33_errors", "C33_returns", "C34_confirm_flag", "C34_confirm_reading", "C34_create_flag", "C34_decrypt_flag", "C34_decrypt_reading", "C34_encrypt_flag", "C34_illegal_refuted", "C34_unknown_flag", "C35_iff", "C35_sound", "C37_refuted", "C37_ripple_confirm", "C37_ripple_create", "C37_ripple_decrypt", "C38_fallback", "C40_confirm_errors", "C40_decrypt_errors", "C40_ec_iff", "C40_noEc_iff", "C41_other_network"], "hit": ["C38"]}
{"i": 76, "file": "Model/Crypto.lean", "definition": "ripemd160", "old": "| some f => let b ← getBytes data; .ok (f b)", "new": "| some f => let b ← getBytes data; .ok (f (P.sha256 b))", "claims": ["C12"], "desc": "hashlib branch hashes twice", "ok": false, "modules": ["Verif/Lemmas/Crypto.lean"], "fails": ["hash160_bytes"], "broken": ["C11_create", "C11_encrypt", "C12_address_roundtrip", "C12_address_text", "C12_key_forms", "C17_decrypt_encrypt", "C17_refuted", "C17_roundtrip_iff", "C18_encrypt_returns_iff", "C18_refuted", "C19_record", "C20_C21_returned_key", "C22_refuted", "C29_decrypt_create", "C29_refuted", "C30_confirm_create", "C30_refuted", "C31_confirm_pair", "C31_lot_sequence", "C31_reported_pair", "C32_long_seed_lost", "C32_refuted_long", "C32_refuted_short", "C33_errors", "C33_returns", "C34_confirm_flag", "C34_confirm_reading", "C34_create_flag", "C34_decrypt_flag", "C34_decrypt_reading", "C34_encrypt_flag", "C34_illegal_refuted", "C34_unknown_flag", "C35_iff", "C35_sound", "C37_refuted", "C37_ripple_confirm", "C37_ripple_create", "C37_ripple_decrypt", "C40_confirm_errors", "C40_decrypt_errors", "C40_ec_iff", "C40_noEc_iff", "C41_other_network"], "hit": ["C12"]}
{"i": 77, "file": "Model/Crypto.lean", "definition": "scryptPassphrase", "old": "(utf8 (P.nfc passphrase))", "new": "(utf8 passphrase)", "claims": ["C25"], "desc": "no NFC normalisation", "ok": false, "modules": ["Verif/Lemmas/Bip38.lean"], "fails": ["stretch_eq"], "broken": ["C11_encrypt", "C17_decrypt_encrypt", "C17_refuted", "C17_roundtrip_iff", "C18_encrypt_returns_iff", "C18_refuted", "C19_record", "C22_refuted", "C34_encrypt_flag", "C37_refuted", "C41_other_network"], "hit": []}
{"i": 78, "file": "Model/Crypto.lean", "definition": "scryptPassphrase", "old": "16384 8 8", "new": "16384 8 1", "claims": ["C19"], "desc": "wrong scrypt parameter", "ok": false, "modules": ["Verif/Lemmas/Bip38.lean"], "fails": ["stretch_eq"], "broken": ["C11_encrypt", "C17_decrypt_encrypt", "C17_refuted", "C17_roundtrip_iff", "C18_encrypt_returns_iff", "C18_refuted", "C19_record", "C22_refuted", "C34_encrypt_flag", "C37_refuted", "C41_other_network"], "hit": ["C19"]}
{"i": 79, "file": "Model/Crypto.lean", "definition": "AES.decrypt", "old": "P.aesDecrypt aes.key", "new": "P.aesEncrypt aes.key", "claims": ["C17"], "desc": "encrypts instead of decrypting", "ok": false, "modules": ["Verif/Lemmas/Bip38.lean"], "fails": ["AES.decrypt_ok"], "broken": ["C17_decrypt_encrypt", "C17_refuted", "C17_roundtrip_iff", "C20_C21_returned_key", "C22_refuted", "C29_decrypt_create", "C29_refuted", "C30_confirm_create", "C30_refuted", "C31_confirm_pair", "C31_lot_sequence", "C31_reported_pair", "C32_long_seed_lost", "C34_confirm_flag", "C34_confirm_reading", "C34_decrypt_flag", "C34_decrypt_reading", "C34_illegal_refuted", "C34_unknown_flag", "C35_iff", "C35_sound", "C37_refuted", "C37_ripple_confirm", "C37_ripple_decrypt", "C40_confirm_errors", "C40_decrypt_errors", "C40_ec_iff", "C40_noEc_iff", "C41_other_network"], "hit": ["C17"]}
{"i": 80, "file": "Model/Wif.lean", "definition": "encodeWif", "old": "key.length ≠ 32", "new": "key.length < 32", "claims": ["C07"], "desc": "longer keys accepted", "ok": false, "modules": ["Verif/Props/Wif.lean"], "fails": ["C07_wrong_length"], "broken": ["C07_wrong_length"], "hit": ["C07"]}
{"i": 81, "file": "Model/Wif.lean", "definition": "encodeWif", "old": "let chkC ← getChecksum P (.bytes compressedPayload)", "new": "let chkC ← getChecksum P (.bytes payload)", "claims": ["C07"], "desc": "checksum of the wrong payload", "ok": false, "modules": ["Verif/Lemmas/Wif.lean"], "fails": ["encodeWif_bytes"], "broken": ["C07_wif_roundtrip", "C07_wif_text", "C08_injective", "C08_other_network", "C11_wif", "C17_decrypt_encrypt", "C17_refuted", "C17_roundtrip_iff", "C18_refuted", "C20_C21_returned_key", "C22_refuted", "C29_decrypt_create", "C29_refuted", "C31_lot_sequence", "C31_reported_pair", "C32_long_seed_lost", "C34_decrypt_flag", "C34_decrypt_reading", "C34_illegal_refuted", "C34_unknown_flag", "C37_refuted", "C37_ripple_decrypt", "C40_decrypt_errors", "C40_ec_iff", "C40_noEc_iff", "C41_other_network"], "hit": ["C07"]}
{"i": 82, "file": "Model/Wif.lean", "definition": "encodeWif", "old": "pre ++ key ++ one", "new": "pre ++ one ++ key", "claims": ["C07"], "desc": "marker at the wrong place", "ok": false, "modules": ["Verif/Lemmas/Wif.lean"], "fails": ["encodeWif_bytes"], "broken": ["C07_wif_roundtrip", "C07_wif_text", "C08_injective", "C08_other_network", "C11_wif", "C17_decrypt_encrypt", "C17_refuted", "C17_roundtrip_iff", "C18_refuted", "C20_C21_returned_key", "C22_refuted", "C29_decrypt_create", "C29_refuted", "C31_lot_sequence", "C31_reported_pair", "C32_long_seed_lost", "C34_decrypt_flag", "C34_decrypt_reading", "C34_illegal_refuted", "C34_unknown_flag", "C37_refuted", "C37_ripple_decrypt", "C40_decrypt_errors", "C40_ec_iff", "C40_noEc_iff", "C41_other_network"], "hit": ["C07"]}
{"i": 83, "file": "Model/Wif.lean", "definition": "decodeWif", "old": "privateKey.length ≠ 33 ∧ privateKey.length ≠ 32", "new": "privateKey.length ≠ 33 ∧ privateKey.length > 32", "claims": ["C09"], "desc": "short keys accepted", "ok": false, "modules": ["Verif/Lemmas/Wif.lean"], "fails": ["decodeWif_payload"], "broken": ["C07_wif_roundtrip", "C08_injective", "C09_any_checksum_accepted", "C09_decode_wif_iff", "C09_wrong_checksum_refuted", "C10_any_marker_accepted", "C10_wrong_marker_refuted", "C11_encrypt", "C17_decrypt_encrypt", "C17_refuted", "C17_roundtrip_iff", "C18_refuted", "C19_record", "C20_C21_returned_key", "C22_refuted", "C34_encrypt_flag", "C34_illegal_refuted", "C37_refuted", "C37_ripple_decrypt", "C41_other_network"], "hit": ["C09"]}
{"i": 84, "file": "Model/Wif.lean", "definition": "decodeWif", "old": "dropLastN one.length privateKey, ", "new": "privateKey, ", "claims": ["C07"], "desc": "marker not dropped", "ok": false, "modules": ["Verif/Lemmas/Wif.lean"], "fails": ["decodeWif_payload"], "broken": ["C07_wif_roundtrip", "C08_injective", "C09_any_checksum_accepted", "C09_decode_wif_iff", "C09_wrong_checksum_refuted", "C10_any_marker_accepted", "C10_wrong_marker_refuted", "C11_encrypt", "C17_decrypt_encrypt", "C17_refuted", "C17_roundtrip_iff", "C18_refuted", "C19_record", "C20_C21_returned_key", "C22_refuted", "C34_encrypt_flag", "C34_illegal_refuted", "C37_refuted", "C37_ripple_decrypt", "C41_other_network"], "hit": ["C07"]}
{"i": 85, "file": "Model/Wif.lean", "definition": "decodeWif", "old": "lastN 4 rawWithoutPrefix", "new": "rawWithoutPrefix.take 4", "claims": ["C07"], "desc": "checksum taken from the front", "ok": false, "modules": ["Verif/Lemmas/Wif.lean"], "fails": ["decodeWif_payload"], "broken": ["C07_wif_roundtrip", "C08_injective", "C09_any_checksum_accepted", "C09_decode_wif_iff", "C09_wrong_checksum_refuted", "C10_any_marker_accepted", "C10_wrong_marker_refuted", "C11_encrypt", "C17_decrypt_encrypt", "C17_refuted", "C17_roundtrip_iff", "C18_refuted", "C19_record", "C20_C21_returned_key", "C22_refuted", "C34_encrypt_flag", "C34_illegal_refuted", "C37_refuted", "C37_ripple_decrypt", "C41_other_network"], "hit": ["C07"]}
{"i": 86, "file": "Model/Wif.lean", "definition": "decodeWif", "old": "raiseIf (¬ pre.isPrefixOf raw) .wifError \"Invalid Wallet Import Format (WIF)\"\n", "new": "", "claims": ["C08"], "desc": "first prefix test dropped (the second one is equivalent; expected to survive)", "ok": false, "modules": ["Verif/Lemmas/Wif.lean"], "fails": ["decodeWif_wrong_prefix"], "broken": ["C08_other_network", "C09_decode_wif_iff", "C11_encrypt", "C17_decrypt_encrypt", "C17_refuted", "C17_roundtrip_iff", "C19_record", "C22_refuted", "C34_encrypt_flag", "C37_refuted", "C41_other_network"], "hit": ["C08"]}
{"i": 87, "file": "Model/Wif.lean", "definition": "decodeWif", "old": "raiseIf (¬ pre.isPrefixOf raw) .wifError \"Invalid Wallet Import Format (WIF)\"\n  let prefixLength := pre.length\n  let prefixGot := raw.take prefixLength\n  raiseIf (pre ≠ prefixGot) .wifError \"Invalid WIF prefix\"\n", "new": "let prefixLength := pre.length\n", "claims": ["C08"], "desc": "prefix never compared", "ok": false, "modules": ["Verif/Lemmas/Wif.lean"], "fails": ["decodeWif_wrong_prefix"], "broken": ["C08_other_network", "C09_decode_wif_iff", "C11_encrypt", "C17_decrypt_encrypt", "C17_refuted", "C17_roundtrip_iff", "C19_record", "C22_refuted", "C34_encrypt_flag", "C37_refuted", "C41_other_network"], "hit": ["C08"]}
{"i": 88, "file": "Model/Wif.lean", "definition": "decodeWif", "old": "\"wif-compressed\", checksum", "new": "\"wif\", checksum", "claims": ["C07"], "desc": "wrong type reported", "ok": false, "modules": ["Verif/Lemmas/Wif.lean"], "fails": ["decodeWif_payload"], "broken": ["C07_wif_roundtrip", "C08_injective", "C09_any_checksum_accepted", "C09_decode_wif_iff", "C09_wrong_checksum_refuted", "C10_any_marker_accepted", "C10_wrong_marker_refuted", "C11_encrypt", "C17_decrypt_encrypt", "C17_refuted", "C17_roundtrip_iff", "C18_refuted", "C19_record", "C20_C21_returned_key", "C22_refuted", "C34_encrypt_flag", "C34_illegal_refuted", "C37_refuted", "C37_ripple_decrypt", "C41_other_network"], "hit": ["C07"]}
{"i": 89, "file": "Model/Wif.lean", "definition": "privateKeyToWif", "old": "if wifType = \"wif\" then wif else wifCompressed", "new": "if wifType = \"wif-compressed\" then wif else wifCompressed", "claims": ["C07"], "desc": "types swapped", "ok": false, "modules": ["Verif/Props/Wif.lean"], "fails": ["C07_wif_text"], "broken": ["C07_wif_roundtrip", "C07_wif_text", "C08_injective", "C08_other_network", "C11_wif", "C17_decrypt_encrypt", "C17_refuted", "C17_roundtrip_iff", "C18_refuted", "C20_C21_returned_key", "C22_refuted", "C29_decrypt_create", "C29_refuted", "C31_lot_sequence", "C31_reported_pair", "C32_long_seed_lost", "C34_decrypt_flag", "C34_decrypt_reading", "C34_illegal_refuted", "C34_unknown_flag", "C37_refuted", "C37_ripple_decrypt", "C40_decrypt_errors", "C40_ec_iff", "C40_noEc_iff", "C41_other_network"], "hit": ["C07"]}
{"i": 90, "file": "Model/Wif.lean", "definition": "privateKeyToWif", "old": "raiseIf (wifType ∉ WIF_TYPES) .wifError \"Wrong WIF type\"\n", "new": "", "claims": ["C07"], "desc": "type not validated", "ok": false, "modules": ["Verif/Model/Wif.lean"], "fails": ["privateKeyToWif"], "broken": ["C07_hex_key", "C07_wif_roundtrip", "C07_wif_text", "C07_wrong_length", "C07_wrong_type", "C08_injective", "C08_other_network", "C11_wif", "C17_decrypt_encrypt", "C17_refuted", "C17_roundtrip_iff", "C18_refuted", "C20_C21_returned_key", "C22_checksum_ignored", "C22_refuted", "C23_flag", "C23_length", "C23_non_ascii", "C23_prefix", "C24_same_choice", "C24_unknown_network", "C25_nfc", "C29_decrypt_create", "C29_refuted", "C31_lot_sequence", "C31_reported_pair", "C32_long_seed_lost", "C34_decrypt_flag", "C34_decrypt_reading", "C34_illegal_refuted", "C34_unknown_flag", "C37_alphabet_unused", "C37_refuted", "C37_ripple_decrypt", "C40_decrypt_errors", "C40_ec_iff", "C40_noEc_iff", "C41_other_network"], "hit": ["C07"]}
{"i": 91, "file": "Model/Wif.lean", "definition": "lookupNet", "old": "raise .keyError network", "new": "raise .networkError network", "claims": ["C43"], "desc": "wrong exception class for an unknown network in the WIF functions", "ok": true, "modules": [], "fails": [], "broken": [], "hit": []}
{"i": 92, "file": "Model/Wif.lean", "definition": "getWifChecksum", "old": "bytesToString (.bytes checksum)", "new": "bytesToString (.bytes (checksum.take 3))", "claims": ["C07"], "desc": "truncated checksum", "ok": false, "modules": ["Verif/Props/Wif.lean"], "fails": ["C07_wif_roundtrip"], "broken": ["C07_wif_roundtrip", "C08_injective", "C17_refuted", "C17_roundtrip_iff", "C18_refuted", "C20_C21_returned_key", "C22_refuted", "C34_illegal_refuted", "C37_refuted", "C37_ripple_decrypt"], "hit": ["C07"]}
{"i": 93, "file": "Model/P2pkh.lean", "definition": "p2pkhEncode", "old": "if publicKeyType = \"compressed\" then", "new": "if publicKeyType ≠ \"compressed\" then", "claims": ["C12"], "desc": "types swapped", "ok": false, "modules": ["Verif/Lemmas/P2pkh.lean"], "fails": ["p2pkhEncode_key"], "broken": ["C11_create", "C11_encrypt", "C12_address_roundtrip", "C12_address_text", "C17_decrypt_encrypt", "C17_refuted", "C17_roundtrip_iff", "C18_encrypt_returns_iff", "C18_refuted", "C19_record", "C20_C21_returned_key", "C22_refuted", "C29_decrypt_create", "C29_refuted", "C30_confirm_create", "C30_refuted", "C31_confirm_pair", "C31_lot_sequence", "C31_reported_pair", "C32_long_seed_lost", "C32_refuted_long", "C32_refuted_short", "C33_errors", "C33_returns", "C34_confirm_flag", "C34_confirm_reading", "C34_create_flag", "C34_decrypt_flag", "C34_decrypt_reading", "C34_encrypt_flag", "C34_illegal_refuted", "C34_unknown_flag", "C35_iff", "C35_sound", "C37_refuted", "C37_ripple_confirm", "C37_ripple_create", "C37_ripple_decrypt", "C40_confirm_errors", "C40_decrypt_errors", "C40_ec_iff", "C40_noEc_iff", "C41_other_network"], "hit": ["C12"]}
{"i": 94, "file": "Model/P2pkh.lean", "definition": "p2pkhEncode", "old": "(pre ++ publicKeyHash) alphabet", "new": "(pre ++ publicKeyHash)", "claims": ["C12"], "desc": "alphabet ignored when encoding", "ok": false, "modules": ["Verif/Lemmas/P2pkh.lean"], "fails": ["p2pkhEncode_key"], "broken": ["C11_create", "C11_encrypt", "C12_address_roundtrip", "C12_address_text", "C17_decrypt_encrypt", "C17_refuted", "C17_roundtrip_iff", "C18_encrypt_returns_iff", "C18_refuted", "C19_record", "C20_C21_returned_key", "C22_refuted", "C29_decrypt_create", "C29_refuted", "C30_confirm_create", "C30_refuted", "C31_confirm_pair", "C31_lot_sequence", "C31_reported_pair", "C32_long_seed_lost", "C32_refuted_long", "C32_refuted_short", "C33_errors", "C33_returns", "C34_confirm_flag", "C34_confirm_reading", "C34_create_flag", "C34_decrypt_flag", "C34_decrypt_reading", "C34_encrypt_flag", "C34_illegal_refuted", "C34_unknown_flag", "C35_iff", "C35_sound", "C37_refuted", "C37_ripple_confirm", "C37_ripple_create", "C37_ripple_decrypt", "C40_confirm_errors", "C40_decrypt_errors", "C40_ec_iff", "C40_noEc_iff", "C41_other_network"], "hit": ["C12"]}
{"i": 95, "file": "Model/P2pkh.lean", "definition": "p2pkhEncode", "old": "(pre ++ publicKeyHash)", "new": "(publicKeyHash ++ pre)", "claims": ["C12"], "desc": "prefix at the end", "ok": false, "modules": ["Verif/Lemmas/P2pkh.lean"], "fails": ["p2pkhEncode_key"], "broken": ["C11_create", "C11_encrypt", "C12_address_roundtrip", "C12_address_text", "C17_decrypt_encrypt", "C17_refuted", "C17_roundtrip_iff", "C18_encrypt_returns_iff", "C18_refuted", "C19_record", "C20_C21_returned_key", "C22_refuted", "C29_decrypt_create", "C29_refuted", "C30_confirm_create", "C30_refuted", "C31_confirm_pair", "C31_lot_sequence", "C31_reported_pair", "C32_long_seed_lost", "C32_refuted_long", "C32_refuted_short", "C33_errors", "C33_returns", "C34_confirm_flag", "C34_confirm_reading", "C34_create_flag", "C34_decrypt_flag", "C34_decrypt_reading", "C34_encrypt_flag", "C34_illegal_refuted", "C34_unknown_flag", "C35_iff", "C35_sound", "C37_refuted", "C37_ripple_confirm", "C37_ripple_create", "C37_ripple_decrypt", "C40_confirm_errors", "C40_decrypt_errors", "C40_ec_iff", "C40_noEc_iff", "C41_other_network"], "hit": ["C12"]}
{"i": 96, "file": "Model/P2pkh.lean", "definition": "p2pkhDecode", "old": "20 + pre.length", "new": "21", "claims": ["C12"], "desc": "one-byte prefixes only", "ok": false, "modules": ["Verif/Lemmas/P2pkh.lean"], "fails": ["p2pkhDecode_eq"], "broken": ["C12_address_roundtrip", "C13_bad_checksum", "C13_bad_payload", "C13_decode_iff"], "hit": ["C12"]}
{"i": 97, "file": "Model/P2pkh.lean", "definition": "p2pkhDecode", "old": "raiseIf (pre ≠ prefixGot) .addressError \"Invalid prefix\"\n", "new": "", "claims": ["C13"], "desc": "prefix not checked", "ok": false, "modules": ["Verif/Model/P2pkh.lean"], "fails": ["p2pkhDecode"], "broken": ["C12_address_roundtrip", "C13_bad_checksum", "C13_bad_payload", "C13_decode_iff"], "hit": ["C13"]}
{"i": 98, "file": "Model/P2pkh.lean", "definition": "p2pkhDecode", "old": "raiseIf (addressDecode.length ≠ expectedLength) .addressError \"Invalid length\"\n", "new": "", "claims": ["C13"], "desc": "length not checked", "ok": false, "modules": ["Verif/Lemmas/P2pkh.lean"], "fails": ["p2pkhDecode_eq"], "broken": ["C12_address_roundtrip", "C13_bad_checksum", "C13_bad_payload", "C13_decode_iff"], "hit": ["C13"]}
{"i": 99, "file": "Model/P2pkh.lean", "definition": "p2pkhDecode", "old": "address alphabet", "new": "address", "claims": ["C12"], "desc": "alphabet ignored when decoding", "ok": false, "modules": ["Verif/Lemmas/P2pkh.lean"], "fails": ["p2pkhDecode_eq"], "broken": ["C12_address_roundtrip", "C13_bad_checksum", "C13_bad_payload", "C13_decode_iff"], "hit": ["C12"]}
{"i": 100, "file": "Model/Bip38.lean", "definition": "BIP38.new", "old": "raiseIf (network ∉ networks) .networkError \"Wrong network type\"\n", "new": "", "claims": ["C24"], "desc": "network not validated by the constructor", "ok": false, "modules": ["Verif/Model/Bip38.lean"], "fails": ["BIP38.new"], "broken": ["C11_create", "C11_encrypt", "C17_decrypt_encrypt", "C17_refuted", "C17_roundtrip_iff", "C18_encrypt_returns_iff", "C18_refuted", "C19_record", "C20_C21_returned_key", "C22_checksum_ignored", "C22_refuted", "C23_flag", "C23_length", "C23_non_ascii", "C23_prefix", "C24_constructor_errors", "C24_constructor_iff", "C24_same_choice", "C24_unknown_network", "C25_nfc", "C27_unusable_code", "C29_decrypt_create", "C29_refuted", "C30_confirm_create", "C30_refuted", "C31_confirm_pair", "C31_lot_sequence", "C31_reported_pair", "C32_long_seed_lost", "C32_refuted_long", "C32_refuted_short", "C33_checksum", "C33_errors", "C33_factor_point", "C33_length", "C33_magic", "C33_returns", "C33_seed", "C33_type", "C34_confirm_flag", "C34_confirm_reading", "C34_create_flag", "C34_decrypt_flag", "C34_decrypt_reading", "C34_encrypt_flag", "C34_illegal_refuted", "C34_unknown_flag", "C35_checksum", "C35_iff", "C35_length", "C35_prefix", "C35_sound", "C36_constructs", "C37_alphabet_unused", "C37_refuted", "C37_ripple_confirm", "C37_ripple_create", "C37_ripple_decrypt", "C37_stored", "C40_confirm_errors", "C40_decrypt_errors", "C40_ec_iff", "C40_noEc_iff", "C41_other_network"], "hit": ["C24"]}
{"i": 101, "file": "Model/Bip38.lean", "definition": "BIP38.new", "old": "| .otherClass => raise .cryptocurrencyError", "new": "| .otherClass => raise .networkError", "claims": ["C24"], "desc": "wrong class", "ok": false, "modules": ["Verif/Props/Select.lean"], "fails": ["C24_constructor_errors"], "broken": ["C24_constructor_errors"], "hit": ["C24"]}
{"i": 102, "file": "Model/Bip38.lean", "definition": "BIP38.new", "old": "| some a => if a.isEmpty then bitcoinAlphabet else a", "new": "| some _ => bitcoinAlphabet", "claims": ["C37"], "desc": "the coin's alphabet is not stored", "ok": false, "modules": ["Verif/Props/Alphabet.lean"], "fails": ["C37_stored", "example@45", "ripple_decrypts", "ripple_selects"], "broken": ["C37_refuted", "C37_stored"], "hit": ["C37"]}
{"i": 103, "file": "Model/Bip38.lean", "definition": "BIP38.selectNetwork", "old": "if n = \"\" then self.network else n", "new": "n", "claims": ["C24"], "desc": "empty string not treated as absent", "ok": false, "modules": ["Verif/Lemmas/Bip38.lean"], "fails": ["Spec.Selects.select"], "broken": ["C11_create", "C11_encrypt", "C17_decrypt_encrypt", "C17_refuted", "C17_roundtrip_iff", "C18_encrypt_returns_iff", "C18_refuted", "C19_record", "C20_C21_returned_key", "C22_refuted", "C23_flag", "C23_length", "C23_non_ascii", "C23_prefix", "C27_unusable_code", "C29_decrypt_create", "C29_refuted", "C30_confirm_create", "C30_refuted", "C31_confirm_pair", "C31_lot_sequence", "C31_reported_pair", "C32_long_seed_lost", "C32_refuted_long", "C32_refuted_short", "C33_checksum", "C33_errors", "C33_factor_point", "C33_length", "C33_magic", "C33_returns", "C33_seed", "C33_type", "C34_confirm_flag", "C34_confirm_reading", "C34_create_flag", "C34_decrypt_flag", "C34_decrypt_reading", "C34_encrypt_flag", "C34_illegal_refuted", "C34_unknown_flag", "C35_checksum", "C35_iff", "C35_length", "C35_prefix", "C35_sound", "C37_refuted", "C37_ripple_confirm", "C37_ripple_create", "C37_ripple_decrypt", "C40_confirm_errors", "C40_decrypt_errors", "C40_ec_iff", "C40_noEc_iff", "C41_other_network"], "hit": []}
{"i": 104, "file": "Model/Bip38.lean", "definition": "BIP38.selectNetwork", "old": "| none => self.network", "new": "| none => \"mainnet\"", "claims": ["C24"], "desc": "default network hard-coded", "ok": false, "modules": ["Verif/Lemmas/Bip38.lean"], "fails": ["Spec.Selects.select"], "broken": ["C11_create", "C11_encrypt", "C17_decrypt_encrypt", "C17_refuted", "C17_roundtrip_iff", "C18_encrypt_returns_iff", "C18_refuted", "C19_record", "C20_C21_returned_key", "C22_refuted", "C23_flag", "C23_length", "C23_non_ascii", "C23_prefix", "C27_unusable_code", "C29_decrypt_create", "C29_refuted", "C30_confirm_create", "C30_refuted", "C31_confirm_pair", "C31_lot_sequence", "C31_reported_pair", "C32_long_seed_lost", "C32_refuted_long", "C32_refuted_short", "C33_checksum", "C33_errors", "C33_factor_point", "C33_length", "C33_magic", "C33_returns", "C33_seed", "C33_type", "C34_confirm_flag", "C34_confirm_reading", "C34_create_flag", "C34_decrypt_flag", "C34_decrypt_reading", "C34_encrypt_flag", "C34_illegal_refuted", "C34_unknown_flag", "C35_checksum", "C35_iff", "C35_length", "C35_prefix", "C35_sound", "C37_refuted", "C37_ripple_confirm", "C37_ripple_create", "C37_ripple_decrypt", "C40_confirm_errors", "C40_decrypt_errors", "C40_ec_iff", "C40_noEc_iff", "C41_other_network"], "hit": []}
{"i": 105, "file": "Model/Bip38.lean", "definition": "bytesOrRandom", "old": "if x.truthy then getBytes x else .ok u", "new": "if x = .none then .ok u else getBytes x", "claims": ["C26"], "desc": "empty text not treated as absent", "ok": false, "modules": ["Verif/Lemmas/Supplies.lean"], "fails": ["supplies_iff"], "broken": ["C11_create", "C11_intermediate", "C26_refuted", "C26_salt", "C26_validation", "C27_lot_zero_ignored", "C27_sequence_zero_ignored", "C27_unusable_code", "C28_layout", "C29_decrypt_create", "C29_refuted", "C30_confirm_create", "C30_refuted", "C31_lot_sequence", "C32_long_seed_lost", "C32_refuted_long", "C32_refuted_short", "C33_checksum", "C33_errors", "C33_factor_point", "C33_length", "C33_magic", "C33_returns", "C33_seed", "C33_type", "C34_create_flag", "C34_illegal_refuted", "C37_ripple_create"], "hit": ["C26"]}
{"i": 106, "file": "Model/Bip38.lean", "definition": "lotFactor", "old": "100000 ≤ lot", "new": "99999 ≤ lot", "claims": ["C26"], "desc": "lower bound of lot", "ok": false, "modules": ["Verif/Props/Intermediate.lean"], "fails": ["intermediate_eq"], "broken": ["C11_intermediate", "C26_refuted", "C26_validation", "C27_unusable_code", "C28_layout", "C29_decrypt_create", "C29_refuted", "C30_confirm_create", "C30_refuted", "C31_lot_sequence", "C32_long_seed_lost", "C32_refuted_long", "C32_refuted_short", "C34_illegal_refuted"], "hit": ["C26"]}
{"i": 107, "file": "Model/Bip38.lean", "definition": "lotFactor", "old": "lot ≤ 999999", "new": "lot < 999999", "claims": ["C26"], "desc": "upper bound of lot", "ok": false, "modules": ["Verif/Lemmas/Intermediate.lean"], "fails": ["intermediate_lot"], "broken": ["C11_intermediate", "C26_refuted", "C26_validation", "C27_unusable_code", "C28_layout", "C29_decrypt_create", "C29_refuted", "C30_confirm_create", "C30_refuted", "C31_lot_sequence", "C32_long_seed_lost", "C32_refuted_long", "C32_refuted_short", "C34_illegal_refuted"], "hit": ["C26"]}
{"i": 108, "file": "Model/Bip38.lean", "definition": "lotFactor", "old": "sequence ≤ 4095", "new": "sequence ≤ 4096", "claims": ["C26"], "desc": "upper bound of sequence", "ok": false, "modules": ["Verif/Props/Intermediate.lean"], "fails": ["intermediate_eq"], "broken": ["C11_intermediate", "C26_refuted", "C26_validation", "C27_unusable_code", "C28_layout", "C29_decrypt_create", "C29_refuted", "C30_confirm_create", "C30_refuted", "C31_lot_sequence", "C32_long_seed_lost", "C32_refuted_long", "C32_refuted_short", "C34_illegal_refuted"], "hit": ["C26"]}
{"i": 109, "file": "Model/Bip38.lean", "definition": "lotFactor", "old": "lot * 4096 + sequence", "new": "lot * 4095 + sequence", "claims": ["C28"], "desc": "wrong packing", "ok": false, "modules": ["Verif/Lemmas/Intermediate.lean"], "fails": ["intermediate_lot"], "broken": ["C11_intermediate", "C26_refuted", "C26_validation", "C27_unusable_code", "C28_layout", "C29_decrypt_create", "C29_refuted", "C30_confirm_create", "C30_refuted", "C31_lot_sequence", "C32_long_seed_lost", "C32_refuted_long", "C32_refuted_short", "C34_illegal_refuted"], "hit": ["C28"]}
{"i": 110, "file": "Model/Bip38.lean", "definition": "lotFactor", "old": "lot * 4096 + sequence", "new": "sequence * 4096 + lot", "claims": ["C28"], "desc": "lot and sequence swapped", "ok": false, "modules": ["Verif/Lemmas/Intermediate.lean"], "fails": ["intermediate_lot"], "broken": ["C11_intermediate", "C26_refuted", "C26_validation", "C27_unusable_code", "C28_layout", "C29_decrypt_create", "C29_refuted", "C30_confirm_create", "C30_refuted", "C31_lot_sequence", "C32_long_seed_lost", "C32_refuted_long", "C32_refuted_short", "C34_illegal_refuted"], "hit": ["C28"]}
{"i": 111, "file": "Model/Bip38.lean", "definition": "lotFactor", "old": "scryptPassphrase P passphrase (ownerSalt.take 4) 32", "new": "scryptPassphrase P passphrase ownerSalt 32", "claims": ["C28"], "desc": "scrypt salt not truncated to 4 bytes", "ok": false, "modules": ["Verif/Lemmas/Intermediate.lean"], "fails": ["intermediate_lot"], "broken": ["C11_intermediate", "C26_refuted", "C26_validation", "C27_unusable_code", "C28_layout", "C29_decrypt_create", "C29_refuted", "C30_confirm_create", "C30_refuted", "C31_lot_sequence", "C32_long_seed_lost", "C32_refuted_long", "C32_refuted_short", "C34_illegal_refuted"], "hit": ["C28"]}
{"i": 112, "file": "Model/Bip38.lean", "definition": "lotFactor", "old": "ownerSalt.take 4 ++ lotSequence", "new": "lotSequence ++ ownerSalt.take 4", "claims": ["C28"], "desc": "owner entropy order", "ok": false, "modules": ["Verif/Lemmas/Intermediate.lean"], "fails": ["intermediate_lot"], "broken": ["C11_intermediate", "C26_refuted", "C26_validation", "C27_unusable_code", "C28_layout", "C29_decrypt_create", "C29_refuted", "C30_confirm_create", "C30_refuted", "C31_lot_sequence", "C32_long_seed_lost", "C32_refuted_long", "C32_refuted_short", "C34_illegal_refuted"], "hit": ["C28"]}
{"i": 113, "file": "Model/Bip38.lean", "definition": "lotFactor", "old": "doubleSha256 P (.bytes (preFactor ++ ownerEntropy))", "new": "sha256 P (.bytes (preFactor ++ ownerEntropy))", "claims": ["C28"], "desc": "single hash for the pass factor", "ok": false, "modules": ["Verif/Lemmas/Intermediate.lean"], "fails": ["intermediate_lot"], "broken": ["C11_intermediate", "C26_refuted", "C26_validation", "C27_unusable_code", "C28_layout", "C29_decrypt_create", "C29_refuted", "C30_confirm_create", "C30_refuted", "C31_lot_sequence", "C32_long_seed_lost", "C32_refuted_long", "C32_refuted_short", "C34_illegal_refuted"], "hit": ["C28"]}
{"i": 114, "file": "Model/Bip38.lean", "definition": "noLotFactor", "old": "passphrase ownerSalt 32\n  let magic", "new": "passphrase (ownerSalt.take 4) 32\n  let magic", "claims": ["C28"], "desc": "salt truncated without lot", "ok": false, "modules": ["Verif/Lemmas/Intermediate.lean"], "fails": ["intermediate_noLot"], "broken": ["C11_intermediate", "C26_refuted", "C26_validation", "C27_unusable_code", "C28_layout", "C29_decrypt_create", "C29_refuted", "C30_confirm_create", "C30_refuted", "C31_lot_sequence", "C32_long_seed_lost", "C32_refuted_long", "C32_refuted_short", "C34_illegal_refuted"], "hit": ["C28"]}
{"i": 115, "file": "Model/Bip38.lean", "definition": "intermediateCode", "old": "ownerSalt.length ∉ [4, 8]", "new": "ownerSalt.length ∉ [8]", "claims": ["C26"], "desc": "4-byte salts refused", "ok": false, "modules": ["Verif/Lemmas/Intermediate.lean"], "fails": ["intermediate_lot", "intermediate_noLot"], "broken": ["C11_intermediate", "C26_refuted", "C26_validation", "C27_unusable_code", "C28_layout", "C29_decrypt_create", "C29_refuted", "C30_confirm_create", "C30_refuted", "C31_lot_sequence", "C32_long_seed_lost", "C32_refuted_long", "C32_refuted_short", "C34_illegal_refuted"], "hit": ["C26"]}
{"i": 116, "file": "Model/Bip38.lean", "definition": "intermediateCode", "old": "raiseIf (ownerSalt.length = 4 ∧ (lot = none ∨ sequence = none)) .error\n    \"Invalid owner salt length for non lot/sequence\"\n", "new": "", "claims": ["C26"], "desc": "4-byte salt accepted without lot", "ok": false, "modules": ["Verif/Model/Bip38.lean"], "fails": ["intermediateCode"], "broken": ["C11_intermediate", "C25_nfc", "C26_refuted", "C26_salt", "C26_validation", "C27_lot_zero_ignored", "C27_sequence_zero_ignored", "C27_unusable_code", "C28_layout", "C29_decrypt_create", "C29_refuted", "C30_confirm_create", "C30_refuted", "C31_lot_sequence", "C32_long_seed_lost", "C32_refuted_long", "C32_refuted_short", "C34_illegal_refuted"], "hit": ["C26"]}
{"i": 117, "file": "Model/Bip38.lean", "definition": "intermediateCode", "old": "(truthyInt lot ∧ sequence = none) ∨ (lot = none ∧ truthyInt sequence)", "new": "truthyInt lot ∧ sequence = none", "claims": ["C26"], "desc": "sequence without lot accepted", "ok": false, "modules": ["Verif/Lemmas/Intermediate.lean"], "fails": ["intermediate_noLot"], "broken": ["C11_intermediate", "C26_refuted", "C26_validation", "C27_unusable_code", "C28_layout", "C29_decrypt_create", "C29_refuted", "C30_confirm_create", "C30_refuted", "C31_lot_sequence", "C32_long_seed_lost", "C32_refuted_long", "C32_refuted_short", "C34_illegal_refuted"], "hit": ["C26"]}
{"i": 118, "file": "Model/Bip38.lean", "definition": "intermediateCode", "old": "if truthyInt lot ∧ truthyInt sequence then", "new": "if lot ≠ none ∧ sequence ≠ none then", "claims": ["C27"], "desc": "lot/sequence 0 no longer dropped", "ok": false, "modules": ["Verif/Lemmas/Intermediate.lean"], "fails": ["intermediate_lot", "intermediate_noLot"], "broken": ["C11_intermediate", "C26_refuted", "C26_validation", "C27_unusable_code", "C28_layout", "C29_decrypt_create", "C29_refuted", "C30_confirm_create", "C30_refuted", "C31_lot_sequence", "C32_long_seed_lost", "C32_refuted_long", "C32_refuted_short", "C34_illegal_refuted"], "hit": ["C27"]}
{"i": 119, "file": "Model/Bip38.lean", "definition": "intermediateCode", "old": "passPoint.rawCompressed", "new": "passPoint.rawUncompressed", "claims": ["C28"], "desc": "uncompressed pass point", "ok": false, "modules": ["Verif/Lemmas/Intermediate.lean"], "fails": ["intermediate_lot", "intermediate_noLot"], "broken": ["C11_intermediate", "C26_refuted", "C26_validation", "C27_unusable_code", "C28_layout", "C29_decrypt_create", "C29_refuted", "C30_confirm_create", "C30_refuted", "C31_lot_sequence", "C32_long_seed_lost", "C32_refuted_long", "C32_refuted_short", "C34_illegal_refuted"], "hit": ["C28"]}
{"i": 120, "file": "Model/Bip38.lean", "definition": "encrypt", "old": "let flag ← integerToBytes NO_EC_MULTIPLIED_WIF_FLAG\n      let privateKey", "new": "let flag ← integerToBytes NO_EC_MULTIPLIED_WIF_COMPRESSED_FLAG\n      let privateKey", "claims": ["C19"], "desc": "compressed flag always written", "ok": false, "modules": ["Verif/Lemmas/NoEc.lean"], "fails": ["encrypt_eq", "wif_reads"], "broken": ["C11_encrypt", "C17_decrypt_encrypt", "C17_refuted", "C17_roundtrip_iff", "C18_encrypt_returns_iff", "C18_refuted", "C19_record", "C22_refuted", "C34_encrypt_flag", "C37_refuted", "C41_other_network"], "hit": ["C19"]}
{"i": 121, "file": "Model/Bip38.lean", "definition": "encrypt", "old": "(.ok (flag, privateKey, \"uncompressed\")", "new": "(.ok (flag, privateKey, \"compressed\")", "claims": ["C19"], "desc": "address hash of the compressed address", "ok": false, "modules": ["Verif/Lemmas/NoEc.lean"], "fails": ["encrypt_eq"], "broken": ["C11_encrypt", "C17_decrypt_encrypt", "C17_refuted", "C17_roundtrip_iff", "C18_encrypt_returns_iff", "C18_refuted", "C19_record", "C22_refuted", "C34_encrypt_flag", "C37_refuted", "C41_other_network"], "hit": ["C19"]}
{"i": 122, "file": "Model/Bip38.lean", "definition": "encrypt", "old": "let key := scryptPassphrase P passphrase addressHash\n  let derivedHalf1 := slice 0 32 key\n  let derivedHalf2 := slice 32 64 key\n  let aes ← AES.new derivedHalf2\n  let encryptedHalf1 ← aes.encrypt", "new": "let key := scryptPassphrase P passphrase addressHash\n  let derivedHalf1 := slice 0 32 key\n  let derivedHalf2 := slice 32 64 key\n  let aes ← AES.new derivedHalf1\n  let encryptedHalf1 ← aes.encrypt", "claims": ["C19"], "desc": "wrong half as AES key", "ok": false, "modules": ["Verif/Lemmas/NoEc.lean"], "fails": ["encrypt_eq"], "broken": ["C11_encrypt", "C17_decrypt_encrypt", "C17_refuted", "C17_roundtrip_iff", "C18_encrypt_returns_iff", "C18_refuted", "C19_record", "C22_refuted", "C34_encrypt_flag", "C37_refuted", "C41_other_network"], "hit": ["C19"]}
{"i": 123, "file": "Model/Bip38.lean", "definition": "encrypt", "old": "(slice 16 32 privateKey.raw) (slice 16 32 derivedHalf1)", "new": "(slice 16 32 privateKey.raw) (slice 0 16 derivedHalf1)", "claims": ["C19"], "desc": "second half masked with the first mask", "ok": false, "modules": ["Verif/Lemmas/NoEc.lean"], "fails": ["encrypt_eq"], "broken": ["C11_encrypt", "C17_decrypt_encrypt", "C17_refuted", "C17_roundtrip_iff", "C18_encrypt_returns_iff", "C18_refuted", "C19_record", "C22_refuted", "C34_encrypt_flag", "C37_refuted", "C41_other_network"], "hit": ["C19"]}
{"i": 124, "file": "Model/Bip38.lean", "definition": "encrypt", "old": "addressHash ++ encryptedHalf1 ++ encryptedHalf2\n  let checksum", "new": "addressHash ++ encryptedHalf2 ++ encryptedHalf1\n  let checksum", "claims": ["C17"], "desc": "halves swapped in the record", "ok": false, "modules": ["Verif/Lemmas/NoEc.lean"], "fails": ["encrypt_eq", "wif_reads"], "broken": ["C11_encrypt", "C17_decrypt_encrypt", "C17_refuted", "C17_roundtrip_iff", "C18_encrypt_returns_iff", "C18_refuted", "C19_record", "C22_refuted", "C34_encrypt_flag", "C37_refuted", "C41_other_network"], "hit": ["C17"]}
{"i": 125, "file": "Model/Bip38.lean", "definition": "encrypt", "old": "let net ← lookupNet self.cryptocurrency network\n  let address ← p2pkhEncode P (.key privateKey.publicKey) net.addressPrefix publicKeyType", "new": "let net ← lookupNet self.cryptocurrency self.network\n  let address ← p2pkhEncode P (.key privateKey.publicKey) net.addressPrefix publicKeyType", "claims": ["C19"], "desc": "address prefix of the constructor's network", "ok": false, "modules": ["Verif/Lemmas/NoEc.lean"], "fails": ["encrypt_eq"], "broken": ["C11_encrypt", "C17_decrypt_encrypt", "C17_refuted", "C17_roundtrip_iff", "C18_encrypt_returns_iff", "C18_refuted", "C19_record", "C22_refuted", "C34_encrypt_flag", "C37_refuted", "C41_other_network"], "hit": ["C19"]}
{"i": 126, "file": "Model/Bip38.lean", "definition": "encrypt", "old": "raiseIf (network ∉ self.networks) .networkError \"Wrong network type\"\n  let wifType ← getWifType", "new": "let wifType ← getWifType", "claims": ["C24"], "desc": "network not validated", "ok": false, "modules": ["Verif/Props/NoEc.lean"], "fails": ["encrypt_reads"], "broken": ["C11_encrypt", "C17_decrypt_encrypt", "C17_refuted", "C17_roundtrip_iff", "C19_record", "C22_refuted", "C34_encrypt_flag", "C37_refuted", "C41_other_network"], "hit": []}
{"i": 127, "file": "Model/Bip38.lean", "definition": "checkDecodeOr", "old": "if e.cls.isValueError then raise cls msg else .error e", "new": "if e.cls = .valueError then raise cls msg else .error e", "claims": ["C33"], "desc": "UnicodeEncodeError not converted", "ok": false, "modules": ["Verif/Lemmas/Confirm.lean"], "fails": ["checkDecodeOr_error"], "broken": ["C11_create", "C29_decrypt_create", "C29_refuted", "C30_confirm_create", "C30_refuted", "C31_lot_sequence", "C32_long_seed_lost", "C33_checksum", "C33_errors", "C33_returns", "C34_create_flag", "C34_illegal_refuted", "C35_checksum", "C35_sound", "C37_ripple_confirm", "C37_ripple_create", "C40_confirm_errors"], "hit": ["C33"]}
{"i": 128, "file": "Model/Bip38.lean", "definition": "publicKeyTypeOf", "old": "if wifType = \"wif\" then .ok \"uncompressed\"", "new": "if wifType = \"wif\" then .ok \"compressed\"", "claims": ["C29"], "desc": "wrong type", "ok": false, "modules": ["Verif/Lemmas/Create.lean"], "fails": ["publicKeyTypeOf_eq"], "broken": ["C11_create", "C29_decrypt_create", "C29_refuted", "C30_confirm_create", "C30_refuted", "C31_lot_sequence", "C32_long_seed_lost", "C32_refuted_long", "C32_refuted_short", "C33_errors", "C33_factor_point", "C33_magic", "C33_returns", "C34_create_flag", "C34_illegal_refuted", "C37_ripple_create"], "hit": ["C29"]}
{"i": 129, "file": "Model/Bip38.lean", "definition": "publicKeyTypeOf", "old": "else raise .wifError \"Invalid wif type\"", "new": "else .ok \"uncompressed\"", "claims": ["C33"], "desc": "unknown type accepted", "ok": false, "modules": ["Verif/Props/Create.lean"], "fails": ["C33_type"], "broken": ["C11_create", "C29_decrypt_create", "C29_refuted", "C30_confirm_create", "C30_refuted", "C31_lot_sequence", "C32_long_seed_lost", "C33_errors", "C33_returns", "C33_type", "C34_create_flag", "C34_illegal_refuted", "C37_ripple_create"], "hit": ["C33"]}
{"i": 130, "file": "Model/Bip38.lean", "definition": "newFlag", "old": "if publicKeyType = \"uncompressed\" then integerToBytes MAGIC_LOT_AND_SEQUENCE_UNCOMPRESSED_FLAG\n    else integerToBytes MAGIC_LOT_AND_SEQUENCE_COMPRESSED_FLAG", "new": "if publicKeyType = \"compressed\" then integerToBytes MAGIC_LOT_AND_SEQUENCE_UNCOMPRESSED_FLAG\n    else integerToBytes MAGIC_LOT_AND_SEQUENCE_COMPRESSED_FLAG", "claims": ["C29"], "desc": "flags swapped", "ok": false, "modules": ["Verif/Lemmas/Create.lean"], "fails": ["newFlag_eq"], "broken": ["C11_create", "C29_decrypt_create", "C29_refuted", "C30_confirm_create", "C30_refuted", "C31_lot_sequence", "C32_long_seed_lost", "C32_refuted_long", "C32_refuted_short", "C33_errors", "C33_factor_point", "C33_returns", "C34_create_flag", "C34_illegal_refuted", "C37_ripple_create"], "hit": ["C29"]}
{"i": 131, "file": "Model/Bip38.lean", "definition": "newFlag", "old": "else if magic = magicNoLot then", "new": "else if magic = magicNoLot ∨ magic.take 7 = magicNoLot.take 7 then", "claims": ["C33"], "desc": "unknown magics accepted", "ok": false, "modules": ["Verif/Lemmas/Create.lean"], "fails": ["newFlag_eq"], "broken": ["C11_create", "C29_decrypt_create", "C29_refuted", "C30_confirm_create", "C30_refuted", "C31_lot_sequence", "C32_long_seed_lost", "C32_refuted_long", "C32_refuted_short", "C33_errors", "C33_factor_point", "C33_returns", "C34_create_flag", "C34_illegal_refuted", "C37_ripple_create"], "hit": ["C33"]}
{"i": 132, "file": "Model/Bip38.lean", "definition": "createNewEncryptedWif", "old": "intermediateDecode.length ≠ 49", "new": "intermediateDecode.length < 49", "claims": ["C33"], "desc": "longer intermediate codes accepted", "ok": false, "modules": ["Verif/Lemmas/Create.lean"], "fails": ["create_eq"], "broken": ["C11_create", "C29_decrypt_create", "C29_refuted", "C30_confirm_create", "C30_refuted", "C31_lot_sequence", "C32_long_seed_lost", "C32_refuted_long", "C32_refuted_short", "C33_errors", "C33_returns", "C34_create_flag", "C34_illegal_refuted", "C37_ripple_create"], "hit": ["C33"]}
{"i": 133, "file": "Model/Bip38.lean", "definition": "createNewEncryptedWif", "old": "let ownerEntropy := slice 8 16 intermediateDecode", "new": "let ownerEntropy := slice 8 12 intermediateDecode", "claims": ["C29"], "desc": "owner entropy truncated", "ok": false, "modules": ["Verif/Lemmas/Create.lean"], "fails": ["create_eq"], "broken": ["C11_create", "C29_decrypt_create", "C29_refuted", "C30_confirm_create", "C30_refuted", "C31_lot_sequence", "C32_long_seed_lost", "C32_refuted_long", "C32_refuted_short", "C33_errors", "C33_returns", "C34_create_flag", "C34_illegal_refuted", "C37_ripple_create"], "hit": ["C29"]}
{"i": 134, "file": "Model/Bip38.lean", "definition": "createNewEncryptedWif", "old": "raiseIf (¬ (0 < b2i factorB ∧ b2i factorB < N)) .error", "new": "raiseIf (¬ (0 < b2i factorB ∧ b2i factorB ≤ N)) .error", "claims": ["C33"], "desc": "factor N accepted (then PrivateKey/point error)", "ok": false, "modules": ["Verif/Lemmas/Create.lean"], "fails": ["create_eq"], "broken": ["C11_create", "C29_decrypt_create", "C29_refuted", "C30_confirm_create", "C30_refuted", "C31_lot_sequence", "C32_long_seed_lost", "C32_refuted_long", "C32_refuted_short", "C33_errors", "C33_returns", "C34_create_flag", "C34_illegal_refuted", "C37_ripple_create"], "hit": ["C33"]}
{"i": 135, "file": "Model/Bip38.lean", "definition": "createNewEncryptedWif", "old": "let factorB ← doubleSha256 P (.bytes seedB)\n  raiseIf (¬", "new": "let factorB ← sha256 P (.bytes seedB)\n  raiseIf (¬", "claims": ["C29"], "desc": "single hash of the seed", "ok": false, "modules": ["Verif/Lemmas/Create.lean"], "fails": ["create_eq"], "broken": ["C11_create", "C29_decrypt_create", "C29_refuted", "C30_confirm_create", "C30_refuted", "C31_lot_sequence", "C32_long_seed_lost", "C32_refuted_long", "C32_refuted_short", "C33_errors", "C33_returns", "C34_create_flag", "C34_illegal_refuted", "C37_ripple_create"], "hit": ["C29"]}
{"i": 136, "file": "Model/Bip38.lean", "definition": "createNewEncryptedWif", "old": "let salt := addressHash ++ ownerEntropy\n  let scryptHash := P.scrypt passPoint salt 1024 1 1 64\n  let derivedHalf1 := scryptHash.take 16\n", "new": "let salt := ownerEntropy ++ addressHash\n  let scryptHash := P.scrypt passPoint salt 1024 1 1 64\n  let derivedHalf1 := scryptHash.take 16\n", "claims": ["C29"], "desc": "salt order", "ok": false, "modules": ["Verif/Lemmas/Create.lean"], "fails": ["create_eq"], "broken": ["C11_create", "C29_decrypt_create", "C29_refuted", "C30_confirm_create", "C30_refuted", "C31_lot_sequence", "C32_long_seed_lost", "C32_refuted_long", "C32_refuted_short", "C33_errors", "C33_returns", "C34_create_flag", "C34_illegal_refuted", "C37_ripple_create"], "hit": ["C29"]}
{"i": 137, "file": "Model/Bip38.lean", "definition": "createNewEncryptedWif", "old": "(encryptedHalf1.drop 8 ++ seedB.drop 16)", "new": "(encryptedHalf1.take 8 ++ seedB.drop 16)", "claims": ["C29"], "desc": "wrong half carried over", "ok": false, "modules": ["Verif/Lemmas/Create.lean"], "fails": ["create_eq"], "broken": ["C11_create", "C29_decrypt_create", "C29_refuted", "C30_confirm_create", "C30_refuted", "C31_lot_sequence", "C32_long_seed_lost", "C32_refuted_long", "C32_refuted_short", "C33_errors", "C33_returns", "C34_create_flag", "C34_illegal_refuted", "C37_ripple_create"], "hit": ["C29"]}
{"i": 138, "file": "Model/Bip38.lean", "definition": "createNewEncryptedWif", "old": "(encryptedHalf1.drop 8 ++ seedB.drop 16) derivedHalf2", "new": "(encryptedHalf1.drop 8 ++ seedB.drop 16) derivedHalf1", "claims": ["C29"], "desc": "wrong mask", "ok": false, "modules": ["Verif/Lemmas/Create.lean"], "fails": ["create_eq"], "broken": ["C11_create", "C29_decrypt_create", "C29_refuted", "C30_confirm_create", "C30_refuted", "C31_lot_sequence", "C32_long_seed_lost", "C32_refuted_long", "C32_refuted_short", "C33_errors", "C33_returns", "C34_create_flag", "C34_illegal_refuted", "C37_ripple_create"], "hit": ["C29"]}
{"i": 139, "file": "Model/Bip38.lean", "definition": "createNewEncryptedWif", "old": "(b2i (scryptHash.drop 63) &&& 1) ^^^ b2i (pointB.take 1)", "new": "b2i (pointB.take 1)", "claims": ["C30"], "desc": "prefix not masked", "ok": false, "modules": ["Verif/Lemmas/Create.lean"], "fails": ["create_eq"], "broken": ["C11_create", "C29_decrypt_create", "C29_refuted", "C30_confirm_create", "C30_refuted", "C31_lot_sequence", "C32_long_seed_lost", "C32_refuted_long", "C32_refuted_short", "C33_errors", "C33_returns", "C34_create_flag", "C34_illegal_refuted", "C37_ripple_create"], "hit": ["C30"]}
{"i": 140, "file": "Model/Bip38.lean", "definition": "createNewEncryptedWif", "old": "(pointB.drop 17) derivedHalf2", "new": "(pointB.drop 17) derivedHalf1", "claims": ["C30"], "desc": "wrong mask for point half 2", "ok": false, "modules": ["Verif/Lemmas/Create.lean"], "fails": ["create_eq"], "broken": ["C11_create", "C29_decrypt_create", "C29_refuted", "C30_confirm_create", "C30_refuted", "C31_lot_sequence", "C32_long_seed_lost", "C32_refuted_long", "C32_refuted_short", "C33_errors", "C33_returns", "C34_create_flag", "C34_illegal_refuted", "C37_ripple_create"], "hit": ["C30"]}
{"i": 141, "file": "Model/Bip38.lean", "definition": "createNewEncryptedWif", "old": "let seedText ← bytesToString (.bytes seedB)\n  .ok { encryptedWif", "new": "let seedText ← bytesToString (.bytes (seedB.take 24))\n  .ok { encryptedWif", "claims": ["C32"], "desc": "reported seed truncated to 24 bytes", "ok": false, "modules": ["Verif/Lemmas/Create.lean"], "fails": ["create_eq"], "broken": ["C11_create", "C29_decrypt_create", "C29_refuted", "C30_confirm_create", "C30_refuted", "C31_lot_sequence", "C32_long_seed_lost", "C32_refuted_long", "C32_refuted_short", "C33_errors", "C33_returns", "C34_create_flag", "C34_illegal_refuted", "C37_ripple_create"], "hit": ["C32"]}
{"i": 142, "file": "Model/Bip38.lean", "definition": "createNewEncryptedWif", "old": "let publicKeyText ← bytesToString (.bytes (publicKey.raw publicKeyType))\n  let seedText", "new": "let publicKeyText ← bytesToString (.bytes publicKey.rawCompressed)\n  let seedText", "claims": ["C29"], "desc": "reported public key always compressed", "ok": false, "modules": ["Verif/Lemmas/Create.lean"], "fails": ["create_eq"], "broken": ["C11_create", "C29_decrypt_create", "C29_refuted", "C30_confirm_create", "C30_refuted", "C31_lot_sequence", "C32_long_seed_lost", "C32_refuted_long", "C32_refuted_short", "C33_errors", "C33_returns", "C34_create_flag", "C34_illegal_refuted", "C37_ripple_create"], "hit": ["C29"]}
{"i": 143, "file": "Model/Bip38.lean", "definition": "createNewEncryptedWif", "old": "let net ← lookupNet self.cryptocurrency network\n  let address ← p2pkhEncode P (.key publicKey) net.addressPrefix publicKeyType\n  let addressHash", "new": "let net ← lookupNet self.cryptocurrency self.network\n  let address ← p2pkhEncode P (.key publicKey) net.addressPrefix publicKeyType\n  let addressHash", "claims": ["C29"], "desc": "address of the constructor's network", "ok": false, "modules": ["Verif/Lemmas/Create.lean"], "fails": ["create_eq"], "broken": ["C11_create", "C29_decrypt_create", "C29_refuted", "C30_confirm_create", "C30_refuted", "C31_lot_sequence", "C32_long_seed_lost", "C32_refuted_long", "C32_refuted_short", "C33_errors", "C33_returns", "C34_create_flag", "C34_illegal_refuted", "C37_ripple_create"], "hit": ["C29"]}
{"i": 144, "file": "Model/Bip38.lean", "definition": "splitEntropy", "old": "if b2i flag ∈ FLAGS_lot_and_sequence then", "new": "if b2i flag ∈ FLAGS_compression then", "claims": ["C34"], "desc": "wrong table", "ok": false, "modules": ["Verif/Lemmas/Ec.lean"], "fails": ["splitEntropy_eq"], "broken": ["C20_C21_returned_key", "C22_refuted", "C29_decrypt_create", "C29_refuted", "C30_confirm_create", "C30_refuted", "C31_confirm_pair", "C31_lot_sequence", "C31_reported_pair", "C32_long_seed_lost", "C34_confirm_flag", "C34_confirm_reading", "C34_decrypt_flag", "C34_decrypt_reading", "C34_illegal_refuted", "C34_unknown_flag", "C35_iff", "C35_sound", "C37_refuted", "C37_ripple_confirm", "C37_ripple_decrypt", "C40_confirm_errors", "C40_decrypt_errors", "C40_ec_iff"], "hit": ["C34"]}
{"i": 145, "file": "Model/Bip38.lean", "definition": "splitEntropy", "old": "some (ownerEntropy.drop 4)", "new": "some (ownerEntropy.take 4)", "claims": ["C31"], "desc": "wrong half", "ok": false, "modules": ["Verif/Lemmas/Ec.lean"], "fails": ["splitEntropy_eq"], "broken": ["C20_C21_returned_key", "C22_refuted", "C29_decrypt_create", "C29_refuted", "C30_confirm_create", "C30_refuted", "C31_confirm_pair", "C31_lot_sequence", "C31_reported_pair", "C32_long_seed_lost", "C34_confirm_flag", "C34_confirm_reading", "C34_decrypt_flag", "C34_decrypt_reading", "C34_illegal_refuted", "C34_unknown_flag", "C35_iff", "C35_sound", "C37_refuted", "C37_ripple_confirm", "C37_ripple_decrypt", "C40_confirm_errors", "C40_decrypt_errors", "C40_ec_iff"], "hit": ["C31"]}
{"i": 146, "file": "Model/Bip38.lean", "definition": "passFactorOf", "old": "(passFactor ++ ownerEntropy)", "new": "(passFactor ++ ownerSalt)", "claims": ["C29"], "desc": "hashes the salt only", "ok": false, "modules": ["Verif/Lemmas/Ec.lean"], "fails": ["passFactorOf_eq"], "broken": ["C20_C21_returned_key", "C22_refuted", "C29_decrypt_create", "C29_refuted", "C30_confirm_create", "C30_refuted", "C31_confirm_pair", "C31_lot_sequence", "C31_reported_pair", "C32_long_seed_lost", "C34_confirm_flag", "C34_confirm_reading", "C34_decrypt_flag", "C34_decrypt_reading", "C34_illegal_refuted", "C34_unknown_flag", "C35_iff", "C35_sound", "C37_refuted", "C37_ripple_confirm", "C37_ripple_decrypt", "C40_confirm_errors", "C40_decrypt_errors", "C40_ec_iff"], "hit": ["C29"]}
{"i": 147, "file": "Model/Bip38.lean", "definition": "lotSequenceOf", "old": "% 4096", "new": "% 4095", "claims": ["C31"], "desc": "wrong modulus", "ok": false, "modules": ["Verif/Lemmas/Ec.lean"], "fails": ["lotSequenceOf_eq"], "broken": ["C20_C21_returned_key", "C22_refuted", "C29_decrypt_create", "C29_refuted", "C30_confirm_create", "C30_refuted", "C31_confirm_pair", "C31_lot_sequence", "C31_reported_pair", "C32_long_seed_lost", "C34_confirm_flag", "C34_confirm_reading", "C34_decrypt_flag", "C34_decrypt_reading", "C34_illegal_refuted", "C34_unknown_flag", "C35_iff", "C35_sound", "C37_refuted", "C37_ripple_confirm", "C37_ripple_decrypt", "C40_confirm_errors", "C40_decrypt_errors", "C40_ec_iff"], "hit": ["C31"]}
{"i": 148, "file": "Model/Bip38.lean", "definition": "lotSequenceOf", "old": "(some (lot : Nat), some (sequence : Nat))", "new": "(some (sequence : Nat), some (lot : Nat))", "claims": ["C31"], "desc": "swapped", "ok": false, "modules": ["Verif/Lemmas/Ec.lean"], "fails": ["lotSequenceOf_eq"], "broken": ["C20_C21_returned_key", "C22_refuted", "C29_decrypt_create", "C29_refuted", "C30_confirm_create", "C30_refuted", "C31_confirm_pair", "C31_lot_sequence", "C31_reported_pair", "C32_long_seed_lost", "C34_confirm_flag", "C34_confirm_reading", "C34_decrypt_flag", "C34_decrypt_reading", "C34_illegal_refuted", "C34_unknown_flag", "C35_iff", "C35_sound", "C37_refuted", "C37_ripple_confirm", "C37_ripple_decrypt", "C40_confirm_errors", "C40_decrypt_errors", "C40_ec_iff"], "hit": ["C31"]}
{"i": 149, "file": "Model/Bip38.lean", "definition": "lotSequenceOf", "old": "(b2i (c :: cs) - sequence) / 4096", "new": "b2i (c :: cs) / 4096", "claims": ["C31"], "desc": "same value (equivalent; expected to survive or only need a proof change)", "ok": false, "modules": ["Verif/Lemmas/Ec.lean"], "fails": ["lotSequenceOf_eq"], "broken": ["C20_C21_returned_key", "C22_refuted", "C29_decrypt_create", "C29_refuted", "C30_confirm_create", "C30_refuted", "C31_confirm_pair", "C31_lot_sequence", "C31_reported_pair", "C32_long_seed_lost", "C34_confirm_flag", "C34_confirm_reading", "C34_decrypt_flag", "C34_decrypt_reading", "C34_illegal_refuted", "C34_unknown_flag", "C35_iff", "C35_sound", "C37_refuted", "C37_ripple_confirm", "C37_ripple_decrypt", "C40_confirm_errors", "C40_decrypt_errors", "C40_ec_iff"], "hit": ["C31"]}
{"i": 150, "file": "Model/Bip38.lean", "definition": "orIncorrectPassphrase", "old": "if e.cls = .secp256k1Error then raise .passphraseError \"Incorrect passphrase\" else .error e", "new": ".error e", "claims": ["C30"], "desc": "Secp256k1Error not converted", "ok": false, "modules": ["Verif/Lemmas/Confirm.lean"], "fails": ["confirm_eq"], "broken": ["C30_confirm_create", "C30_refuted", "C31_confirm_pair", "C34_confirm_flag", "C34_confirm_reading", "C35_iff", "C35_sound", "C37_ripple_confirm", "C40_confirm_errors"], "hit": ["C30"]}
{"i": 151, "file": "Model/Bip38.lean", "definition": "confirmCode", "old": "decoded.length ≠ 51", "new": "decoded.length < 51", "claims": ["C35"], "desc": "longer codes accepted", "ok": false, "modules": ["Verif/Lemmas/Confirm.lean"], "fails": ["confirm_eq"], "broken": ["C30_confirm_create", "C30_refuted", "C31_confirm_pair", "C34_confirm_flag", "C34_confirm_reading", "C35_iff", "C35_sound", "C37_ripple_confirm", "C40_confirm_errors"], "hit": ["C35"]}
{"i": 152, "file": "Model/Bip38.lean", "definition": "confirmCode", "old": "raiseIf (confPrefix ≠ prefixGot) .error \"Invalid confirmation code prefix\"\n", "new": "", "claims": ["C35"], "desc": "prefix not checked", "ok": false, "modules": ["Verif/Lemmas/Confirm.lean"], "fails": ["confirm_eq"], "broken": ["C30_confirm_create", "C30_refuted", "C31_confirm_pair", "C34_confirm_flag", "C34_confirm_reading", "C35_iff", "C35_sound", "C37_ripple_confirm", "C40_confirm_errors"], "hit": ["C35"]}
{"i": 153, "file": "Model/Bip38.lean", "definition": "confirmCode", "old": "let derivedHalf1 := slice 1 17 encryptedPointB", "new": "let derivedHalf1 := slice 0 16 encryptedPointB", "claims": ["C30"], "desc": "off by one slice", "ok": false, "modules": ["Verif/Lemmas/Confirm.lean"], "fails": ["confirm_eq"], "broken": ["C30_confirm_create", "C30_refuted", "C31_confirm_pair", "C34_confirm_flag", "C34_confirm_reading", "C35_iff", "C35_sound", "C37_ripple_confirm", "C40_confirm_errors"], "hit": ["C30"]}
{"i": 154, "file": "Model/Bip38.lean", "definition": "confirmCode", "old": "if addressChecksum = addressHash then\n    if detail then do\n      let (lot, sequence) := lotSequenceOf lotAndSequence\n      let publicKeyText", "new": "if true then\n    if detail then do\n      let (lot, sequence) := lotSequenceOf lotAndSequence\n      let publicKeyText", "claims": ["C35"], "desc": "address hash not compared", "ok": false, "modules": ["Verif/Lemmas/Confirm.lean"], "fails": ["confirm_eq"], "broken": ["C30_confirm_create", "C30_refuted", "C31_confirm_pair", "C34_confirm_flag", "C34_confirm_reading", "C35_iff", "C35_sound", "C37_ripple_confirm", "C40_confirm_errors"], "hit": ["C35"]}
{"i": 155, "file": "Model/Bip38.lean", "definition": "confirmCode", "old": "(pb.point.mul (b2i passFactor))", "new": "pb.point", "claims": ["C35"], "desc": "point B itself instead of passfactor times it", "ok": false, "modules": ["Verif/Lemmas/Confirm.lean"], "fails": ["confirm_eq"], "broken": ["C30_confirm_create", "C30_refuted", "C31_confirm_pair", "C34_confirm_flag", "C34_confirm_reading", "C35_iff", "C35_sound", "C37_ripple_confirm", "C40_confirm_errors"], "hit": ["C35"]}
{"i": 156, "file": "Model/Bip38.lean", "definition": "confirmCode", "old": "let addressHash := slice 6 10 decoded", "new": "let addressHash := slice 5 9 decoded", "claims": ["C30"], "desc": "off by one slice", "ok": false, "modules": ["Verif/Lemmas/Confirm.lean"], "fails": ["confirm_eq"], "broken": ["C30_confirm_create", "C30_refuted", "C31_confirm_pair", "C34_confirm_flag", "C34_confirm_reading", "C35_iff", "C35_sound", "C37_ripple_confirm", "C40_confirm_errors"], "hit": ["C30"]}
{"i": 157, "file": "Model/Bip38.lean", "definition": "decryptNoEc", "old": "raiseIf (addressChecksum ≠ addressHash) .passphraseError \"Incorrect passphrase\"\n", "new": "", "claims": ["C20"], "desc": "address hash not compared", "ok": false, "modules": ["Verif/Lemmas/NoEc.lean"], "fails": ["decryptNoEc_eq"], "broken": ["C17_decrypt_encrypt", "C17_refuted", "C17_roundtrip_iff", "C20_C21_returned_key", "C22_refuted", "C34_illegal_refuted", "C37_refuted", "C37_ripple_decrypt", "C40_decrypt_errors", "C40_noEc_iff", "C41_other_network"], "hit": ["C20"]}
{"i": 158, "file": "Model/Bip38.lean", "definition": "decryptNoEc", "old": "(.ok (\"wif\", \"uncompressed\") : Py (String × String))", "new": "(.ok (\"wif-compressed\", \"uncompressed\") : Py (String × String))", "claims": ["C17"], "desc": "wrong WIF type returned", "ok": false, "modules": ["Verif/Lemmas/NoEc.lean"], "fails": ["decryptNoEc_eq"], "broken": ["C17_decrypt_encrypt", "C17_refuted", "C17_roundtrip_iff", "C20_C21_returned_key", "C22_refuted", "C34_illegal_refuted", "C37_refuted", "C37_ripple_decrypt", "C40_decrypt_errors", "C40_noEc_iff", "C41_other_network"], "hit": ["C17"]}
{"i": 159, "file": "Model/Bip38.lean", "definition": "decryptNoEc", "old": "(decryptedHalf1 ++ decryptedHalf2) derivedHalf1", "new": "(decryptedHalf2 ++ decryptedHalf1) derivedHalf1", "claims": ["C17"], "desc": "halves swapped", "ok": false, "modules": ["Verif/Lemmas/NoEc.lean"], "fails": ["decryptNoEc_eq"], "broken": ["C17_decrypt_encrypt", "C17_refuted", "C17_roundtrip_iff", "C20_C21_returned_key", "C22_refuted", "C34_illegal_refuted", "C37_refuted", "C37_ripple_decrypt", "C40_decrypt_errors", "C40_noEc_iff", "C41_other_network"], "hit": ["C17"]}
{"i": 160, "file": "Model/Bip38.lean", "definition": "decryptNoEc", "old": "else raise .error \"Invalid flag\"", "new": "else .ok (\"wif\", \"uncompressed\")", "claims": ["C23"], "desc": "unknown flags accepted", "ok": false, "modules": ["Verif/Props/Decrypt.lean"], "fails": ["C23_flag"], "broken": ["C20_C21_returned_key", "C22_refuted", "C23_flag", "C34_illegal_refuted", "C37_refuted", "C37_ripple_decrypt", "C40_decrypt_errors", "C40_noEc_iff"], "hit": ["C23"]}
{"i": 161, "file": "Model/Bip38.lean", "definition": "decryptNoEc", "old": "b2i privateKey = 0 ∨ b2i privateKey ≥ N", "new": "b2i privateKey ≥ N", "claims": ["C40"], "desc": "zero key test dropped (then Secp256k1Error from PrivateKey)", "ok": false, "modules": ["Verif/Lemmas/NoEc.lean"], "fails": ["decryptNoEc_eq"], "broken": ["C17_decrypt_encrypt", "C17_refuted", "C17_roundtrip_iff", "C20_C21_returned_key", "C22_refuted", "C34_illegal_refuted", "C37_refuted", "C37_ripple_decrypt", "C40_decrypt_errors", "C40_noEc_iff", "C41_other_network"], "hit": ["C40"]}
{"i": 162, "file": "Model/Bip38.lean", "definition": "decryptNoEc", "old": "seed := none, address, lot := none", "new": "seed := some [], address, lot := none", "claims": ["C21"], "desc": "seed reported for a non-EC key", "ok": false, "modules": ["Verif/Lemmas/NoEc.lean"], "fails": ["decryptNoEc_eq"], "broken": ["C17_decrypt_encrypt", "C17_refuted", "C17_roundtrip_iff", "C20_C21_returned_key", "C22_refuted", "C34_illegal_refuted", "C37_refuted", "C37_ripple_decrypt", "C40_decrypt_errors", "C40_noEc_iff", "C41_other_network"], "hit": ["C21"]}
{"i": 163, "file": "Model/Bip38.lean", "definition": "decryptEc", "old": "let encryptedHalf2 := dropLastN 4 decoded |>.drop 23", "new": "let encryptedHalf2 := decoded.drop 27", "claims": ["C29"], "desc": "slice shifted", "ok": false, "modules": ["Verif/Lemmas/Ec.lean"], "fails": ["decryptEc_eq"], "broken": ["C20_C21_returned_key", "C22_refuted", "C29_decrypt_create", "C29_refuted", "C31_lot_sequence", "C31_reported_pair", "C32_long_seed_lost", "C34_decrypt_flag", "C34_decrypt_reading", "C34_illegal_refuted", "C34_unknown_flag", "C37_refuted", "C37_ripple_decrypt", "C40_decrypt_errors", "C40_ec_iff"], "hit": ["C29"]}
{"i": 164, "file": "Model/Bip38.lean", "definition": "decryptEc", "old": "b2i passFactor * b2i factorB % N", "new": "(b2i passFactor + b2i factorB) % N", "claims": ["C29"], "desc": "sum instead of product", "ok": false, "modules": ["Verif/Lemmas/Ec.lean"], "fails": ["decryptEc_eq"], "broken": ["C20_C21_returned_key", "C22_refuted", "C29_decrypt_create", "C29_refuted", "C31_lot_sequence", "C31_reported_pair", "C32_long_seed_lost", "C34_decrypt_flag", "C34_decrypt_reading", "C34_illegal_refuted", "C34_unknown_flag", "C37_refuted", "C37_ripple_decrypt", "C40_decrypt_errors", "C40_ec_iff"], "hit": ["C29"]}
{"i": 165, "file": "Model/Bip38.lean", "definition": "decryptEc", "old": "b2i passFactor * b2i factorB % N", "new": "b2i passFactor * b2i factorB", "claims": ["C29"], "desc": "no reduction modulo N", "ok": false, "modules": ["Verif/Lemmas/Ec.lean"], "fails": ["decryptEc_eq"], "broken": ["C20_C21_returned_key", "C22_refuted", "C29_decrypt_create", "C29_refuted", "C31_lot_sequence", "C31_reported_pair", "C32_long_seed_lost", "C34_decrypt_flag", "C34_decrypt_reading", "C34_illegal_refuted", "C34_unknown_flag", "C37_refuted", "C37_ripple_decrypt", "C40_decrypt_errors", "C40_ec_iff"], "hit": ["C29"]}
{"i": 166, "file": "Model/Bip38.lean", "definition": "decryptEc", "old": "let privateKey ← integerToBytes ((b2i passFactor * b2i factorB % N : Nat) : Int)", "new": "let privateKey ← integerToBytes ((b2i passFactor * b2i factorB % N : Nat) : Int) (some 32)", "claims": ["C29"], "desc": "bug fixed: 32 bytes always (the finding would no longer hold)", "ok": false, "modules": ["Verif/Lemmas/Ec.lean"], "fails": ["decryptEc_eq"], "broken": ["C20_C21_returned_key", "C22_refuted", "C29_decrypt_create", "C29_refuted", "C31_lot_sequence", "C31_reported_pair", "C32_long_seed_lost", "C34_decrypt_flag", "C34_decrypt_reading", "C34_illegal_refuted", "C34_unknown_flag", "C37_refuted", "C37_ripple_decrypt", "C40_decrypt_errors", "C40_ec_iff"], "hit": ["C29"]}
{"i": 167, "file": "Model/Bip38.lean", "definition": "xorBytes", "old": "integerToBytes ((b2i a ^^^ b2i b : Nat) : Int)", "new": "integerToBytes ((b2i a ^^^ b2i b : Nat) : Int) (some a.length)", "claims": ["C17"], "desc": "bug fixed: leading zeros kept (the findings would no longer hold)", "ok": false, "modules": ["Verif/Lemmas/Bip38.lean"], "fails": ["xorBytes_eq", "xorBytes_xb"], "broken": ["C11_create", "C11_encrypt", "C17_decrypt_encrypt", "C17_refuted", "C17_roundtrip_iff", "C18_encrypt_returns_iff", "C18_refuted", "C19_record", "C20_C21_returned_key", "C22_refuted", "C29_decrypt_create", "C29_refuted", "C30_confirm_create", "C30_refuted", "C31_confirm_pair", "C31_lot_sequence", "C31_reported_pair", "C32_long_seed_lost", "C32_refuted_long", "C32_refuted_short", "C33_errors", "C33_returns", "C34_confirm_flag", "C34_confirm_reading", "C34_create_flag", "C34_decrypt_flag", "C34_decrypt_reading", "C34_encrypt_flag", "C34_illegal_refuted", "C34_unknown_flag", "C35_iff", "C35_sound", "C37_refuted", "C37_ripple_confirm", "C37_ripple_create", "C37_ripple_decrypt", "C40_confirm_errors", "C40_decrypt_errors", "C40_ec_iff", "C40_noEc_iff", "C41_other_network"], "hit": ["C17"]}
{"i": 168, "file": "Model/Bip38.lean", "definition": "decryptEc", "old": "if addressChecksum = addressHash then do\n    let wif ← privateKeyToWif", "new": "if true then do\n    let wif ← privateKeyToWif", "claims": ["C20"], "desc": "address hash not compared", "ok": false, "modules": ["Verif/Lemmas/Ec.lean"], "fails": ["decryptEc_eq"], "broken": ["C20_C21_returned_key", "C22_refuted", "C29_decrypt_create", "C29_refuted", "C31_lot_sequence", "C31_reported_pair", "C32_long_seed_lost", "C34_decrypt_flag", "C34_decrypt_reading", "C34_illegal_refuted", "C34_unknown_flag", "C37_refuted", "C37_ripple_decrypt", "C40_decrypt_errors", "C40_ec_iff"], "hit": ["C20"]}
{"i": 169, "file": "Model/Bip38.lean", "definition": "decryptEc", "old": "(\"wif-compressed\", \"compressed\") else (\"wif\", \"uncompressed\")\n  let net", "new": "(\"wif-compressed\", \"compressed\") else (\"wif-compressed\", \"uncompressed\")\n  let net", "claims": ["C29"], "desc": "wrong WIF type", "ok": false, "modules": ["Verif/Lemmas/Ec.lean"], "fails": ["decryptEc_eq"], "broken": ["C20_C21_returned_key", "C22_refuted", "C29_decrypt_create", "C29_refuted", "C31_lot_sequence", "C31_reported_pair", "C32_long_seed_lost", "C34_decrypt_flag", "C34_decrypt_reading", "C34_illegal_refuted", "C34_unknown_flag", "C37_refuted", "C37_ripple_decrypt", "C40_decrypt_errors", "C40_ec_iff"], "hit": ["C29"]}
{"i": 170, "file": "Model/Bip38.lean", "definition": "decryptEc", "old": "let seedText ← bytesToString (.bytes seedB)\n      .ok (.detail", "new": "let seedText ← bytesToString (.bytes factorB)\n      .ok (.detail", "claims": ["C29"], "desc": "factor reported instead of seed", "ok": false, "modules": ["Verif/Lemmas/Ec.lean"], "fails": ["decryptEc_eq"], "broken": ["C20_C21_returned_key", "C22_refuted", "C29_decrypt_create", "C29_refuted", "C31_lot_sequence", "C31_reported_pair", "C32_long_seed_lost", "C34_decrypt_flag", "C34_decrypt_reading", "C34_illegal_refuted", "C34_unknown_flag", "C37_refuted", "C37_ripple_decrypt", "C40_decrypt_errors", "C40_ec_iff"], "hit": ["C29"]}
{"i": 171, "file": "Model/Bip38.lean", "definition": "decryptEc", "old": "let tail ← xorBytes (← aes.decrypt P encryptedHalf2) (slice 16 32 encryptedSeedB)", "new": "let tail ← xorBytes (← aes.decrypt P encryptedHalf2) (encryptedSeedB.take 16)", "claims": ["C29"], "desc": "wrong mask", "ok": false, "modules": ["Verif/Lemmas/Ec.lean"], "fails": ["decryptEc_eq"], "broken": ["C20_C21_returned_key", "C22_refuted", "C29_decrypt_create", "C29_refuted", "C31_lot_sequence", "C31_reported_pair", "C32_long_seed_lost", "C34_decrypt_flag", "C34_decrypt_reading", "C34_illegal_refuted", "C34_unknown_flag", "C37_refuted", "C37_ripple_decrypt", "C40_decrypt_errors", "C40_ec_iff"], "hit": ["C29"]}
{"i": 172, "file": "Model/Bip38.lean", "definition": "decrypt", "old": "decoded.length ≠ 43", "new": "decoded.length < 43", "claims": ["C23"], "desc": "longer records accepted", "ok": false, "modules": ["Verif/Props/Decrypt.lean"], "fails": ["C22_checksum_ignored", "C23_length", "C23_prefix"], "broken": ["C20_C21_returned_key", "C22_checksum_ignored", "C22_refuted", "C23_length", "C23_prefix", "C34_illegal_refuted", "C37_refuted", "C37_ripple_decrypt", "C40_decrypt_errors"], "hit": ["C23"]}
{"i": 173, "file": "Model/Bip38.lean", "definition": "decrypt", "old": "let decoded ← b58decode encryptedWif\n", "new": "let decoded ← (checkDecode P.sha256 encryptedWif).map (· ++ [0,0,0,0])\n", "claims": ["C22"], "desc": "checksum verified (the finding would no longer hold)", "ok": false, "modules": ["Verif/Lemmas/NoEc.lean"], "fails": ["decrypt_ec", "decrypt_noEc"], "broken": ["C17_decrypt_encrypt", "C17_refuted", "C17_roundtrip_iff", "C20_C21_returned_key", "C22_refuted", "C23_flag", "C29_decrypt_create", "C29_refuted", "C31_lot_sequence", "C31_reported_pair", "C32_long_seed_lost", "C34_decrypt_flag", "C34_decrypt_reading", "C34_illegal_refuted", "C34_unknown_flag", "C37_refuted", "C37_ripple_decrypt", "C40_decrypt_errors", "C40_ec_iff", "C40_noEc_iff", "C41_other_network"], "hit": ["C22"]}
{"i": 174, "file": "Model/Bip38.lean", "definition": "decrypt", "old": "else raise .error \"Invalid prefix\"", "new": "else raise .wifError \"Invalid prefix\"", "claims": ["C23"], "desc": "wrong class", "ok": false, "modules": ["Verif/Props/Decrypt.lean"], "fails": ["C23_prefix"], "broken": ["C20_C21_returned_key", "C22_refuted", "C23_prefix", "C34_illegal_refuted", "C37_refuted", "C37_ripple_decrypt", "C40_decrypt_errors"], "hit": ["C23"]}
{"i": 175, "file": "Model/Bip38.lean", "definition": "decrypt", "old": "raiseIf (network ∉ self.networks) .networkError \"Wrong network type\"\n  let decoded ← b58decode encryptedWif", "new": "let decoded ← b58decode encryptedWif", "claims": ["C24"], "desc": "network not validated", "ok": false, "modules": ["Verif/Props/Decrypt.lean"], "fails": ["C20_C21_returned_key", "C22_checksum_ignored", "C23_length", "C23_non_ascii", "C23_prefix", "C40_decrypt_errors"], "broken": ["C20_C21_returned_key", "C22_checksum_ignored", "C22_refuted", "C23_length", "C23_non_ascii", "C23_prefix", "C34_illegal_refuted", "C37_refuted", "C37_ripple_decrypt", "C40_decrypt_errors"], "hit": []}
{"i": 176, "file": "Model/Ripemd160.lean", "definition": "ML", "old": "3, 10, 14, 4, 9", "new": "3, 10, 4, 14, 9", "claims": ["C38"], "desc": "message order", "ok": false, "modules": ["Verif/Lemmas/Ripemd160.lean"], "fails": ["tables"], "broken": ["C38_fallback", "C38_length", "C38_ripemd160"], "hit": ["C38"]}
{"i": 177, "file": "Model/Ripemd160.lean", "definition": "RR", "old": "8, 5, 12, 9, 12, 5, 14", "new": "8, 5, 12, 9, 12, 5, 15", "claims": ["C38"], "desc": "rotation amount", "ok": false, "modules": ["Verif/Lemmas/Ripemd160.lean"], "fails": ["tables"], "broken": ["C38_fallback", "C38_length", "C38_ripemd160"], "hit": ["C38"]}
{"i": 178, "file": "Model/Ripemd160.lean", "definition": "KR", "old": "0x7a6d76e9", "new": "0x7a6d76e8", "claims": ["C38"], "desc": "constant", "ok": false, "modules": ["Verif/Lemmas/Ripemd160.lean"], "fails": ["constants"], "broken": ["C38_fallback", "C38_length", "C38_ripemd160"], "hit": ["C38"]}
{"i": 179, "file": "Model/Ripemd160.lean", "definition": "fi", "old": "| 3 => (x.land z).lor (y.land z.lnot)", "new": "| 3 => (x.land y).lor (z.land y.lnot)", "claims": ["C38"], "desc": "wrong boolean function", "ok": false, "modules": ["Verif/Lemmas/Ripemd160.lean"], "fails": ["w32_fi"], "broken": ["C38_fallback", "C38_length", "C38_ripemd160"], "hit": ["C38"]}
{"i": 180, "file": "Model/Ripemd160.lean", "definition": "rol", "old": "(x.land 0xffffffff) >>>", "new": "x >>>", "claims": ["C38"], "desc": "no masking before the right shift", "ok": false, "modules": ["Verif/Lemmas/Ripemd160.lean"], "fails": ["w32_rol"], "broken": ["C38_fallback", "C38_length", "C38_ripemd160"], "hit": ["C38"]}
{"i": 181, "file": "Model/Ripemd160.lean", "definition": "pathStep", "old": "rol s.c 10", "new": "rol s.c 9", "claims": ["C38"], "desc": "rotation by 9", "ok": false, "modules": ["Verif/Lemmas/Ripemd160.lean"], "fails": ["abs_pathStep"], "broken": ["C38_fallback", "C38_length", "C38_ripemd160"], "hit": ["C38"]}
{"i": 182, "file": "Model/Ripemd160.lean", "definition": "compress", "old": "h.b + l.c + r.d", "new": "h.b + l.d + r.c", "claims": ["C38"], "desc": "wrong combination", "ok": false, "modules": ["Verif/Lemmas/Ripemd160.lean"], "fails": ["abs_compress"], "broken": ["C38_fallback", "C38_length", "C38_ripemd160"], "hit": ["C38"]}
{"i": 183, "file": "Model/Ripemd160.lean", "definition": "ripemd160", "old": "(119 : Int)", "new": "(120 : Int)", "claims": ["C38"], "desc": "padding off by one", "ok": false, "modules": ["Verif/Lemmas/Ripemd160.lean"], "fails": ["ripemd160_eq"], "broken": ["C38_fallback", "C38_length", "C38_ripemd160"], "hit": ["C38"]}
{"i": 184, "file": "Model/Ripemd160.lean", "definition": "ripemd160", "old": "toLE 8 (8 * data.length)", "new": "toBE 8 (8 * data.length)", "claims": ["C38"], "desc": "big-endian length", "ok": false, "modules": ["Verif/Lemmas/Ripemd160.lean"], "fails": ["ripemd160_eq"], "broken": ["C38_fallback", "C38_length", "C38_ripemd160"], "hit": ["C38"]}
{"i": 185, "file": "Model/Ripemd160.lean", "definition": "init", "old": "0x67452301, 0xefcdab89", "new": "0xefcdab89, 0x67452301", "claims": ["C38"], "desc": "initial state", "ok": false, "modules": ["Verif/Lemmas/Ripemd160.lean"], "fails": ["ripemd160_eq"], "broken": ["C38_fallback", "C38_length", "C38_ripemd160"], "hit": ["C38"]}
{"i": 186, "file": "Model/Exceptions.lean", "definition": "ErrorObj.str", "old": "e.message ++ \" \".toList ++ det\n", "new": "e.message\n", "claims": ["C39"], "desc": "detail dropped", "ok": false, "modules": ["Verif/Props/Exceptions.lean"], "fails": ["C39_text"], "broken": ["C39_detail", "C39_expected", "C39_message", "C39_plain", "C39_text"], "hit": ["C39"]}
{"i": 187, "file": "Model/Exceptions.lean", "definition": "joinExpected", "old": "s ++ \", \".toList ++ quoted t", "new": "quoted t", "claims": ["C39"], "desc": "only the last expected value shown", "ok": false, "modules": ["Verif/Props/Exceptions.lean"], "fails": ["example@137", "joinExpected_some"], "broken": ["C39_detail", "C39_expected", "C39_message", "C39_plain", "C39_text"], "hit": ["C39"]}
{"i": 188, "file": "Model/Exceptions.lean", "definition": "ErrorObj.init", "old": "got := quoted gotText", "new": "got := gotText", "claims": ["C39"], "desc": "got not quoted", "ok": false, "modules": ["Verif/Props/Exceptions.lean"], "fails": ["C39_text", "example@137"], "broken": ["C39_detail", "C39_expected", "C39_message", "C39_plain", "C39_text"], "hit": ["C39"]}
{"i": 189, "file": "Py.lean", "definition": "ExcClass.isBip38Error", "old": "| .error | .cryptocurrencyError | .networkError", "new": "| .error | .networkError", "claims": ["C39"], "desc": "CryptocurrencyError not derived from Error", "ok": false, "modules": ["Verif/Props/Exceptions.lean"], "fails": ["C39_hierarchy"], "broken": ["C39_hierarchy"], "hit": ["C39"]}
{"i": 190, "file": "Model/Coins.lean", "definition": "Coins.Anon", "old": "⟨0x80, 0x582⟩)], none⟩", "new": "⟨0x180, 0x582⟩)], none⟩", "claims": ["C36"], "desc": "a two-byte WIF prefix in the table", "ok": false, "modules": ["Verif/Props/Address.lean", "Verif/Props/Coins.lean"], "fails": ["all_check", "example@117"], "broken": ["C07_wif_roundtrip", "C07_wif_text", "C08_injective", "C08_other_network", "C09_any_checksum_accepted", "C09_wrong_checksum_refuted", "C10_any_marker_accepted", "C10_wrong_marker_refuted", "C11_create", "C11_encrypt", "C11_wif", "C17_decrypt_encrypt", "C17_refuted", "C17_roundtrip_iff", "C18_encrypt_returns_iff", "C18_refuted", "C19_record", "C20_C21_returned_key", "C22_refuted", "C29_decrypt_create", "C29_refuted", "C30_confirm_create", "C30_refuted", "C31_confirm_pair", "C31_lot_sequence", "C31_reported_pair", "C32_long_seed_lost", "C32_refuted_long", "C32_refuted_short", "C33_errors", "C33_returns", "C34_confirm_flag", "C34_confirm_reading", "C34_create_flag", "C34_decrypt_flag", "C34_decrypt_reading", "C34_encrypt_flag", "C34_illegal_refuted", "C34_unknown_flag", "C35_iff", "C35_sound", "C36_constructs", "C36_lookup", "C36_prefixes", "C36_table", "C37_refuted", "C37_ripple_confirm", "C37_ripple_create", "C37_ripple_decrypt", "C37_stored", "C40_confirm_errors", "C40_decrypt_errors", "C40_ec_iff", "C40_noEc_iff", "C41_other_network"], "hit": ["C36"]}
{"i": 191, "file": "Model/Coins.lean", "definition": "Coins.Adcoin", "old": "[(\"mainnet\", ⟨0xb0, 0x17⟩)]", "new": "[(\"testnet\", ⟨0xb0, 0x17⟩)]", "claims": ["C36"], "desc": "a coin without mainnet", "ok": false, "modules": ["Verif/Props/Coins.lean"], "fails": ["all_check"], "broken": ["C07_wif_roundtrip", "C07_wif_text", "C08_injective", "C08_other_network", "C09_any_checksum_accepted", "C09_wrong_checksum_refuted", "C10_any_marker_accepted", "C10_wrong_marker_refuted", "C11_create", "C11_encrypt", "C11_wif", "C17_decrypt_encrypt", "C17_refuted", "C17_roundtrip_iff", "C18_encrypt_returns_iff", "C18_refuted", "C19_record", "C20_C21_returned_key", "C22_refuted", "C29_decrypt_create", "C29_refuted", "C30_confirm_create", "C30_refuted", "C31_confirm_pair", "C31_lot_sequence", "C31_reported_pair", "C32_long_seed_lost", "C32_refuted_long", "C32_refuted_short", "C33_errors", "C33_returns", "C34_confirm_flag", "C34_confirm_reading", "C34_create_flag", "C34_decrypt_flag", "C34_decrypt_reading", "C34_encrypt_flag", "C34_illegal_refuted", "C34_unknown_flag", "C35_iff", "C35_sound", "C36_constructs", "C36_lookup", "C36_prefixes", "C36_table", "C37_refuted", "C37_ripple_confirm", "C37_ripple_create", "C37_ripple_decrypt", "C37_stored", "C40_confirm_errors", "C40_decrypt_errors", "C40_ec_iff", "C40_noEc_iff", "C41_other_network"], "hit": ["C36"]}
