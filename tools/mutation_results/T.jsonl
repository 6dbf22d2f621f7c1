{"i": 0, "file": "libs/base58.py", "fn": "check_decode", "kind": "othervar", "old": "raw", "new": "enc", "line": 71, "status": "killed", "stage": 1, "fails": ["check_decode_eq"], "examples": [], "theorems": ["C82_decode", "C82_read", "C82_roundtrip", "C85_address", "C85_address_roundtrip", "C86_confirm_code", "C86_create_new_encrypted_wif", "C88_methods", "C89_ec", "C91_create_type", "C91_decode", "C91_methods", "C91_passphrase", "C91_texts"]}
{"i": 1, "file": "libs/base58.py", "fn": "encode", "kind": "othervar", "old": "data", "new": "mod", "line": 38, "status": "killed", "stage": 1, "fails": ["enc_tail"], "examples": [], "theorems": ["C82_bad_alphabets", "C82_encode", "C82_read", "C82_roundtrip", "C85_address", "C85_address_roundtrip", "C85_wif", "C85_wif_roundtrip", "C85_wif_unchecked", "C86_confirm_code", "C86_create_new_encrypted_wif", "C86_decrypt", "C86_encrypt", "C86_intermediate_code", "C88_intermediate_code", "C88_methods", "C89_ec", "C89_roundtrip", "C91_intermediate_code", "C91_methods", "C91_numbers", "C91_passphrase", "C91_public_key_type", "C91_texts"]}
{"i": 2, "file": "libs/base58.py", "fn": "encode", "kind": "unwrap", "old": "len(data.lstrip(b\"\\0\"))", "new": "(data.lstrip(b\"\\0\"))", "line": 38, "status": "killed", "stage": 1, "fails": ["enc_tail"], "examples": [], "theorems": ["C82_bad_alphabets", "C82_encode", "C82_read", "C82_roundtrip", "C85_address", "C85_address_roundtrip", "C85_wif", "C85_wif_roundtrip", "C85_wif_unchecked", "C86_confirm_code", "C86_create_new_encrypted_wif", "C86_decrypt", "C86_encrypt", "C86_intermediate_code", "C88_intermediate_code", "C88_methods", "C89_ec", "C89_roundtrip", "C91_intermediate_code", "C91_methods", "C91_numbers", "C91_passphrase", "C91_public_key_type", "C91_texts"]}
{"i": 3, "file": "bip38.py", "fn": "BIP38.decrypt", "kind": "const+1", "old": "1", "new": "2", "line": 595, "status": "killed", "stage": 1, "fails": ["decrypt_ec_block"], "examples": [], "theorems": ["C86_decrypt", "C88_methods", "C89_ec", "C89_roundtrip", "C91_methods", "C91_passphrase", "C91_texts"]}
{"i": 4, "file": "bip38.py", "fn": "BIP38.create_new_encrypted_wif", "kind": "string", "old": "\"wif\"", "new": "\"wifx\"", "line": 230, "status": "killed", "stage": 2, "fails": ["C87_bip38"], "examples": [], "theorems": ["C87_bip38"]}
{"i": 5, "file": "bip38.py", "fn": "BIP38.__init__", "kind": "othervar", "old": "cryptocurrency", "new": "network", "line": 75, "status": "killed", "stage": 1, "fails": ["init_src"], "examples": [], "theorems": ["C86_constructor", "C88_constructor", "C88_methods", "C89_ec", "C89_roundtrip"]}
{"i": 6, "file": "bip38.py", "fn": "BIP38.__init__", "kind": "unmethod", "old": "cryptocurrency.NETWORKS.keys()", "new": "cryptocurrency.NETWORKS", "line": 80, "status": "killed", "stage": 1, "fails": ["init_src"], "examples": [], "theorems": ["C86_constructor", "C88_constructor", "C88_methods", "C89_ec", "C89_roundtrip"]}
{"i": 7, "file": "secp256k1/point.py", "fn": "Point.from_coordinates", "kind": "swap", "old": "curve_secp256k1, x", "new": "x, curve_secp256k1", "line": 76, "status": "killed", "stage": 1, "fails": ["Point_from_coordinates_eq"], "examples": [], "theorems": ["C84_point"]}
{"i": 8, "file": "bip38.py", "fn": "BIP38.decrypt", "kind": "string", "old": "\"NFC\"", "new": "\"NFCx\"", "line": 533, "status": "killed", "stage": 1, "fails": ["decrypt_noEc_tail"], "examples": [], "theorems": ["C86_decrypt", "C88_methods", "C89_ec", "C89_roundtrip", "C91_methods", "C91_passphrase", "C91_texts"]}
{"i": 9, "file": "bip38.py", "fn": "BIP38.intermediate_code", "kind": "compare", "old": "is", "new": "is not", "line": 125, "status": "killed", "stage": 1, "fails": ["intermediate_src"], "examples": [], "theorems": ["C86_intermediate_code", "C88_intermediate_code", "C89_ec", "C91_intermediate_code", "C91_passphrase"]}
{"i": 10, "file": "utils.py", "fn": "integer_to_bytes", "kind": "othervar", "old": "endianness", "new": "bytes_num", "line": 115, "status": "killed", "stage": 1, "fails": ["integer_to_bytes_eq"], "examples": [], "theorems": ["C81_integer_roundtrip", "C81_integer_to_bytes", "C84_point", "C85_address", "C85_address_roundtrip", "C85_wif", "C85_wif_roundtrip", "C85_wif_unchecked", "C86_confirm_code", "C86_create_new_encrypted_wif", "C86_decrypt", "C86_encrypt", "C86_intermediate_code", "C88_intermediate_code", "C88_methods", "C89_ec", "C89_roundtrip", "C91_decode", "C91_intermediate_code", "C91_methods", "C91_numbers", "C91_passphrase", "C91_public_key_type", "C91_texts"]}
{"i": 11, "file": "p2pkh_address.py", "fn": "P2PKHAddress.encode", "kind": "string", "old": "\"public_key_type\"", "new": "\"public_key_typex\"", "line": 54, "status": "killed", "stage": 1, "fails": ["p2pkh_tail"], "examples": [], "theorems": ["C85_address", "C85_address_roundtrip", "C86_confirm_code", "C86_create_new_encrypted_wif", "C86_decrypt", "C86_encrypt", "C88_methods", "C89_ec", "C89_roundtrip", "C91_methods", "C91_passphrase", "C91_texts"]}
{"i": 12, "file": "libs/base58.py", "fn": "encode", "kind": "negate", "old": "val >= len(alphabet)", "new": "(not (val >= len(alphabet)))", "line": 32, "status": "killed", "stage": 1, "fails": ["enc_loop"], "examples": [], "theorems": ["C82_encode", "C82_read", "C82_roundtrip", "C85_address", "C85_address_roundtrip", "C85_wif", "C85_wif_roundtrip", "C85_wif_unchecked", "C86_confirm_code", "C86_create_new_encrypted_wif", "C86_decrypt", "C86_encrypt", "C86_intermediate_code", "C88_intermediate_code", "C88_methods", "C89_ec", "C89_roundtrip", "C91_intermediate_code", "C91_methods", "C91_numbers", "C91_passphrase", "C91_public_key_type", "C91_texts"]}
{"i": 13, "file": "wif.py", "fn": "get_wif_checksum", "kind": "const+1", "old": "2", "new": "3", "line": 190, "status": "killed", "stage": 1, "fails": ["get_wif_checksum_eq"], "examples": [], "theorems": ["C85_wif", "C85_wif_roundtrip", "C85_wif_unchecked", "C89_roundtrip"]}
{"i": 14, "file": "bip38.py", "fn": "BIP38.confirm_code", "kind": "dropkw", "old": ", got=len(confirmation_code_decode)", "new": "", "line": 396, "status": "killed", "stage": 1, "fails": ["confirm_obj"], "examples": [], "theorems": ["C86_confirm_code", "C88_methods", "C89_ec", "C91_methods", "C91_passphrase", "C91_texts"]}
{"i": 15, "file": "bip38.py", "fn": "BIP38.__init__", "kind": "dropkw", "old": ", got=type(cryptocurrency)", "new": "", "line": 77, "status": "killed", "stage": 1, "fails": ["init_src"], "examples": [], "theorems": ["C86_constructor", "C88_constructor", "C88_methods", "C89_ec", "C89_roundtrip"]}
{"i": 16, "file": "bip38.py", "fn": "BIP38.intermediate_code", "kind": "unwrap", "old": "get_bytes(owner_salt)", "new": "(owner_salt)", "line": 122, "status": "killed", "stage": 1, "fails": ["intermediate_src"], "examples": [], "theorems": ["C86_intermediate_code", "C88_intermediate_code", "C89_ec", "C91_intermediate_code", "C91_passphrase"]}
{"i": 17, "file": "bip38.py", "fn": "BIP38.confirm_code", "kind": "const-1", "old": "16384", "new": "16383", "line": 415, "status": "killed", "stage": 1, "fails": ["confirm_factor"], "examples": [], "theorems": ["C86_confirm_code", "C88_methods", "C89_ec", "C91_methods", "C91_passphrase", "C91_texts"]}
{"i": 18, "file": "wif.py", "fn": "wif_to_private_key", "kind": "string", "old": "\"wif_prefix\"", "new": "\"wif_prefixx\"", "line": 145, "status": "killed", "stage": 1, "fails": ["wif_to_private_key_eq"], "examples": [], "theorems": ["C85_wif", "C85_wif_roundtrip", "C85_wif_unchecked", "C86_encrypt", "C88_methods", "C89_roundtrip", "C91_methods", "C91_passphrase", "C91_texts"]}
{"i": 19, "file": "libs/base58.py", "fn": "decode", "kind": "const-1", "old": "1", "new": "0", "line": 56, "status": "killed", "stage": 1, "fails": ["dec_loop1"], "examples": [], "theorems": ["C82_decode", "C82_read", "C82_roundtrip", "C85_address", "C85_address_roundtrip", "C85_wif", "C85_wif_roundtrip", "C85_wif_unchecked", "C86_confirm_code", "C86_create_new_encrypted_wif", "C86_decrypt", "C86_encrypt", "C88_methods", "C89_ec", "C89_roundtrip", "C91_create_type", "C91_decode", "C91_methods", "C91_passphrase", "C91_texts"]}
{"i": 20, "file": "libs/base58.py", "fn": "decode", "kind": "compare", "old": "==", "new": "!=", "line": 55, "status": "killed", "stage": 1, "fails": ["dec_loop1"], "examples": [], "theorems": ["C82_decode", "C82_read", "C82_roundtrip", "C85_address", "C85_address_roundtrip", "C85_wif", "C85_wif_roundtrip", "C85_wif_unchecked", "C86_confirm_code", "C86_create_new_encrypted_wif", "C86_decrypt", "C86_encrypt", "C88_methods", "C89_ec", "C89_roundtrip", "C91_create_type", "C91_decode", "C91_methods", "C91_passphrase", "C91_texts"]}
{"i": 21, "file": "secp256k1/public_key.py", "fn": "PublicKey.from_point", "kind": "noraise", "old": "raise Secp256k1Error(\"Invalid public key point\") from ex", "new": "pass", "line": 78, "status": "killed", "stage": 1, "fails": ["PublicKey_from_point_eq"], "examples": [], "theorems": ["C84_key_methods", "C86_confirm_code", "C86_create_new_encrypted_wif", "C88_methods", "C89_ec", "C91_methods", "C91_passphrase", "C91_texts"]}
{"i": 22, "file": "crypto.py", "fn": "ripemd160", "kind": "swap", "old": "\"ripemd160\", get_bytes(data)", "new": "get_bytes(data), \"ripemd160\"", "line": 28, "status": "killed", "stage": 1, "fails": ["crypto_ripemd160_eq"], "examples": [], "theorems": ["C81_crypto", "C81_crypto_bytes", "C83_fallback", "C85_address", "C85_address_roundtrip", "C86_confirm_code", "C86_create_new_encrypted_wif", "C86_decrypt", "C86_encrypt", "C88_methods", "C89_ec", "C89_roundtrip", "C91_methods", "C91_passphrase", "C91_public_key_type", "C91_texts"]}
{"i": 23, "file": "wif.py", "fn": "private_key_to_wif", "kind": "dropkw", "old": ", wif_prefix=cryptocurrency.NETWORKS[network][\"wif_prefix\"]", "new": "", "line": 122, "status": "killed", "stage": 1, "fails": ["private_key_to_wif_eq"], "examples": [], "theorems": ["C85_wif", "C85_wif_roundtrip", "C85_wif_unchecked", "C86_decrypt", "C88_methods", "C89_ec", "C89_roundtrip", "C91_methods", "C91_passphrase", "C91_texts"]}
{"i": 24, "file": "p2pkh_address.py", "fn": "P2PKHAddress.encode", "kind": "dropkw", "old": ", alphabet=kwargs.get(\n                \"alphabet\", cls.alphabet\n            )", "new": "", "line": 59, "status": "killed", "stage": 1, "fails": ["p2pkh_tail"], "examples": [], "theorems": ["C85_address", "C85_address_roundtrip", "C86_confirm_code", "C86_create_new_encrypted_wif", "C86_decrypt", "C86_encrypt", "C88_methods", "C89_ec", "C89_roundtrip", "C91_methods", "C91_passphrase", "C91_texts"]}
{"i": 25, "file": "libs/base58.py", "fn": "string_to_int", "kind": "othervar", "old": "c", "new": "i", "line": 17, "status": "killed", "stage": 1, "fails": ["sti_loop"], "examples": [], "theorems": ["C82_bad_alphabets", "C82_encode", "C82_read", "C82_roundtrip", "C85_address", "C85_address_roundtrip", "C85_wif", "C85_wif_roundtrip", "C85_wif_unchecked", "C86_confirm_code", "C86_create_new_encrypted_wif", "C86_decrypt", "C86_encrypt", "C86_intermediate_code", "C88_intermediate_code", "C88_methods", "C89_ec", "C89_roundtrip", "C91_intermediate_code", "C91_methods", "C91_numbers", "C91_passphrase", "C91_public_key_type", "C91_texts"]}
{"i": 26, "file": "bip38.py", "fn": "BIP38.decrypt", "kind": "dropkw", "old": ", wif_type=wif_type", "new": "", "line": 559, "status": "killed", "stage": 1, "fails": ["decrypt_noEc_tail"], "examples": [], "theorems": ["C86_decrypt", "C88_methods", "C89_ec", "C89_roundtrip", "C91_methods", "C91_passphrase", "C91_texts"]}
{"i": 27, "file": "bip38.py", "fn": "BIP38.confirm_code", "kind": "compare", "old": "not in", "new": "in", "line": 389, "status": "killed", "stage": 1, "fails": ["confirm_obj"], "examples": [], "theorems": ["C86_confirm_code", "C88_methods", "C89_ec", "C91_methods", "C91_passphrase", "C91_texts"]}
{"i": 28, "file": "bip38.py", "fn": "BIP38.decrypt", "kind": "const+1", "old": "1024", "new": "1025", "line": 595, "status": "killed", "stage": 1, "fails": ["decrypt_ec_block"], "examples": [], "theorems": ["C86_decrypt", "C88_methods", "C89_ec", "C89_roundtrip", "C91_methods", "C91_passphrase", "C91_texts"]}
{"i": 29, "file": "bip38.py", "fn": "BIP38.create_new_encrypted_wif", "kind": "unwrap", "old": "bytes_to_integer(point_b[17:])", "new": "(point_b[17:])", "line": 337, "status": "killed", "stage": 1, "fails": ["create_src"], "examples": [], "theorems": ["C86_create_new_encrypted_wif", "C88_methods", "C89_ec", "C91_methods", "C91_passphrase", "C91_texts"]}
{"i": 30, "file": "crypto.py", "fn": "ripemd160", "kind": "unmethod", "old": "hashlib.new(\"ripemd160\", get_bytes(data)).digest()", "new": "hashlib.new(\"ripemd160\", get_bytes(data))", "line": 28, "status": "killed", "stage": 1, "fails": ["crypto_ripemd160_eq"], "examples": [], "theorems": ["C81_crypto", "C81_crypto_bytes", "C83_fallback", "C85_address", "C85_address_roundtrip", "C86_confirm_code", "C86_create_new_encrypted_wif", "C86_decrypt", "C86_encrypt", "C88_methods", "C89_ec", "C89_roundtrip", "C91_methods", "C91_passphrase", "C91_public_key_type", "C91_texts"]}
{"i": 31, "file": "secp256k1/public_key.py", "fn": "PublicKey.from_point", "kind": "string", "old": "\"Invalid public key point\"", "new": "\"Invalid public key pointx\"", "line": 78, "status": "killed", "stage": 1, "fails": ["PublicKey_from_point_eq"], "examples": [], "theorems": ["C84_key_methods", "C86_confirm_code", "C86_create_new_encrypted_wif", "C88_methods", "C89_ec", "C91_methods", "C91_passphrase", "C91_texts"]}
{"i": 32, "file": "bip38.py", "fn": "BIP38.intermediate_code", "kind": "noraise", "old": "raise Error(\"Invalid sequence\", expected=\"0 <= sequence <= 4095\", got=sequence)", "new": "pass", "line": 135, "status": "killed", "stage": 1, "fails": ["intermediate_src"], "examples": [], "theorems": ["C86_intermediate_code", "C88_intermediate_code", "C89_ec", "C91_intermediate_code", "C91_passphrase"]}
{"i": 33, "file": "utils.py", "fn": "get_bytes", "kind": "negate", "old": "isinstance(data, str)", "new": "(not (isinstance(data, str)))", "line": 29, "status": "killed", "stage": 1, "fails": ["get_bytes_eq"], "examples": [], "theorems": ["C81_crypto", "C81_crypto_bytes", "C81_get_bytes", "C81_get_bytes_text", "C81_hex_roundtrip", "C83_fallback", "C85_address", "C85_address_roundtrip", "C85_wif", "C85_wif_roundtrip", "C85_wif_unchecked", "C86_confirm_code", "C86_create_new_encrypted_wif", "C86_decrypt", "C86_encrypt", "C86_intermediate_code", "C88_intermediate_code", "C88_methods", "C89_ec", "C89_roundtrip", "C91_create_type", "C91_intermediate_code", "C91_methods", "C91_numbers", "C91_passphrase", "C91_public_key_type", "C91_texts"]}
{"i": 34, "file": "bip38.py", "fn": "BIP38.confirm_code", "kind": "negate", "old": "lot_and_sequence", "new": "(not (lot_and_sequence))", "line": 459, "status": "killed", "stage": 1, "fails": ["confirm_detail"], "examples": [], "theorems": ["C86_confirm_code", "C88_methods", "C89_ec", "C91_methods", "C91_passphrase", "C91_texts"]}
{"i": 35, "file": "libs/base58.py", "fn": "check_decode", "kind": "string", "old": "\"base58 decoding checksum error\"", "new": "\"base58 decoding checksum errorx\"", "line": 72, "status": "killed", "stage": 1, "fails": ["check_decode_eq"], "examples": [], "theorems": ["C82_decode", "C82_read", "C82_roundtrip", "C85_address", "C85_address_roundtrip", "C86_confirm_code", "C86_create_new_encrypted_wif", "C88_methods", "C89_ec", "C91_create_type", "C91_decode", "C91_methods", "C91_passphrase", "C91_texts"]}
{"i": 36, "file": "libs/base58.py", "fn": "check_encode", "kind": "const-1", "old": "4", "new": "3", "line": 43, "status": "killed", "stage": 1, "fails": ["check_encode_eq"], "examples": [], "theorems": ["C82_encode", "C82_read", "C82_roundtrip", "C85_address", "C85_address_roundtrip", "C86_confirm_code", "C86_create_new_encrypted_wif", "C86_decrypt", "C86_encrypt", "C86_intermediate_code", "C88_intermediate_code", "C88_methods", "C89_ec", "C89_roundtrip", "C91_intermediate_code", "C91_methods", "C91_numbers", "C91_passphrase", "C91_public_key_type", "C91_texts"]}
{"i": 37, "file": "p2pkh_address.py", "fn": "P2PKHAddress.decode", "kind": "const-1", "old": "20", "new": "19", "line": 89, "status": "killed", "stage": 1, "fails": ["p2pkh_decode_eq"], "examples": [], "theorems": ["C85_address", "C85_address_roundtrip", "C91_decode"]}
{"i": 38, "file": "p2pkh_address.py", "fn": "P2PKHAddress.decode", "kind": "unwrap", "old": "len(address_prefix)", "new": "(address_prefix)", "line": 97, "status": "killed", "stage": 1, "fails": ["p2pkh_decode_eq"], "examples": [], "theorems": ["C85_address", "C85_address_roundtrip", "C91_decode"]}
{"i": 39, "file": "bip38.py", "fn": "BIP38.create_new_encrypted_wif", "kind": "unwrap", "old": "bytes_to_string(seed_b)", "new": "(seed_b)", "line": 352, "status": "killed", "stage": 1, "fails": ["create_src"], "examples": [], "theorems": ["C86_create_new_encrypted_wif", "C88_methods", "C89_ec", "C91_methods", "C91_passphrase", "C91_texts"]}
{"i": 40, "file": "libs/ripemd160.py", "fn": "ripemd160", "kind": "swap", "old": "\"<L\", h & 0xffffffff", "new": "h & 0xffffffff, \"<L\"", "line": 120, "status": "killed", "stage": 1, "fails": ["ripemd160_eq"], "examples": [], "theorems": ["C81_crypto", "C81_crypto_bytes", "C83_fallback", "C83_ripemd160", "C85_address", "C85_address_roundtrip", "C86_confirm_code", "C86_create_new_encrypted_wif", "C86_decrypt", "C86_encrypt", "C88_methods", "C89_ec", "C89_roundtrip", "C91_methods", "C91_passphrase", "C91_public_key_type", "C91_texts"]}
{"i": 41, "file": "bip38.py", "fn": "BIP38.encrypt", "kind": "const-1", "old": "8", "new": "7", "line": 207, "status": "killed", "stage": 1, "fails": ["encrypt_src"], "examples": [], "theorems": ["C86_encrypt", "C88_methods", "C89_roundtrip", "C91_methods", "C91_passphrase", "C91_texts"]}
{"i": 42, "file": "wif.py", "fn": "decode_wif", "kind": "othervar", "old": "wif", "new": "wif_prefix", "line": 74, "status": "killed", "stage": 1, "fails": ["decode_wif_eq"], "examples": [], "theorems": ["C85_wif", "C85_wif_roundtrip", "C85_wif_unchecked", "C86_encrypt", "C88_methods", "C89_roundtrip", "C91_decode", "C91_methods", "C91_passphrase", "C91_texts"]}
{"i": 43, "file": "utils.py", "fn": "integer_to_bytes", "kind": "const+1", "old": "0", "new": "1", "line": 114, "status": "killed", "stage": 1, "fails": ["integer_to_bytes_eq"], "examples": [], "theorems": ["C81_integer_roundtrip", "C81_integer_to_bytes", "C84_point", "C85_address", "C85_address_roundtrip", "C85_wif", "C85_wif_roundtrip", "C85_wif_unchecked", "C86_confirm_code", "C86_create_new_encrypted_wif", "C86_decrypt", "C86_encrypt", "C86_intermediate_code", "C88_intermediate_code", "C88_methods", "C89_ec", "C89_roundtrip", "C91_decode", "C91_intermediate_code", "C91_methods", "C91_numbers", "C91_passphrase", "C91_public_key_type", "C91_texts"]}
{"i": 44, "file": "libs/base58.py", "fn": "string_to_int", "kind": "const-1", "old": "256", "new": "255", "line": 17, "status": "killed", "stage": 1, "fails": ["sti_loop"], "examples": [], "theorems": ["C82_bad_alphabets", "C82_encode", "C82_read", "C82_roundtrip", "C85_address", "C85_address_roundtrip", "C85_wif", "C85_wif_roundtrip", "C85_wif_unchecked", "C86_confirm_code", "C86_create_new_encrypted_wif", "C86_decrypt", "C86_encrypt", "C86_intermediate_code", "C88_intermediate_code", "C88_methods", "C89_ec", "C89_roundtrip", "C91_intermediate_code", "C91_methods", "C91_numbers", "C91_passphrase", "C91_public_key_type", "C91_texts"]}
{"i": 45, "file": "bip38.py", "fn": "BIP38.intermediate_code", "kind": "negate", "old": "len(owner_salt) not in [4, 8]", "new": "(not (len(owner_salt) not in [4, 8]))", "line": 123, "status": "killed", "stage": 1, "fails": ["intermediate_src"], "examples": [], "theorems": ["C86_intermediate_code", "C88_intermediate_code", "C89_ec", "C91_intermediate_code", "C91_passphrase"]}
{"i": 46, "file": "bip38.py", "fn": "BIP38.create_new_encrypted_wif", "kind": "binop", "old": "+", "new": "-", "line": 343, "status": "killed", "stage": 1, "fails": ["create_src"], "examples": [], "theorems": ["C86_create_new_encrypted_wif", "C88_methods", "C89_ec", "C91_methods", "C91_passphrase", "C91_texts"]}
{"i": 47, "file": "bip38.py", "fn": "BIP38.confirm_code", "kind": "swap", "old": "\"NFC\", passphrase", "new": "passphrase, \"NFC\"", "line": 415, "status": "killed", "stage": 1, "fails": ["confirm_factor"], "examples": [], "theorems": ["C86_confirm_code", "C88_methods", "C89_ec", "C91_methods", "C91_passphrase", "C91_texts"]}
{"i": 48, "file": "secp256k1/point.py", "fn": "Point.from_bytes", "kind": "othervar", "old": "cls", "new": "point", "line": 55, "status": "killed", "stage": 1, "fails": ["Point_from_bytes_eq"], "examples": [], "theorems": ["C84_point"]}
{"i": 49, "file": "libs/ripemd160.py", "fn": "ripemd160", "kind": "dropbound", "old": "64*(b+1)", "new": "", "line": 110, "status": "killed", "stage": 1, "fails": ["blocks_loop1"], "examples": [], "theorems": ["C81_crypto", "C81_crypto_bytes", "C83_fallback", "C83_ripemd160", "C85_address", "C85_address_roundtrip", "C86_confirm_code", "C86_create_new_encrypted_wif", "C86_decrypt", "C86_encrypt", "C88_methods", "C89_ec", "C89_roundtrip", "C91_methods", "C91_passphrase", "C91_public_key_type", "C91_texts"]}
{"i": 50, "file": "bip38.py", "fn": "BIP38.decrypt", "kind": "string", "old": "\"Wrong network type\"", "new": "\"Wrong network typex\"", "line": 507, "status": "killed", "stage": 1, "fails": ["decrypt_obj"], "examples": [], "theorems": ["C86_decrypt", "C88_methods", "C89_ec", "C89_roundtrip", "C91_methods", "C91_passphrase", "C91_texts"]}
{"i": 51, "file": "libs/base58.py", "fn": "check_encode", "kind": "unmethod", "old": "sha256(sha256(raw).digest()).digest()", "new": "sha256(sha256(raw).digest())", "line": 43, "status": "killed", "stage": 1, "fails": ["check_encode_eq"], "examples": [], "theorems": ["C82_encode", "C82_read", "C82_roundtrip", "C85_address", "C85_address_roundtrip", "C86_confirm_code", "C86_create_new_encrypted_wif", "C86_decrypt", "C86_encrypt", "C86_intermediate_code", "C88_intermediate_code", "C88_methods", "C89_ec", "C89_roundtrip", "C91_intermediate_code", "C91_methods", "C91_numbers", "C91_passphrase", "C91_public_key_type", "C91_texts"]}
{"i": 52, "file": "secp256k1/point.py", "fn": "Point.raw_decoded", "kind": "binop", "old": "+", "new": "-", "line": 153, "status": "killed", "stage": 1, "fails": ["Point_raw_decoded_eq"], "examples": [], "theorems": ["C84_point"]}
{"i": 53, "file": "bip38.py", "fn": "BIP38.encrypt", "kind": "unwrap", "old": "ensure_string(encode(\n            encrypted_private_key + get_checksum(encrypted_private_key)\n        ))", "new": "(encode(\n            encrypted_private_key + get_checksum(encrypted_private_key)\n        ))", "line": 223, "status": "killed", "stage": 1, "fails": ["encrypt_src"], "examples": [], "theorems": ["C86_encrypt", "C88_methods", "C89_roundtrip", "C91_methods", "C91_passphrase", "C91_texts"]}
{"i": 54, "file": "libs/ripemd160.py", "fn": "fi", "kind": "const-1", "old": "2", "new": "1", "line": 66, "status": "killed", "stage": 1, "fails": ["fi_eq"], "examples": [], "theorems": ["C81_crypto", "C81_crypto_bytes", "C83_fallback", "C83_ripemd160", "C85_address", "C85_address_roundtrip", "C86_confirm_code", "C86_create_new_encrypted_wif", "C86_decrypt", "C86_encrypt", "C88_methods", "C89_ec", "C89_roundtrip", "C91_methods", "C91_passphrase", "C91_public_key_type", "C91_texts"]}
{"i": 55, "file": "libs/base58.py", "fn": "decode", "kind": "othervar", "old": "data", "new": "val", "line": 53, "status": "killed", "stage": 1, "fails": ["decode_eq"], "examples": [], "theorems": ["C82_decode", "C82_read", "C82_roundtrip", "C85_address", "C85_address_roundtrip", "C85_wif", "C85_wif_roundtrip", "C85_wif_unchecked", "C86_confirm_code", "C86_create_new_encrypted_wif", "C86_decrypt", "C86_encrypt", "C88_methods", "C89_ec", "C89_roundtrip", "C91_create_type", "C91_decode", "C91_methods", "C91_passphrase", "C91_texts"]}
{"i": 56, "file": "libs/base58.py", "fn": "encode", "kind": "binop", "old": "+", "new": "-", "line": 39, "status": "killed", "stage": 1, "fails": ["enc_tail"], "examples": [], "theorems": ["C82_bad_alphabets", "C82_encode", "C82_read", "C82_roundtrip", "C85_address", "C85_address_roundtrip", "C85_wif", "C85_wif_roundtrip", "C85_wif_unchecked", "C86_confirm_code", "C86_create_new_encrypted_wif", "C86_decrypt", "C86_encrypt", "C86_intermediate_code", "C88_intermediate_code", "C88_methods", "C89_ec", "C89_roundtrip", "C91_intermediate_code", "C91_methods", "C91_numbers", "C91_passphrase", "C91_public_key_type", "C91_texts"]}
{"i": 57, "file": "p2pkh_address.py", "fn": "P2PKHAddress.encode", "kind": "compare", "old": "==", "new": "!=", "line": 54, "status": "killed", "stage": 1, "fails": ["p2pkh_tail"], "examples": [], "theorems": ["C85_address", "C85_address_roundtrip", "C86_confirm_code", "C86_create_new_encrypted_wif", "C86_decrypt", "C86_encrypt", "C88_methods", "C89_ec", "C89_roundtrip", "C91_methods", "C91_passphrase", "C91_texts"]}
{"i": 58, "file": "bip38.py", "fn": "BIP38.create_new_encrypted_wif", "kind": "const-1", "old": "1", "new": "0", "line": 334, "status": "killed", "stage": 1, "fails": ["create_src"], "examples": [], "theorems": ["C86_create_new_encrypted_wif", "C88_methods", "C89_ec", "C91_methods", "C91_passphrase", "C91_texts"]}
{"i": 59, "file": "bip38.py", "fn": "BIP38.confirm_code", "kind": "binop", "old": "+", "new": "-", "line": 437, "status": "killed", "stage": 1, "fails": ["confirm_obj"], "examples": [], "theorems": ["C86_confirm_code", "C88_methods", "C89_ec", "C91_methods", "C91_passphrase", "C91_texts"]}
{"i": 60, "file": "bip38.py", "fn": "BIP38.__init__", "kind": "compare", "old": "not in", "new": "in", "line": 82, "status": "killed", "stage": 1, "fails": ["init_src"], "examples": [], "theorems": ["C86_constructor", "C88_constructor", "C88_methods", "C89_ec", "C89_roundtrip"]}
{"i": 61, "file": "bip38.py", "fn": "BIP38.create_new_encrypted_wif", "kind": "dropbound", "old": "8", "new": "", "line": 272, "status": "killed", "stage": 1, "fails": ["create_src"], "examples": [], "theorems": ["C86_create_new_encrypted_wif", "C88_methods", "C89_ec", "C91_methods", "C91_passphrase", "C91_texts"]}
{"i": 62, "file": "secp256k1/point.py", "fn": "Point.__rmul__", "kind": "binop", "old": "*", "new": "+", "line": 205, "status": "killed", "stage": 1, "fails": ["Point_rmul_eq"], "examples": [], "theorems": []}
{"i": 63, "file": "bip38.py", "fn": "BIP38.decrypt", "kind": "swap", "old": "\"NFC\", passphrase", "new": "passphrase, \"NFC\"", "line": 587, "status": "killed", "stage": 1, "fails": ["decrypt_factor"], "examples": [], "theorems": ["C86_decrypt", "C88_methods", "C89_ec", "C89_roundtrip", "C91_methods", "C91_passphrase", "C91_texts"]}
{"i": 64, "file": "bip38.py", "fn": "BIP38.__init__", "kind": "string", "old": "\"mainnet\"", "new": "\"mainnetx\"", "line": 72, "status": "killed", "stage": 2, "fails": ["C87_bip38"], "examples": [], "theorems": ["C87_bip38"]}
{"i": 65, "file": "wif.py", "fn": "wif_to_private_key", "kind": "const+1", "old": "0", "new": "1", "line": 146, "status": "killed", "stage": 1, "fails": ["wif_to_private_key_eq"], "examples": [], "theorems": ["C85_wif", "C85_wif_roundtrip", "C85_wif_unchecked", "C86_encrypt", "C88_methods", "C89_roundtrip", "C91_methods", "C91_passphrase", "C91_texts"]}
{"i": 66, "file": "bip38.py", "fn": "BIP38.encrypt", "kind": "othervar", "old": "derived_half_2", "new": "flag", "line": 210, "status": "killed", "stage": 1, "fails": ["encrypt_src"], "examples": [], "theorems": ["C86_encrypt", "C88_methods", "C89_roundtrip", "C91_methods", "C91_passphrase", "C91_texts"]}
{"i": 67, "file": "bip38.py", "fn": "BIP38.confirm_code", "kind": "unwrap", "old": "bytes_to_integer(scrypt_hash[63:])", "new": "(scrypt_hash[63:])", "line": 434, "status": "killed", "stage": 1, "fails": ["confirm_obj"], "examples": [], "theorems": ["C86_confirm_code", "C88_methods", "C89_ec", "C91_methods", "C91_passphrase", "C91_texts"]}
{"i": 68, "file": "exceptions.py", "fn": "Error.__str__", "kind": "boolop", "old": "and", "new": "or", "line": 31, "status": "killed", "stage": 1, "fails": ["Error_str_eq"], "examples": [], "theorems": ["C81_error_text", "C84_key_methods", "C84_point", "C84_private_key", "C84_public_key", "C85_address", "C85_address_roundtrip", "C85_wif", "C85_wif_roundtrip", "C85_wif_unchecked", "C86_confirm_code", "C86_constructor", "C86_create_new_encrypted_wif", "C86_decrypt", "C86_encrypt", "C86_intermediate_code", "C88_constructor", "C88_intermediate_code", "C88_methods", "C89_ec", "C89_roundtrip", "C91_constructor", "C91_create_type", "C91_decode", "C91_intermediate_code", "C91_methods", "C91_network", "C91_numbers", "C91_passphrase", "C91_public_key_type", "C91_texts", "C91_wif_type"]}
{"i": 69, "file": "bip38.py", "fn": "BIP38.confirm_code", "kind": "noraise", "old": "raise Error(\"Invalid confirmation code length\", expected=102, got=len(confirmation_code_decode))", "new": "pass", "line": 396, "status": "killed", "stage": 1, "fails": ["confirm_obj"], "examples": [], "theorems": ["C86_confirm_code", "C88_methods", "C89_ec", "C91_methods", "C91_passphrase", "C91_texts"]}
{"i": 70, "file": "bip38.py", "fn": "BIP38.create_new_encrypted_wif", "kind": "othervar", "old": "point_b", "new": "public_key_type", "line": 337, "status": "killed", "stage": 1, "fails": ["create_src"], "examples": [], "theorems": ["C86_create_new_encrypted_wif", "C88_methods", "C89_ec", "C91_methods", "C91_passphrase", "C91_texts"]}
{"i": 71, "file": "utils.py", "fn": "bytes_to_string", "kind": "swap", "old": "data, 'utf-8'", "new": "'utf-8', data", "line": 73, "status": "killed", "stage": 1, "fails": ["bytes_to_string_eq"], "examples": [], "theorems": ["C81_bytes_to_string", "C81_hex_roundtrip", "C85_address", "C85_address_roundtrip", "C85_wif", "C85_wif_roundtrip", "C85_wif_unchecked", "C86_confirm_code", "C86_create_new_encrypted_wif", "C86_decrypt", "C86_encrypt", "C86_intermediate_code", "C88_intermediate_code", "C88_methods", "C89_ec", "C89_roundtrip", "C91_decode", "C91_intermediate_code", "C91_methods", "C91_numbers", "C91_passphrase", "C91_texts"]}
{"i": 72, "file": "libs/base58.py", "fn": "encode", "kind": "unwrap", "old": "string_to_int(data)", "new": "(data)", "line": 31, "status": "killed", "stage": 1, "fails": ["encode_bytes", "encode_other"], "examples": [], "theorems": ["C82_encode", "C82_encode_other", "C82_read", "C82_roundtrip", "C85_address", "C85_address_roundtrip", "C85_wif", "C85_wif_roundtrip", "C85_wif_unchecked", "C86_confirm_code", "C86_create_new_encrypted_wif", "C86_decrypt", "C86_encrypt", "C86_intermediate_code", "C88_intermediate_code", "C88_methods", "C89_ec", "C89_roundtrip", "C91_intermediate_code", "C91_methods", "C91_numbers", "C91_passphrase", "C91_public_key_type", "C91_texts"]}
{"i": 73, "file": "libs/ripemd160.py", "fn": "rol", "kind": "othervar", "old": "i", "new": "x", "line": 78, "status": "killed", "stage": 1, "fails": ["rol_eq"], "examples": [], "theorems": ["C81_crypto", "C81_crypto_bytes", "C83_fallback", "C83_ripemd160", "C85_address", "C85_address_roundtrip", "C86_confirm_code", "C86_create_new_encrypted_wif", "C86_decrypt", "C86_encrypt", "C88_methods", "C89_ec", "C89_roundtrip", "C91_methods", "C91_passphrase", "C91_public_key_type", "C91_texts"]}
{"i": 74, "file": "utils.py", "fn": "integer_to_bytes", "kind": "string", "old": "\"big\"", "new": "\"bigx\"", "line": 96, "status": "killed", "stage": 1, "fails": ["integer_to_bytes_default", "integer_to_bytes_length"], "examples": [], "theorems": ["C81_integer_roundtrip", "C81_integer_to_bytes", "C85_address", "C85_address_roundtrip", "C85_wif", "C85_wif_roundtrip", "C85_wif_unchecked", "C86_confirm_code", "C86_create_new_encrypted_wif", "C86_decrypt", "C86_encrypt", "C86_intermediate_code", "C88_intermediate_code", "C88_methods", "C89_ec", "C89_roundtrip", "C91_decode", "C91_intermediate_code", "C91_methods", "C91_numbers", "C91_passphrase", "C91_public_key_type", "C91_texts"]}
{"i": 75, "file": "bip38.py", "fn": "BIP38.confirm_code", "kind": "compare", "old": "in", "new": "not in", "line": 409, "status": "killed", "stage": 1, "fails": ["confirm_split"], "examples": [], "theorems": ["C86_confirm_code", "C88_methods", "C89_ec", "C91_methods", "C91_passphrase", "C91_texts"]}
{"i": 76, "file": "bip38.py", "fn": "BIP38.encrypt", "kind": "othervar", "old": "wif", "new": "passphrase", "line": 197, "status": "killed", "stage": 1, "fails": ["encrypt_src"], "examples": [], "theorems": ["C86_encrypt", "C88_methods", "C89_roundtrip", "C91_methods", "C91_passphrase", "C91_texts"]}
{"i": 77, "file": "bip38.py", "fn": "BIP38.decrypt", "kind": "othervar", "old": "public_key_type", "new": "address", "line": 553, "status": "killed", "stage": 1, "fails": ["decrypt_noEc_tail"], "examples": [], "theorems": ["C86_decrypt", "C88_methods", "C89_ec", "C89_roundtrip", "C91_methods", "C91_passphrase", "C91_texts"]}
{"i": 78, "file": "bip38.py", "fn": "BIP38.confirm_code", "kind": "othervar", "old": "public_key_type", "new": "confirmation_code", "line": 464, "status": "killed", "stage": 1, "fails": ["confirm_detail"], "examples": [], "theorems": ["C86_confirm_code", "C88_methods", "C89_ec", "C91_methods", "C91_passphrase", "C91_texts"]}
{"i": 79, "file": "secp256k1/point.py", "fn": "Point.raw_decoded", "kind": "swap", "old": "self.point.y(), COORDINATE_POINT_LENGTH", "new": "COORDINATE_POINT_LENGTH, self.point.y()", "line": 150, "status": "killed", "stage": 1, "fails": ["Point_raw_decoded_eq"], "examples": [], "theorems": ["C84_point"]}
{"i": 80, "file": "bip38.py", "fn": "BIP38.decrypt", "kind": "unwrap", "old": "integer_to_bytes(EC_MULTIPLIED_PRIVATE_KEY_PREFIX)", "new": "(EC_MULTIPLIED_PRIVATE_KEY_PREFIX)", "line": 657, "status": "killed", "stage": 1, "fails": ["decrypt_obj"], "examples": [], "theorems": ["C86_decrypt", "C88_methods", "C89_ec", "C89_roundtrip", "C91_methods", "C91_passphrase", "C91_texts"]}
{"i": 81, "file": "bip38.py", "fn": "BIP38.decrypt", "kind": "const+1", "old": "1", "new": "2", "line": 595, "status": "killed", "stage": 1, "fails": ["decrypt_ec_block"], "examples": [], "theorems": ["C86_decrypt", "C88_methods", "C89_ec", "C89_roundtrip", "C91_methods", "C91_passphrase", "C91_texts"]}
{"i": 82, "file": "libs/base58.py", "fn": "encode", "kind": "binop", "old": "*", "new": "+", "line": 39, "status": "killed", "stage": 1, "fails": ["enc_tail"], "examples": [], "theorems": ["C82_bad_alphabets", "C82_encode", "C82_read", "C82_roundtrip", "C85_address", "C85_address_roundtrip", "C85_wif", "C85_wif_roundtrip", "C85_wif_unchecked", "C86_confirm_code", "C86_create_new_encrypted_wif", "C86_decrypt", "C86_encrypt", "C86_intermediate_code", "C88_intermediate_code", "C88_methods", "C89_ec", "C89_roundtrip", "C91_intermediate_code", "C91_methods", "C91_numbers", "C91_passphrase", "C91_public_key_type", "C91_texts"]}
{"i": 83, "file": "bip38.py", "fn": "BIP38.__init__", "kind": "unwrap", "old": "type(network)", "new": "(network)", "line": 83, "status": "killed", "stage": 1, "fails": ["init_src"], "examples": [], "theorems": ["C86_constructor", "C88_constructor", "C88_methods", "C89_ec", "C89_roundtrip"]}
{"i": 84, "file": "bip38.py", "fn": "BIP38.confirm_code", "kind": "boolop", "old": "or", "new": "and", "line": 418, "status": "killed", "stage": 1, "fails": ["confirm_obj"], "examples": [], "theorems": ["C86_confirm_code", "C88_methods", "C89_ec", "C91_methods", "C91_passphrase", "C91_texts"]}
{"i": 85, "file": "exceptions.py", "fn": "Error.__init__", "kind": "negate", "old": "isinstance(expected, list)", "new": "(not (isinstance(expected, list)))", "line": 21, "status": "killed", "stage": 1, "fails": ["Error_init_eq"], "examples": [], "theorems": ["C81_error_text", "C84_key_methods", "C84_point", "C84_private_key", "C84_public_key", "C85_address", "C85_address_roundtrip", "C85_wif", "C85_wif_roundtrip", "C85_wif_unchecked", "C86_confirm_code", "C86_constructor", "C86_create_new_encrypted_wif", "C86_decrypt", "C86_encrypt", "C86_intermediate_code", "C88_constructor", "C88_intermediate_code", "C88_methods", "C89_ec", "C89_roundtrip", "C91_constructor", "C91_create_type", "C91_decode", "C91_intermediate_code", "C91_methods", "C91_network", "C91_numbers", "C91_passphrase", "C91_public_key_type", "C91_texts", "C91_wif_type"]}
{"i": 86, "file": "utils.py", "fn": "get_bytes", "kind": "swap", "old": "data, str", "new": "str, data", "line": 29, "status": "killed", "stage": 1, "fails": ["get_bytes_eq"], "examples": [], "theorems": ["C81_crypto", "C81_crypto_bytes", "C81_get_bytes", "C81_get_bytes_text", "C81_hex_roundtrip", "C83_fallback", "C85_address", "C85_address_roundtrip", "C85_wif", "C85_wif_roundtrip", "C85_wif_unchecked", "C86_confirm_code", "C86_create_new_encrypted_wif", "C86_decrypt", "C86_encrypt", "C86_intermediate_code", "C88_intermediate_code", "C88_methods", "C89_ec", "C89_roundtrip", "C91_create_type", "C91_intermediate_code", "C91_methods", "C91_numbers", "C91_passphrase", "C91_public_key_type", "C91_texts"]}
{"i": 87, "file": "crypto.py", "fn": "double_sha256", "kind": "unwrap", "old": "sha256(data)", "new": "(data)", "line": 59, "status": "killed", "stage": 1, "fails": ["crypto_double_sha256_eq"], "examples": [], "theorems": ["C81_crypto", "C81_crypto_bytes", "C85_wif", "C85_wif_roundtrip", "C85_wif_unchecked", "C86_confirm_code", "C86_create_new_encrypted_wif", "C86_decrypt", "C86_encrypt", "C86_intermediate_code", "C88_intermediate_code", "C88_methods", "C89_ec", "C89_roundtrip", "C91_intermediate_code", "C91_methods", "C91_numbers", "C91_passphrase", "C91_texts"]}
{"i": 88, "file": "bip38.py", "fn": "BIP38.intermediate_code", "kind": "othervar", "old": "pre_factor", "new": "passphrase", "line": 139, "status": "killed", "stage": 1, "fails": ["intermediate_src"], "examples": [], "theorems": ["C86_intermediate_code", "C88_intermediate_code", "C89_ec", "C91_intermediate_code", "C91_passphrase"]}
{"i": 89, "file": "secp256k1/point.py", "fn": "Point.x", "kind": "unmethod", "old": "self.point.x()", "new": "self.point", "line": 98, "status": "killed", "stage": 1, "fails": ["Point_x_eq", "PublicKey_from_point_eq"], "examples": [], "theorems": ["C84_key_methods", "C84_point", "C86_confirm_code", "C86_create_new_encrypted_wif", "C88_methods", "C89_ec", "C91_methods", "C91_passphrase", "C91_texts"]}
{"i": 90, "file": "libs/base58.py", "fn": "decode", "kind": "const+1", "old": "0", "new": "1", "line": 51, "status": "killed", "stage": 1, "fails": ["decode_eq"], "examples": [], "theorems": ["C82_decode", "C82_read", "C82_roundtrip", "C85_address", "C85_address_roundtrip", "C85_wif", "C85_wif_roundtrip", "C85_wif_unchecked", "C86_confirm_code", "C86_create_new_encrypted_wif", "C86_decrypt", "C86_encrypt", "C88_methods", "C89_ec", "C89_roundtrip", "C91_create_type", "C91_decode", "C91_methods", "C91_passphrase", "C91_texts"]}
{"i": 91, "file": "libs/base58.py", "fn": "check_encode", "kind": "unwrap", "old": "sha256(sha256(raw).digest())", "new": "(sha256(raw).digest())", "line": 43, "status": "killed", "stage": 1, "fails": ["check_encode_eq"], "examples": [], "theorems": ["C82_encode", "C82_read", "C82_roundtrip", "C85_address", "C85_address_roundtrip", "C86_confirm_code", "C86_create_new_encrypted_wif", "C86_decrypt", "C86_encrypt", "C86_intermediate_code", "C88_intermediate_code", "C88_methods", "C89_ec", "C89_roundtrip", "C91_intermediate_code", "C91_methods", "C91_numbers", "C91_passphrase", "C91_public_key_type", "C91_texts"]}
{"i": 92, "file": "secp256k1/public_key.py", "fn": "PublicKey.from_bytes", "kind": "noraise", "old": "raise Secp256k1Error(\"Invalid public key bytes\") from ex", "new": "pass", "line": 54, "status": "killed", "stage": 1, "fails": ["PublicKey_from_bytes_eq"], "examples": [], "theorems": ["C84_public_key", "C85_address", "C85_address_roundtrip", "C86_confirm_code", "C86_create_new_encrypted_wif", "C86_decrypt", "C86_encrypt", "C88_methods", "C89_ec", "C89_roundtrip", "C91_methods", "C91_passphrase", "C91_public_key_type", "C91_texts"]}
{"i": 93, "file": "secp256k1/point.py", "fn": "Point.from_bytes", "kind": "noraise", "old": "raise Secp256k1Error(\"Invalid point key bytes\") from ex", "new": "pass", "line": 53, "status": "killed", "stage": 1, "fails": ["Point_from_bytes_eq"], "examples": [], "theorems": ["C84_point"]}
{"i": 94, "file": "wif.py", "fn": "encode_wif", "kind": "othervar", "old": "private_key", "new": "wif_payload", "line": 48, "status": "killed", "stage": 1, "fails": ["encode_wif_eq"], "examples": [], "theorems": ["C85_wif", "C85_wif_roundtrip", "C85_wif_unchecked", "C86_decrypt", "C88_methods", "C89_ec", "C89_roundtrip", "C91_methods", "C91_passphrase", "C91_texts"]}
{"i": 95, "file": "wif.py", "fn": "get_wif_checksum", "kind": "unwrap", "old": "bytes_to_string(decode_wif(\n        wif=wif, wif_prefix=cryptocurrency.NETWORKS[network][\"wif_prefix\"]\n    )[2])", "new": "(decode_wif(\n        wif=wif, wif_prefix=cryptocurrency.NETWORKS[network][\"wif_prefix\"]\n    )[2])", "line": 188, "status": "killed", "stage": 1, "fails": ["get_wif_checksum_eq"], "examples": [], "theorems": ["C85_wif", "C85_wif_roundtrip", "C85_wif_unchecked", "C89_roundtrip"]}
{"i": 96, "file": "secp256k1/public_key.py", "fn": "PublicKey.from_point", "kind": "othervar", "old": "point", "new": "cls", "line": 72, "status": "untranslatable", "note": "gen_src: call on cls at line 72: Call(func=Attribute(value=Name(id='cls', ctx=Load()), attr='y', ctx=Load()), args=[], keywords=[])"}
{"i": 97, "file": "libs/ripemd160.py", "fn": "rol", "kind": "othervar", "old": "x", "new": "i", "line": 78, "status": "killed", "stage": 1, "fails": ["rol_eq"], "examples": [], "theorems": ["C81_crypto", "C81_crypto_bytes", "C83_fallback", "C83_ripemd160", "C85_address", "C85_address_roundtrip", "C86_confirm_code", "C86_create_new_encrypted_wif", "C86_decrypt", "C86_encrypt", "C88_methods", "C89_ec", "C89_roundtrip", "C91_methods", "C91_passphrase", "C91_public_key_type", "C91_texts"]}
{"i": 98, "file": "libs/base58.py", "fn": "check_decode", "kind": "compare", "old": "!=", "new": "==", "line": 71, "status": "killed", "stage": 1, "fails": ["check_decode_eq"], "examples": [], "theorems": ["C82_decode", "C82_read", "C82_roundtrip", "C85_address", "C85_address_roundtrip", "C86_confirm_code", "C86_create_new_encrypted_wif", "C88_methods", "C89_ec", "C91_create_type", "C91_decode", "C91_methods", "C91_passphrase", "C91_texts"]}
{"i": 99, "file": "crypto.py", "fn": "ripemd160", "kind": "compare", "old": "in", "new": "not in", "line": 29, "status": "killed", "stage": 1, "fails": ["crypto_ripemd160_eq"], "examples": [], "theorems": ["C81_crypto", "C81_crypto_bytes", "C83_fallback", "C85_address", "C85_address_roundtrip", "C86_confirm_code", "C86_create_new_encrypted_wif", "C86_decrypt", "C86_encrypt", "C88_methods", "C89_ec", "C89_roundtrip", "C91_methods", "C91_passphrase", "C91_public_key_type", "C91_texts"]}
{"i": 100, "file": "utils.py", "fn": "get_bytes", "kind": "string", "old": "\"Agreement must be either 'bytes' or 'string'!\"", "new": "\"Agreement must be either \"bytes\" or \"string\"!x\"", "line": 35, "status": "untranslatable", "note": "SyntaxError: invalid syntax. Perhaps you forgot a comma?"}
{"i": 101, "file": "p2pkh_address.py", "fn": "P2PKHAddress.decode", "kind": "unwrap", "old": "len(address_decode)", "new": "(address_decode)", "line": 90, "status": "killed", "stage": 1, "fails": ["p2pkh_decode_eq"], "examples": [], "theorems": ["C85_address", "C85_address_roundtrip", "C91_decode"]}
{"i": 102, "file": "libs/base58.py", "fn": "encode", "kind": "othervar", "old": "alphabet", "new": "data", "line": 36, "status": "killed", "stage": 1, "fails": ["encode_bytes"], "examples": [], "theorems": ["C82_encode", "C82_read", "C82_roundtrip", "C85_address", "C85_address_roundtrip", "C85_wif", "C85_wif_roundtrip", "C85_wif_unchecked", "C86_confirm_code", "C86_create_new_encrypted_wif", "C86_decrypt", "C86_encrypt", "C86_intermediate_code", "C88_intermediate_code", "C88_methods", "C89_ec", "C89_roundtrip", "C91_intermediate_code", "C91_methods", "C91_numbers", "C91_passphrase", "C91_public_key_type", "C91_texts"]}
{"i": 103, "file": "utils.py", "fn": "bytes_reverse", "kind": "othervar", "old": "tmp", "new": "data", "line": 50, "status": "killed", "stage": 1, "fails": ["bytes_reverse_eq"], "examples": [], "theorems": []}
{"i": 104, "file": "secp256k1/point.py", "fn": "Point.__add__", "kind": "binop", "old": "+", "new": "-", "line": 166, "status": "killed", "stage": 1, "fails": ["Point_add_eq", "Point_radd_eq"], "examples": [], "theorems": []}
{"i": 105, "file": "libs/ripemd160.py", "fn": "compress", "kind": "unwrap", "old": "range(80)", "new": "(80)", "line": 91, "status": "killed", "stage": 1, "fails": ["compress_eq"], "examples": [], "theorems": ["C81_crypto", "C81_crypto_bytes", "C83_fallback", "C83_ripemd160", "C85_address", "C85_address_roundtrip", "C86_confirm_code", "C86_create_new_encrypted_wif", "C86_decrypt", "C86_encrypt", "C88_methods", "C89_ec", "C89_roundtrip", "C91_methods", "C91_passphrase", "C91_public_key_type", "C91_texts"]}
{"i": 106, "file": "utils.py", "fn": "get_bytes", "kind": "unwrap", "old": "TypeError(\"Agreement must be either 'bytes' or 'string'!\")", "new": "(\"Agreement must be either 'bytes' or 'string'!\")", "line": 35, "status": "killed", "stage": 1, "fails": ["get_bytes_eq"], "examples": [], "theorems": ["C81_crypto", "C81_crypto_bytes", "C81_get_bytes", "C81_get_bytes_text", "C81_hex_roundtrip", "C83_fallback", "C85_address", "C85_address_roundtrip", "C85_wif", "C85_wif_roundtrip", "C85_wif_unchecked", "C86_confirm_code", "C86_create_new_encrypted_wif", "C86_decrypt", "C86_encrypt", "C86_intermediate_code", "C88_intermediate_code", "C88_methods", "C89_ec", "C89_roundtrip", "C91_create_type", "C91_intermediate_code", "C91_methods", "C91_numbers", "C91_passphrase", "C91_public_key_type", "C91_texts"]}
{"i": 107, "file": "libs/ripemd160.py", "fn": "fi", "kind": "negate", "old": "i == 4", "new": "(not (i == 4))", "line": 70, "status": "killed", "stage": 1, "fails": ["fi_eq"], "examples": [], "theorems": ["C81_crypto", "C81_crypto_bytes", "C83_fallback", "C83_ripemd160", "C85_address", "C85_address_roundtrip", "C86_confirm_code", "C86_create_new_encrypted_wif", "C86_decrypt", "C86_encrypt", "C88_methods", "C89_ec", "C89_roundtrip", "C91_methods", "C91_passphrase", "C91_public_key_type", "C91_texts"]}
{"i": 108, "file": "bip38.py", "fn": "BIP38.decrypt", "kind": "noraise", "old": "raise NetworkError(\"Wrong network type\", expected=self.networks, got=type(network))", "new": "pass", "line": 507, "status": "killed", "stage": 1, "fails": ["decrypt_obj"], "examples": [], "theorems": ["C86_decrypt", "C88_methods", "C89_ec", "C89_roundtrip", "C91_methods", "C91_passphrase", "C91_texts"]}
{"i": 109, "file": "bip38.py", "fn": "BIP38.encrypt", "kind": "swap", "old": "unicodedata.normalize(\"NFC\", passphrase), address_hash", "new": "address_hash, unicodedata.normalize(\"NFC\", passphrase)", "line": 207, "status": "killed", "stage": 1, "fails": ["encrypt_src"], "examples": [], "theorems": ["C86_encrypt", "C88_methods", "C89_roundtrip", "C91_methods", "C91_passphrase", "C91_texts"]}
{"i": 110, "file": "utils.py", "fn": "bytes_to_integer", "kind": "dropkw", "old": ", byteorder=endianness", "new": "", "line": 92, "status": "killed", "stage": 1, "fails": ["bytes_to_integer_default", "bytes_to_integer_eq"], "examples": [], "theorems": ["C81_bytes_to_integer", "C81_integer_roundtrip", "C84_point"]}
{"i": 111, "file": "bip38.py", "fn": "BIP38.confirm_code", "kind": "othervar", "old": "pass_factor", "new": "key", "line": 442, "status": "killed", "stage": 1, "fails": ["confirm_try"], "examples": [], "theorems": ["C86_confirm_code", "C88_methods", "C89_ec", "C91_methods", "C91_passphrase", "C91_texts"]}
{"i": 112, "file": "secp256k1/public_key.py", "fn": "PublicKey.raw", "kind": "string", "old": "\"compressed\"", "new": "\"compressedx\"", "line": 120, "status": "killed", "stage": 1, "fails": ["PublicKey_raw_eq"], "examples": [], "theorems": ["C84_key_methods", "C84_private_key", "C86_confirm_code", "C86_create_new_encrypted_wif", "C86_decrypt", "C88_methods", "C89_ec", "C89_roundtrip", "C91_methods", "C91_passphrase", "C91_texts"]}
{"i": 113, "file": "wif.py", "fn": "get_wif_type", "kind": "const+1", "old": "1", "new": "2", "line": 168, "status": "killed", "stage": 1, "fails": ["get_wif_type_eq"], "examples": [], "theorems": ["C85_wif", "C85_wif_roundtrip", "C85_wif_unchecked", "C86_encrypt", "C88_methods", "C89_roundtrip", "C91_methods", "C91_passphrase", "C91_texts"]}
{"i": 114, "file": "utils.py", "fn": "integer_to_bytes", "kind": "const-1", "old": "8", "new": "7", "line": 114, "status": "killed", "stage": 1, "fails": ["integer_to_bytes_eq"], "examples": [], "theorems": ["C81_integer_roundtrip", "C81_integer_to_bytes", "C84_point", "C85_address", "C85_address_roundtrip", "C85_wif", "C85_wif_roundtrip", "C85_wif_unchecked", "C86_confirm_code", "C86_create_new_encrypted_wif", "C86_decrypt", "C86_encrypt", "C86_intermediate_code", "C88_intermediate_code", "C88_methods", "C89_ec", "C89_roundtrip", "C91_decode", "C91_intermediate_code", "C91_methods", "C91_numbers", "C91_passphrase", "C91_public_key_type", "C91_texts"]}
{"i": 115, "file": "bip38.py", "fn": "BIP38.intermediate_code", "kind": "const-1", "old": "8", "new": "7", "line": 137, "status": "killed", "stage": 1, "fails": ["intermediate_src"], "examples": [], "theorems": ["C86_intermediate_code", "C88_intermediate_code", "C89_ec", "C91_intermediate_code", "C91_passphrase"]}
{"i": 116, "file": "crypto.py", "fn": "hash160", "kind": "unwrap", "old": "sha256(data)", "new": "(data)", "line": 90, "status": "killed", "stage": 1, "fails": ["crypto_hash160_eq"], "examples": [], "theorems": ["C81_crypto", "C81_crypto_bytes", "C85_address", "C85_address_roundtrip", "C86_confirm_code", "C86_create_new_encrypted_wif", "C86_decrypt", "C86_encrypt", "C88_methods", "C89_ec", "C89_roundtrip", "C91_methods", "C91_passphrase", "C91_public_key_type", "C91_texts"]}
{"i": 117, "file": "bip38.py", "fn": "BIP38.intermediate_code", "kind": "const+1", "old": "100000", "new": "100001", "line": 132, "status": "killed", "stage": 1, "fails": ["intermediate_src"], "examples": [], "theorems": ["C86_intermediate_code", "C88_intermediate_code", "C89_ec", "C91_intermediate_code", "C91_passphrase"]}
{"i": 118, "file": "bip38.py", "fn": "BIP38.decrypt", "kind": "unwrap", "old": "bytes_to_string(public_key.raw(public_key_type=public_key_type))", "new": "(public_key.raw(public_key_type=public_key_type))", "line": 566, "status": "killed", "stage": 1, "fails": ["decrypt_noEc_tail"], "examples": [], "theorems": ["C86_decrypt", "C88_methods", "C89_ec", "C89_roundtrip", "C91_methods", "C91_passphrase", "C91_texts"]}
{"i": 119, "file": "bip38.py", "fn": "BIP38.decrypt", "kind": "const-1", "old": "4", "new": "3", "line": 583, "status": "killed", "stage": 1, "fails": ["decrypt_split"], "examples": [], "theorems": ["C86_decrypt", "C88_methods", "C89_ec", "C89_roundtrip", "C91_methods", "C91_passphrase", "C91_texts"]}
{"i": 120, "file": "libs/base58.py", "fn": "string_to_int", "kind": "const+1", "old": "256", "new": "257", "line": 17, "status": "killed", "stage": 1, "fails": ["sti_loop"], "examples": [], "theorems": ["C82_bad_alphabets", "C82_encode", "C82_read", "C82_roundtrip", "C85_address", "C85_address_roundtrip", "C85_wif", "C85_wif_roundtrip", "C85_wif_unchecked", "C86_confirm_code", "C86_create_new_encrypted_wif", "C86_decrypt", "C86_encrypt", "C86_intermediate_code", "C88_intermediate_code", "C88_methods", "C89_ec", "C89_roundtrip", "C91_intermediate_code", "C91_methods", "C91_numbers", "C91_passphrase", "C91_public_key_type", "C91_texts"]}
{"i": 121, "file": "bip38.py", "fn": "BIP38.encrypt", "kind": "binop", "old": "+", "new": "-", "line": 219, "status": "killed", "stage": 1, "fails": ["encrypt_src"], "examples": [], "theorems": ["C86_encrypt", "C88_methods", "C89_roundtrip", "C91_methods", "C91_passphrase", "C91_texts"]}
{"i": 122, "file": "utils.py", "fn": "integer_to_bytes", "kind": "unmethod", "old": "data.bit_length()", "new": "data", "line": 114, "status": "killed", "stage": 1, "fails": ["integer_to_bytes_eq"], "examples": [], "theorems": ["C81_integer_roundtrip", "C81_integer_to_bytes", "C84_point", "C85_address", "C85_address_roundtrip", "C85_wif", "C85_wif_roundtrip", "C85_wif_unchecked", "C86_confirm_code", "C86_create_new_encrypted_wif", "C86_decrypt", "C86_encrypt", "C86_intermediate_code", "C88_intermediate_code", "C88_methods", "C89_ec", "C89_roundtrip", "C91_decode", "C91_intermediate_code", "C91_methods", "C91_numbers", "C91_passphrase", "C91_public_key_type", "C91_texts"]}
{"i": 123, "file": "bip38.py", "fn": "BIP38.create_new_encrypted_wif", "kind": "dropkw", "old": ", expected=WIF_TYPES", "new": "", "line": 280, "status": "killed", "stage": 1, "fails": ["create_L275"], "examples": [], "theorems": ["C86_create_new_encrypted_wif", "C88_methods", "C89_ec", "C91_methods", "C91_passphrase", "C91_texts"]}
{"i": 124, "file": "bip38.py", "fn": "BIP38.encrypt", "kind": "bool", "old": "False", "new": "True", "line": 206, "status": "killed", "stage": 1, "fails": ["encrypt_src"], "examples": [], "theorems": ["C86_encrypt", "C88_methods", "C89_roundtrip", "C91_methods", "C91_passphrase", "C91_texts"]}
{"i": 125, "file": "libs/base58.py", "fn": "decode", "kind": "negate", "old": "val == 0", "new": "(not (val == 0))", "line": 55, "status": "killed", "stage": 1, "fails": ["dec_loop1"], "examples": [], "theorems": ["C82_decode", "C82_read", "C82_roundtrip", "C85_address", "C85_address_roundtrip", "C85_wif", "C85_wif_roundtrip", "C85_wif_unchecked", "C86_confirm_code", "C86_create_new_encrypted_wif", "C86_decrypt", "C86_encrypt", "C88_methods", "C89_ec", "C89_roundtrip", "C91_create_type", "C91_decode", "C91_methods", "C91_passphrase", "C91_texts"]}
{"i": 126, "file": "libs/ripemd160.py", "fn": "ripemd160", "kind": "const-1", "old": "63", "new": "62", "line": 114, "status": "killed", "stage": 1, "fails": ["ripemd160_eq"], "examples": [], "theorems": ["C81_crypto", "C81_crypto_bytes", "C83_fallback", "C83_ripemd160", "C85_address", "C85_address_roundtrip", "C86_confirm_code", "C86_create_new_encrypted_wif", "C86_decrypt", "C86_encrypt", "C88_methods", "C89_ec", "C89_roundtrip", "C91_methods", "C91_passphrase", "C91_public_key_type", "C91_texts"]}
{"i": 127, "file": "bip38.py", "fn": "BIP38.intermediate_code", "kind": "othervar", "old": "lot", "new": "cls", "line": 125, "status": "untranslatable", "note": "gen_src: unknown name cls at line 125: Name(id='cls', ctx=Load())"}
{"i": 128, "file": "bip38.py", "fn": "BIP38.encrypt", "kind": "unwrap", "old": "encode(\n            encrypted_private_key + get_checksum(encrypted_private_key)\n        )", "new": "(encrypted_private_key + get_checksum(encrypted_private_key))", "line": 223, "status": "killed", "stage": 1, "fails": ["encrypt_src"], "examples": [], "theorems": ["C86_encrypt", "C88_methods", "C89_roundtrip", "C91_methods", "C91_passphrase", "C91_texts"]}
{"i": 129, "file": "bip38.py", "fn": "BIP38.create_new_encrypted_wif", "kind": "unwrap", "old": "AESModeOfOperationECB(key)", "new": "(key)", "line": 317, "status": "killed", "stage": 1, "fails": ["create_src"], "examples": [], "theorems": ["C86_create_new_encrypted_wif", "C88_methods", "C89_ec", "C91_methods", "C91_passphrase", "C91_texts"]}
{"i": 130, "file": "bip38.py", "fn": "BIP38.create_new_encrypted_wif", "kind": "noraise", "old": "raise WIFError(\"Invalid wif type\", expected=WIF_TYPES, got=wif_type)", "new": "pass", "line": 280, "status": "killed", "stage": 1, "fails": ["create_L275"], "examples": [], "theorems": ["C86_create_new_encrypted_wif", "C88_methods", "C89_ec", "C91_methods", "C91_passphrase", "C91_texts"]}
{"i": 131, "file": "p2pkh_address.py", "fn": "P2PKHAddress.decode", "kind": "compare", "old": "!=", "new": "==", "line": 90, "status": "killed", "stage": 1, "fails": ["p2pkh_decode_eq"], "examples": [], "theorems": ["C85_address", "C85_address_roundtrip", "C91_decode"]}
{"i": 132, "file": "bip38.py", "fn": "BIP38.confirm_code", "kind": "dropbound", "old": "5", "new": "", "line": 403, "status": "killed", "stage": 1, "fails": ["confirm_obj"], "examples": [], "theorems": ["C86_confirm_code", "C88_methods", "C89_ec", "C91_methods", "C91_passphrase", "C91_texts"]}
{"i": 133, "file": "bip38.py", "fn": "BIP38.__init__", "kind": "othervar", "old": "cryptocurrency", "new": "network", "line": 80, "status": "killed", "stage": 1, "fails": ["init_src"], "examples": [], "theorems": ["C86_constructor", "C88_constructor", "C88_methods", "C89_ec", "C89_roundtrip"]}
{"i": 134, "file": "bip38.py", "fn": "BIP38.intermediate_code", "kind": "swap", "old": "unicodedata.normalize(\"NFC\", passphrase), owner_salt[:4]", "new": "owner_salt[:4], unicodedata.normalize(\"NFC\", passphrase)", "line": 137, "status": "killed", "stage": 1, "fails": ["intermediate_src"], "examples": [], "theorems": ["C86_intermediate_code", "C88_intermediate_code", "C89_ec", "C91_intermediate_code", "C91_passphrase"]}
{"i": 135, "file": "libs/ripemd160.py", "fn": "fi", "kind": "othervar", "old": "z", "new": "x", "line": 69, "status": "killed", "stage": 1, "fails": ["fi_eq"], "examples": [], "theorems": ["C81_crypto", "C81_crypto_bytes", "C83_fallback", "C83_ripemd160", "C85_address", "C85_address_roundtrip", "C86_confirm_code", "C86_create_new_encrypted_wif", "C86_decrypt", "C86_encrypt", "C88_methods", "C89_ec", "C89_roundtrip", "C91_methods", "C91_passphrase", "C91_public_key_type", "C91_texts"]}
{"i": 136, "file": "bip38.py", "fn": "BIP38.decrypt", "kind": "dropkw", "old": ", unhexlify=False", "new": "", "line": 555, "status": "killed", "stage": 1, "fails": ["decrypt_noEc_tail"], "examples": [], "theorems": ["C86_decrypt", "C88_methods", "C89_ec", "C89_roundtrip", "C91_methods", "C91_passphrase", "C91_texts"]}
{"i": 137, "file": "utils.py", "fn": "integer_to_bytes", "kind": "const+1", "old": "7", "new": "8", "line": 114, "status": "killed", "stage": 1, "fails": ["integer_to_bytes_eq"], "examples": [], "theorems": ["C81_integer_roundtrip", "C81_integer_to_bytes", "C84_point", "C85_address", "C85_address_roundtrip", "C85_wif", "C85_wif_roundtrip", "C85_wif_unchecked", "C86_confirm_code", "C86_create_new_encrypted_wif", "C86_decrypt", "C86_encrypt", "C86_intermediate_code", "C88_intermediate_code", "C88_methods", "C89_ec", "C89_roundtrip", "C91_decode", "C91_intermediate_code", "C91_methods", "C91_numbers", "C91_passphrase", "C91_public_key_type", "C91_texts"]}
{"i": 138, "file": "libs/ripemd160.py", "fn": "fi", "kind": "binop", "old": "^", "new": "|", "line": 71, "status": "killed", "stage": 1, "fails": ["fi_eq"], "examples": [], "theorems": ["C81_crypto", "C81_crypto_bytes", "C83_fallback", "C83_ripemd160", "C85_address", "C85_address_roundtrip", "C86_confirm_code", "C86_create_new_encrypted_wif", "C86_decrypt", "C86_encrypt", "C88_methods", "C89_ec", "C89_roundtrip", "C91_methods", "C91_passphrase", "C91_public_key_type", "C91_texts"]}
{"i": 139, "file": "secp256k1/point.py", "fn": "Point.__add__", "kind": "unmethod", "old": "point.underlying_object()", "new": "point", "line": 166, "status": "killed", "stage": 1, "fails": ["Point_add_eq", "Point_radd_eq"], "examples": [], "theorems": []}
{"i": 140, "file": "bip38.py", "fn": "BIP38.__init__", "kind": "swap", "old": "cryptocurrency, ICryptocurrency", "new": "ICryptocurrency, cryptocurrency", "line": 75, "status": "killed", "stage": 1, "fails": ["init_src"], "examples": [], "theorems": ["C86_constructor", "C88_constructor", "C88_methods", "C89_ec", "C89_roundtrip"]}
{"i": 141, "file": "secp256k1/point.py", "fn": "Point.from_bytes", "kind": "swap", "old": "curve_secp256k1, point", "new": "point, curve_secp256k1", "line": 48, "status": "killed", "stage": 1, "fails": ["Point_from_bytes_eq"], "examples": [], "theorems": ["C84_point"]}
{"i": 142, "file": "wif.py", "fn": "private_key_to_wif", "kind": "negate", "old": "wif_type == \"wif\"", "new": "(not (wif_type == \"wif\"))", "line": 124, "status": "killed", "stage": 1, "fails": ["private_key_to_wif_eq"], "examples": [], "theorems": ["C85_wif", "C85_wif_roundtrip", "C85_wif_unchecked", "C86_decrypt", "C88_methods", "C89_ec", "C89_roundtrip", "C91_methods", "C91_passphrase", "C91_texts"]}
{"i": 143, "file": "secp256k1/point.py", "fn": "Point.from_coordinates", "kind": "unwrap", "old": "cls(\n            PointJacobi.from_affine(\n                _Point(curve_secp256k1, x, y)\n            )\n        )", "new": "(PointJacobi.from_affine(\n                _Point(curve_secp256k1, x, y)\n            ))", "line": 74, "status": "killed", "stage": 1, "fails": ["Point_from_coordinates_eq"], "examples": [], "theorems": ["C84_point"]}
{"i": 144, "file": "libs/ripemd160.py", "fn": "ripemd160", "kind": "binop", "old": "*", "new": "+", "line": 110, "status": "killed", "stage": 1, "fails": ["blocks_loop1"], "examples": [], "theorems": ["C81_crypto", "C81_crypto_bytes", "C83_fallback", "C83_ripemd160", "C85_address", "C85_address_roundtrip", "C86_confirm_code", "C86_create_new_encrypted_wif", "C86_decrypt", "C86_encrypt", "C88_methods", "C89_ec", "C89_roundtrip", "C91_methods", "C91_passphrase", "C91_public_key_type", "C91_texts"]}
{"i": 145, "file": "utils.py", "fn": "bytes_to_integer", "kind": "string", "old": "\"big\"", "new": "\"bigx\"", "line": 77, "status": "killed", "stage": 1, "fails": ["bytes_to_integer_default"], "examples": [], "theorems": ["C81_bytes_to_integer", "C81_integer_roundtrip", "C84_point"]}
{"i": 146, "file": "bip38.py", "fn": "BIP38.intermediate_code", "kind": "unmethod", "old": "pass_point.raw_compressed()", "new": "pass_point", "line": 150, "status": "killed", "stage": 1, "fails": ["intermediate_tail"], "examples": [], "theorems": ["C86_intermediate_code", "C88_intermediate_code", "C89_ec", "C91_intermediate_code", "C91_numbers", "C91_passphrase"]}
{"i": 147, "file": "bip38.py", "fn": "BIP38.create_new_encrypted_wif", "kind": "bool", "old": "False", "new": "True", "line": 312, "status": "killed", "stage": 1, "fails": ["create_src"], "examples": [], "theorems": ["C86_create_new_encrypted_wif", "C88_methods", "C89_ec", "C91_methods", "C91_passphrase", "C91_texts"]}
{"i": 148, "file": "bip38.py", "fn": "BIP38.confirm_code", "kind": "othervar", "old": "encrypted_point_b", "new": "salt", "line": 424, "status": "killed", "stage": 1, "fails": ["confirm_obj"], "examples": [], "theorems": ["C86_confirm_code", "C88_methods", "C89_ec", "C91_methods", "C91_passphrase", "C91_texts"]}
{"i": 149, "file": "exceptions.py", "fn": "Error.__init__", "kind": "othervar", "old": "expected", "new": "got", "line": 22, "status": "killed", "stage": 1, "fails": ["Error_init_eq"], "examples": [], "theorems": ["C81_error_text", "C84_key_methods", "C84_point", "C84_private_key", "C84_public_key", "C85_address", "C85_address_roundtrip", "C85_wif", "C85_wif_roundtrip", "C85_wif_unchecked", "C86_confirm_code", "C86_constructor", "C86_create_new_encrypted_wif", "C86_decrypt", "C86_encrypt", "C86_intermediate_code", "C88_constructor", "C88_intermediate_code", "C88_methods", "C89_ec", "C89_roundtrip", "C91_constructor", "C91_create_type", "C91_decode", "C91_intermediate_code", "C91_methods", "C91_network", "C91_numbers", "C91_passphrase", "C91_public_key_type", "C91_texts", "C91_wif_type"]}
{"i": 150, "file": "wif.py", "fn": "decode_wif", "kind": "string", "old": "\"Invalid WIF prefix\"", "new": "\"Invalid WIF prefixx\"", "line": 81, "status": "survived"}
{"i": 151, "file": "libs/base58.py", "fn": "string_to_int", "kind": "compare", "old": "==", "new": "!=", "line": 13, "status": "killed", "stage": 1, "fails": ["encode_other", "string_to_int_eq"], "examples": [], "theorems": ["C82_bad_alphabets", "C82_encode", "C82_encode_other", "C82_read", "C82_roundtrip", "C85_address", "C85_address_roundtrip", "C85_wif", "C85_wif_roundtrip", "C85_wif_unchecked", "C86_confirm_code", "C86_create_new_encrypted_wif", "C86_decrypt", "C86_encrypt", "C86_intermediate_code", "C88_intermediate_code", "C88_methods", "C89_ec", "C89_roundtrip", "C91_intermediate_code", "C91_methods", "C91_numbers", "C91_passphrase", "C91_public_key_type", "C91_texts"]}
{"i": 152, "file": "bip38.py", "fn": "BIP38.create_new_encrypted_wif", "kind": "const+1", "old": "32", "new": "33", "line": 315, "status": "killed", "stage": 1, "fails": ["create_src"], "examples": [], "theorems": ["C86_create_new_encrypted_wif", "C88_methods", "C89_ec", "C91_methods", "C91_passphrase", "C91_texts"]}
{"i": 153, "file": "secp256k1/point.py", "fn": "Point.raw_encoded", "kind": "negate", "old": "self.point.y() & 1", "new": "(not (self.point.y() & 1))", "line": 134, "status": "killed", "stage": 1, "fails": ["Point_raw_encoded_eq"], "examples": [], "theorems": ["C84_point"]}
{"i": 154, "file": "wif.py", "fn": "decode_wif", "kind": "const-1", "old": "4", "new": "3", "line": 84, "status": "killed", "stage": 1, "fails": ["decode_wif_eq"], "examples": [], "theorems": ["C85_wif", "C85_wif_roundtrip", "C85_wif_unchecked", "C86_encrypt", "C88_methods", "C89_roundtrip", "C91_decode", "C91_methods", "C91_passphrase", "C91_texts"]}
{"i": 155, "file": "bip38.py", "fn": "BIP38.decrypt", "kind": "negate", "old": "lot_and_sequence", "new": "(not (lot_and_sequence))", "line": 637, "status": "killed", "stage": 1, "fails": ["decrypt_detail"], "examples": [], "theorems": ["C86_decrypt", "C88_methods", "C89_ec", "C89_roundtrip", "C91_methods", "C91_passphrase", "C91_texts"]}
{"i": 156, "file": "bip38.py", "fn": "BIP38.encrypt", "kind": "unwrap", "old": "integer_to_bytes(\n                NO_EC_MULTIPLIED_PRIVATE_KEY_PREFIX\n            )", "new": "(NO_EC_MULTIPLIED_PRIVATE_KEY_PREFIX)", "line": 219, "status": "killed", "stage": 1, "fails": ["encrypt_src"], "examples": [], "theorems": ["C86_encrypt", "C88_methods", "C89_roundtrip", "C91_methods", "C91_passphrase", "C91_texts"]}
{"i": 157, "file": "secp256k1/private_key.py", "fn": "PrivateKey.from_bytes", "kind": "string", "old": "\"Invalid private key bytes\"", "new": "\"Invalid private key bytesx\"", "line": 51, "status": "killed", "stage": 1, "fails": ["PrivateKey_from_bytes_eq"], "examples": [], "theorems": ["C84_private_key", "C86_confirm_code", "C86_create_new_encrypted_wif", "C86_decrypt", "C86_encrypt", "C86_intermediate_code", "C88_intermediate_code", "C88_methods", "C89_ec", "C89_roundtrip", "C91_intermediate_code", "C91_methods", "C91_numbers", "C91_passphrase", "C91_texts"]}
{"i": 158, "file": "wif.py", "fn": "decode_wif", "kind": "not", "old": "not ", "new": "", "line": 75, "status": "killed", "stage": 1, "fails": ["decode_wif_eq"], "examples": [], "theorems": ["C85_wif", "C85_wif_roundtrip", "C85_wif_unchecked", "C86_encrypt", "C88_methods", "C89_roundtrip", "C91_decode", "C91_methods", "C91_passphrase", "C91_texts"]}
{"i": 159, "file": "bip38.py", "fn": "BIP38.__init__", "kind": "negate", "old": "not issubclass(cryptocurrency, ICryptocurrency)", "new": "(not (not issubclass(cryptocurrency, ICryptocurrency)))", "line": 75, "status": "killed", "stage": 1, "fails": ["init_src"], "examples": [], "theorems": ["C86_constructor", "C88_constructor", "C88_methods", "C89_ec", "C89_roundtrip"]}
{"i": 160, "file": "secp256k1/point.py", "fn": "Point.raw_decoded", "kind": "unmethod", "old": "self.point.y()", "new": "self.point", "line": 151, "status": "killed", "stage": 1, "fails": ["Point_raw_decoded_eq"], "examples": [], "theorems": ["C84_point"]}
{"i": 161, "file": "wif.py", "fn": "private_key_to_wif", "kind": "string", "old": "\"wif\"", "new": "\"wifx\"", "line": 124, "status": "killed", "stage": 1, "fails": ["private_key_to_wif_eq"], "examples": [], "theorems": ["C85_wif", "C85_wif_roundtrip", "C85_wif_unchecked", "C86_decrypt", "C88_methods", "C89_ec", "C89_roundtrip", "C91_methods", "C91_passphrase", "C91_texts"]}
{"i": 162, "file": "utils.py", "fn": "bytes_to_integer", "kind": "othervar", "old": "endianness", "new": "data", "line": 92, "status": "killed", "stage": 1, "fails": ["bytes_to_integer_default", "bytes_to_integer_eq"], "examples": [], "theorems": ["C81_bytes_to_integer", "C81_integer_roundtrip", "C84_point"]}
{"i": 163, "file": "wif.py", "fn": "wif_to_private_key", "kind": "dropkw", "old": ", wif_prefix=cryptocurrency.NETWORKS[network][\"wif_prefix\"]", "new": "", "line": 145, "status": "killed", "stage": 1, "fails": ["wif_to_private_key_eq"], "examples": [], "theorems": ["C85_wif", "C85_wif_roundtrip", "C85_wif_unchecked", "C86_encrypt", "C88_methods", "C89_roundtrip", "C91_methods", "C91_passphrase", "C91_texts"]}
{"i": 164, "file": "libs/ripemd160.py", "fn": "ripemd160", "kind": "othervar", "old": "data", "new": "state", "line": 114, "status": "killed", "stage": 1, "fails": ["ripemd160_eq"], "examples": [], "theorems": ["C81_crypto", "C81_crypto_bytes", "C83_fallback", "C83_ripemd160", "C85_address", "C85_address_roundtrip", "C86_confirm_code", "C86_create_new_encrypted_wif", "C86_decrypt", "C86_encrypt", "C88_methods", "C89_ec", "C89_roundtrip", "C91_methods", "C91_passphrase", "C91_public_key_type", "C91_texts"]}
{"i": 165, "file": "libs/ripemd160.py", "fn": "ripemd160", "kind": "const-1", "old": "0xc3d2e1f0", "new": "3285377519", "line": 107, "status": "killed", "stage": 1, "fails": ["ripemd160_eq"], "examples": [], "theorems": ["C81_crypto", "C81_crypto_bytes", "C83_fallback", "C83_ripemd160", "C85_address", "C85_address_roundtrip", "C86_confirm_code", "C86_create_new_encrypted_wif", "C86_decrypt", "C86_encrypt", "C88_methods", "C89_ec", "C89_roundtrip", "C91_methods", "C91_passphrase", "C91_public_key_type", "C91_texts"]}
{"i": 166, "file": "secp256k1/public_key.py", "fn": "PublicKey.raw", "kind": "compare", "old": "==", "new": "!=", "line": 120, "status": "killed", "stage": 1, "fails": ["PublicKey_raw_eq"], "examples": [], "theorems": ["C84_key_methods", "C84_private_key", "C86_confirm_code", "C86_create_new_encrypted_wif", "C86_decrypt", "C88_methods", "C89_ec", "C89_roundtrip", "C91_methods", "C91_passphrase", "C91_texts"]}
{"i": 167, "file": "libs/ripemd160.py", "fn": "compress", "kind": "dropbound", "old": "4*i", "new": "", "line": 88, "status": "killed", "stage": 1, "fails": ["compress_eq"], "examples": [], "theorems": ["C81_crypto", "C81_crypto_bytes", "C83_fallback", "C83_ripemd160", "C85_address", "C85_address_roundtrip", "C86_confirm_code", "C86_create_new_encrypted_wif", "C86_decrypt", "C86_encrypt", "C88_methods", "C89_ec", "C89_roundtrip", "C91_methods", "C91_passphrase", "C91_public_key_type", "C91_texts"]}
{"i": 168, "file": "bip38.py", "fn": "BIP38.decrypt", "kind": "unwrap", "old": "PassphraseError(\"Incorrect passphrase\")", "new": "(\"Incorrect passphrase\")", "line": 556, "status": "killed", "stage": 1, "fails": ["decrypt_noEc_tail"], "examples": [], "theorems": ["C86_decrypt", "C88_methods", "C89_ec", "C89_roundtrip", "C91_methods", "C91_passphrase", "C91_texts"]}
{"i": 169, "file": "libs/ripemd160.py", "fn": "compress", "kind": "swap", "old": "al + fi(bl, cl, dl, rnd) + x[ML[j]] + KL[rnd], RL[j]", "new": "RL[j], al + fi(bl, cl, dl, rnd) + x[ML[j]] + KL[rnd]", "line": 94, "status": "killed", "stage": 1, "fails": ["compress_round"], "examples": [], "theorems": ["C81_crypto", "C81_crypto_bytes", "C83_fallback", "C83_ripemd160", "C85_address", "C85_address_roundtrip", "C86_confirm_code", "C86_create_new_encrypted_wif", "C86_decrypt", "C86_encrypt", "C88_methods", "C89_ec", "C89_roundtrip", "C91_methods", "C91_passphrase", "C91_public_key_type", "C91_texts"]}
{"i": 170, "file": "wif.py", "fn": "encode_wif", "kind": "string", "old": "\"wif_prefix\"", "new": "\"wif_prefixx\"", "line": 30, "status": "killed", "stage": 1, "fails": ["encode_wif_default"], "examples": [], "theorems": []}
{"i": 171, "file": "bip38.py", "fn": "BIP38.decrypt", "kind": "binop", "old": "%", "new": "//", "line": 617, "status": "killed", "stage": 1, "fails": ["decrypt_ec_block"], "examples": [], "theorems": ["C86_decrypt", "C88_methods", "C89_ec", "C89_roundtrip", "C91_methods", "C91_passphrase", "C91_texts"]}
{"i": 172, "file": "libs/ripemd160.py", "fn": "compress", "kind": "binop", "old": "+", "new": "-", "line": 101, "status": "killed", "stage": 1, "fails": ["compress_eq"], "examples": [], "theorems": ["C81_crypto", "C81_crypto_bytes", "C83_fallback", "C83_ripemd160", "C85_address", "C85_address_roundtrip", "C86_confirm_code", "C86_create_new_encrypted_wif", "C86_decrypt", "C86_encrypt", "C88_methods", "C89_ec", "C89_roundtrip", "C91_methods", "C91_passphrase", "C91_public_key_type", "C91_texts"]}
{"i": 173, "file": "p2pkh_address.py", "fn": "P2PKHAddress.encode", "kind": "unwrap", "old": "integer_to_bytes(\n            kwargs.get(\"address_prefix\", cls.address_prefix)\n        )", "new": "(kwargs.get(\"address_prefix\", cls.address_prefix))", "line": 45, "status": "killed", "stage": 1, "fails": ["p2pkh_encode_eq", "p2pkh_encode_kw", "p2pkh_tail"], "examples": [], "theorems": ["C85_address", "C85_address_roundtrip", "C86_confirm_code", "C86_create_new_encrypted_wif", "C86_decrypt", "C86_encrypt", "C88_methods", "C89_ec", "C89_roundtrip", "C91_methods", "C91_passphrase", "C91_texts"]}
{"i": 174, "file": "bip38.py", "fn": "BIP38.encrypt", "kind": "dropbound", "old": "32", "new": "", "line": 208, "status": "killed", "stage": 1, "fails": ["encrypt_src"], "examples": [], "theorems": ["C86_encrypt", "C88_methods", "C89_roundtrip", "C91_methods", "C91_passphrase", "C91_texts"]}
{"i": 175, "file": "bip38.py", "fn": "BIP38.create_new_encrypted_wif", "kind": "othervar", "old": "address", "new": "intermediate_decode", "line": 312, "status": "killed", "stage": 1, "fails": ["create_src"], "examples": [], "theorems": ["C86_create_new_encrypted_wif", "C88_methods", "C89_ec", "C91_methods", "C91_passphrase", "C91_texts"]}
{"i": 176, "file": "bip38.py", "fn": "BIP38.decrypt", "kind": "negate", "old": "bytes_to_integer(flag) in FLAGS[\"lot_and_sequence\"]", "new": "(not (bytes_to_integer(flag) in FLAGS[\"lot_and_sequence\"]))", "line": 581, "status": "killed", "stage": 1, "fails": ["decrypt_split"], "examples": [], "theorems": ["C86_decrypt", "C88_methods", "C89_ec", "C89_roundtrip", "C91_methods", "C91_passphrase", "C91_texts"]}
{"i": 177, "file": "bip38.py", "fn": "BIP38.__init__", "kind": "dropkw", "old": ", expected=Type[ICryptocurrency]", "new": "", "line": 77, "status": "killed", "stage": 1, "fails": ["init_src"], "examples": [], "theorems": ["C86_constructor", "C88_constructor", "C88_methods", "C89_ec", "C89_roundtrip"]}
{"i": 178, "file": "wif.py", "fn": "decode_wif", "kind": "negate", "old": "not raw.startswith(integer_to_bytes(wif_prefix))", "new": "(not (not raw.startswith(integer_to_bytes(wif_prefix))))", "line": 75, "status": "killed", "stage": 1, "fails": ["decode_wif_eq"], "examples": [], "theorems": ["C85_wif", "C85_wif_roundtrip", "C85_wif_unchecked", "C86_encrypt", "C88_methods", "C89_roundtrip", "C91_decode", "C91_methods", "C91_passphrase", "C91_texts"]}
{"i": 179, "file": "p2pkh_address.py", "fn": "P2PKHAddress.decode", "kind": "othervar", "old": "address_decode", "new": "prefix_got", "line": 97, "status": "killed", "stage": 1, "fails": ["p2pkh_decode_eq"], "examples": [], "theorems": ["C85_address", "C85_address_roundtrip", "C91_decode"]}
{"i": 180, "file": "libs/base58.py", "fn": "check_encode", "kind": "const+1", "old": "4", "new": "5", "line": 43, "status": "killed", "stage": 1, "fails": ["check_encode_eq"], "examples": [], "theorems": ["C82_encode", "C82_read", "C82_roundtrip", "C85_address", "C85_address_roundtrip", "C86_confirm_code", "C86_create_new_encrypted_wif", "C86_decrypt", "C86_encrypt", "C86_intermediate_code", "C88_intermediate_code", "C88_methods", "C89_ec", "C89_roundtrip", "C91_intermediate_code", "C91_methods", "C91_numbers", "C91_passphrase", "C91_public_key_type", "C91_texts"]}
{"i": 181, "file": "utils.py", "fn": "integer_to_bytes", "kind": "dropkw", "old": ", signed=signed", "new": "", "line": 115, "status": "killed", "stage": 1, "fails": ["integer_to_bytes_eq"], "examples": [], "theorems": ["C81_integer_roundtrip", "C81_integer_to_bytes", "C84_point", "C85_address", "C85_address_roundtrip", "C85_wif", "C85_wif_roundtrip", "C85_wif_unchecked", "C86_confirm_code", "C86_create_new_encrypted_wif", "C86_decrypt", "C86_encrypt", "C86_intermediate_code", "C88_intermediate_code", "C88_methods", "C89_ec", "C89_roundtrip", "C91_decode", "C91_intermediate_code", "C91_methods", "C91_numbers", "C91_passphrase", "C91_public_key_type", "C91_texts"]}
{"i": 182, "file": "libs/ripemd160.py", "fn": "ripemd160", "kind": "dropbound", "old": "64*b", "new": "", "line": 110, "status": "killed", "stage": 1, "fails": ["blocks_loop1"], "examples": [], "theorems": ["C81_crypto", "C81_crypto_bytes", "C83_fallback", "C83_ripemd160", "C85_address", "C85_address_roundtrip", "C86_confirm_code", "C86_create_new_encrypted_wif", "C86_decrypt", "C86_encrypt", "C88_methods", "C89_ec", "C89_roundtrip", "C91_methods", "C91_passphrase", "C91_public_key_type", "C91_texts"]}
{"i": 183, "file": "utils.py", "fn": "integer_to_bytes", "kind": "boolop", "old": "or", "new": "and", "line": 114, "status": "killed", "stage": 1, "fails": ["integer_to_bytes_eq"], "examples": [], "theorems": ["C81_integer_roundtrip", "C81_integer_to_bytes", "C84_point", "C85_address", "C85_address_roundtrip", "C85_wif", "C85_wif_roundtrip", "C85_wif_unchecked", "C86_confirm_code", "C86_create_new_encrypted_wif", "C86_decrypt", "C86_encrypt", "C86_intermediate_code", "C88_intermediate_code", "C88_methods", "C89_ec", "C89_roundtrip", "C91_decode", "C91_intermediate_code", "C91_methods", "C91_numbers", "C91_passphrase", "C91_public_key_type", "C91_texts"]}
{"i": 184, "file": "bip38.py", "fn": "BIP38.decrypt", "kind": "unwrap", "old": "get_checksum(get_bytes(address, unhexlify=False))", "new": "(get_bytes(address, unhexlify=False))", "line": 555, "status": "killed", "stage": 1, "fails": ["decrypt_noEc_tail"], "examples": [], "theorems": ["C86_decrypt", "C88_methods", "C89_ec", "C89_roundtrip", "C91_methods", "C91_passphrase", "C91_texts"]}
{"i": 185, "file": "p2pkh_address.py", "fn": "P2PKHAddress.encode", "kind": "swap", "old": "\"alphabet\", cls.alphabet", "new": "cls.alphabet, \"alphabet\"", "line": 59, "status": "untranslatable", "note": "gen_src: kwargs.get at line 59: Call(func=Attribute(value=Name(id='kwargs', ctx=Load()), attr='get', ctx=Load()), args=[Attribute(value=Name(id='cls', ctx=Load()), attr='alphabet', ctx=Load()), Consta"}
{"i": 186, "file": "utils.py", "fn": "bytes_to_string", "kind": "not", "old": "not ", "new": "", "line": 72, "status": "killed", "stage": 1, "fails": ["bytes_to_string_eq"], "examples": [], "theorems": ["C81_bytes_to_string", "C81_hex_roundtrip", "C85_address", "C85_address_roundtrip", "C85_wif", "C85_wif_roundtrip", "C85_wif_unchecked", "C86_confirm_code", "C86_create_new_encrypted_wif", "C86_decrypt", "C86_encrypt", "C86_intermediate_code", "C88_intermediate_code", "C88_methods", "C89_ec", "C89_roundtrip", "C91_decode", "C91_intermediate_code", "C91_methods", "C91_numbers", "C91_passphrase", "C91_texts"]}
{"i": 187, "file": "wif.py", "fn": "encode_wif", "kind": "unwrap", "old": "integer_to_bytes(COMPRESSED_PRIVATE_KEY_PREFIX)", "new": "(COMPRESSED_PRIVATE_KEY_PREFIX)", "line": 51, "status": "killed", "stage": 1, "fails": ["encode_wif_eq"], "examples": [], "theorems": ["C85_wif", "C85_wif_roundtrip", "C85_wif_unchecked", "C86_decrypt", "C88_methods", "C89_ec", "C89_roundtrip", "C91_methods", "C91_passphrase", "C91_texts"]}
{"i": 188, "file": "bip38.py", "fn": "BIP38.intermediate_code", "kind": "unwrap", "old": "len(owner_salt)", "new": "(owner_salt)", "line": 123, "status": "killed", "stage": 1, "fails": ["intermediate_src"], "examples": [], "theorems": ["C86_intermediate_code", "C88_intermediate_code", "C89_ec", "C91_intermediate_code", "C91_passphrase"]}
{"i": 189, "file": "secp256k1/point.py", "fn": "Point.raw_encoded", "kind": "string", "old": "\"compressed\"", "new": "\"compressedx\"", "line": 129, "status": "killed", "stage": 1, "fails": ["Point_raw_encoded_eq"], "examples": [], "theorems": ["C84_point"]}
{"i": 190, "file": "bip38.py", "fn": "BIP38.confirm_code", "kind": "const+1", "old": "63", "new": "64", "line": 434, "status": "killed", "stage": 1, "fails": ["confirm_obj"], "examples": [], "theorems": ["C86_confirm_code", "C88_methods", "C89_ec", "C91_methods", "C91_passphrase", "C91_texts"]}
{"i": 191, "file": "bip38.py", "fn": "BIP38.encrypt", "kind": "dropkw", "old": ", cryptocurrency=self.cryptocurrency", "new": "", "line": 191, "status": "killed", "stage": 1, "fails": ["encrypt_src"], "examples": [], "theorems": ["C86_encrypt", "C88_methods", "C89_roundtrip", "C91_methods", "C91_passphrase", "C91_texts"]}
{"i": 192, "file": "libs/base58.py", "fn": "decode", "kind": "binop", "old": "+", "new": "-", "line": 54, "status": "killed", "stage": 1, "fails": ["dec_loop1"], "examples": [], "theorems": ["C82_decode", "C82_read", "C82_roundtrip", "C85_address", "C85_address_roundtrip", "C85_wif", "C85_wif_roundtrip", "C85_wif_unchecked", "C86_confirm_code", "C86_create_new_encrypted_wif", "C86_decrypt", "C86_encrypt", "C88_methods", "C89_ec", "C89_roundtrip", "C91_create_type", "C91_decode", "C91_methods", "C91_passphrase", "C91_texts"]}
{"i": 193, "file": "wif.py", "fn": "encode_wif", "kind": "binop", "old": "+", "new": "-", "line": 51, "status": "killed", "stage": 1, "fails": ["encode_wif_eq"], "examples": [], "theorems": ["C85_wif", "C85_wif_roundtrip", "C85_wif_unchecked", "C86_decrypt", "C88_methods", "C89_ec", "C89_roundtrip", "C91_methods", "C91_passphrase", "C91_texts"]}
{"i": 194, "file": "bip38.py", "fn": "BIP38.decrypt", "kind": "const-1", "old": "8", "new": "7", "line": 587, "status": "killed", "stage": 1, "fails": ["decrypt_factor"], "examples": [], "theorems": ["C86_decrypt", "C88_methods", "C89_ec", "C89_roundtrip", "C91_methods", "C91_passphrase", "C91_texts"]}
{"i": 195, "file": "bip38.py", "fn": "BIP38.decrypt", "kind": "compare", "old": "in", "new": "not in", "line": 622, "status": "killed", "stage": 1, "fails": ["decrypt_types"], "examples": [], "theorems": ["C86_decrypt", "C88_methods", "C89_ec", "C89_roundtrip", "C91_methods", "C91_passphrase", "C91_texts"]}
{"i": 196, "file": "utils.py", "fn": "bytes_to_string", "kind": "string", "old": "'utf-8'", "new": "\"utf-8x\"", "line": 73, "status": "killed", "stage": 1, "fails": ["bytes_to_string_eq"], "examples": [], "theorems": ["C81_bytes_to_string", "C81_hex_roundtrip", "C85_address", "C85_address_roundtrip", "C85_wif", "C85_wif_roundtrip", "C85_wif_unchecked", "C86_confirm_code", "C86_create_new_encrypted_wif", "C86_decrypt", "C86_encrypt", "C86_intermediate_code", "C88_intermediate_code", "C88_methods", "C89_ec", "C89_roundtrip", "C91_decode", "C91_intermediate_code", "C91_methods", "C91_numbers", "C91_passphrase", "C91_texts"]}
{"i": 197, "file": "p2pkh_address.py", "fn": "P2PKHAddress.decode", "kind": "negate", "old": "len(address_decode) != expected_length", "new": "(not (len(address_decode) != expected_length))", "line": 90, "status": "killed", "stage": 1, "fails": ["p2pkh_decode_eq"], "examples": [], "theorems": ["C85_address", "C85_address_roundtrip", "C91_decode"]}
{"i": 198, "file": "secp256k1/point.py", "fn": "Point.raw", "kind": "unmethod", "old": "self.raw_decoded()", "new": "self", "line": 118, "status": "killed", "stage": 1, "fails": ["Point_raw_eq"], "examples": [], "theorems": ["C84_point"]}
{"i": 199, "file": "crypto.py", "fn": "ripemd160", "kind": "negate", "old": "\"ripemd160\" in hashlib.algorithms_available", "new": "(not (\"ripemd160\" in hashlib.algorithms_available))", "line": 29, "status": "killed", "stage": 1, "fails": ["crypto_ripemd160_eq"], "examples": [], "theorems": ["C81_crypto", "C81_crypto_bytes", "C83_fallback", "C85_address", "C85_address_roundtrip", "C86_confirm_code", "C86_create_new_encrypted_wif", "C86_decrypt", "C86_encrypt", "C88_methods", "C89_ec", "C89_roundtrip", "C91_methods", "C91_passphrase", "C91_public_key_type", "C91_texts"]}
{"i": 200, "file": "utils.py", "fn": "integer_to_bytes", "kind": "othervar", "old": "bytes_num", "new": "endianness", "line": 115, "status": "killed", "stage": 1, "fails": ["integer_to_bytes_eq"], "examples": [], "theorems": ["C81_integer_roundtrip", "C81_integer_to_bytes", "C84_point", "C85_address", "C85_address_roundtrip", "C85_wif", "C85_wif_roundtrip", "C85_wif_unchecked", "C86_confirm_code", "C86_create_new_encrypted_wif", "C86_decrypt", "C86_encrypt", "C86_intermediate_code", "C88_intermediate_code", "C88_methods", "C89_ec", "C89_roundtrip", "C91_decode", "C91_intermediate_code", "C91_methods", "C91_numbers", "C91_passphrase", "C91_public_key_type", "C91_texts"]}
{"i": 201, "file": "p2pkh_address.py", "fn": "P2PKHAddress.encode", "kind": "othervar", "old": "public_key_hash", "new": "cls", "line": 59, "status": "untranslatable", "note": "gen_src: unknown name cls at line 59: Name(id='cls', ctx=Load())"}
{"i": 202, "file": "bip38.py", "fn": "BIP38.decrypt", "kind": "othervar", "old": "decrypted_half_2", "new": "aes", "line": 544, "status": "killed", "stage": 1, "fails": ["decrypt_noEc_tail"], "examples": [], "theorems": ["C86_decrypt", "C88_methods", "C89_ec", "C89_roundtrip", "C91_methods", "C91_passphrase", "C91_texts"]}
{"i": 203, "file": "libs/ripemd160.py", "fn": "fi", "kind": "compare", "old": "==", "new": "!=", "line": 68, "status": "killed", "stage": 1, "fails": ["fi_eq"], "examples": [], "theorems": ["C81_crypto", "C81_crypto_bytes", "C83_fallback", "C83_ripemd160", "C85_address", "C85_address_roundtrip", "C86_confirm_code", "C86_create_new_encrypted_wif", "C86_decrypt", "C86_encrypt", "C88_methods", "C89_ec", "C89_roundtrip", "C91_methods", "C91_passphrase", "C91_public_key_type", "C91_texts"]}
{"i": 204, "file": "bip38.py", "fn": "BIP38.create_new_encrypted_wif", "kind": "negate", "old": "public_key_type == \"uncompressed\"", "new": "(not (public_key_type == \"uncompressed\"))", "line": 283, "status": "killed", "stage": 1, "fails": ["create_L282"], "examples": [], "theorems": ["C86_create_new_encrypted_wif", "C88_methods", "C89_ec", "C91_methods", "C91_passphrase", "C91_texts"]}
{"i": 205, "file": "wif.py", "fn": "decode_wif", "kind": "string", "old": "\"wif_prefix\"", "new": "\"wif_prefixx\"", "line": 60, "status": "killed", "stage": 1, "fails": ["decode_wif_default"], "examples": [], "theorems": []}
{"i": 206, "file": "bip38.py", "fn": "BIP38.decrypt", "kind": "const+1", "old": "4", "new": "5", "line": 583, "status": "killed", "stage": 1, "fails": ["decrypt_split"], "examples": [], "theorems": ["C86_decrypt", "C88_methods", "C89_ec", "C89_roundtrip", "C91_methods", "C91_passphrase", "C91_texts"]}
{"i": 207, "file": "wif.py", "fn": "encode_wif", "kind": "binop", "old": "+", "new": "-", "line": 48, "status": "killed", "stage": 1, "fails": ["encode_wif_eq"], "examples": [], "theorems": ["C85_wif", "C85_wif_roundtrip", "C85_wif_unchecked", "C86_decrypt", "C88_methods", "C89_ec", "C89_roundtrip", "C91_methods", "C91_passphrase", "C91_texts"]}
{"i": 208, "file": "wif.py", "fn": "private_key_to_wif", "kind": "othervar", "old": "network", "new": "wif_compressed", "line": 122, "status": "killed", "stage": 1, "fails": ["private_key_to_wif_eq"], "examples": [], "theorems": ["C85_wif", "C85_wif_roundtrip", "C85_wif_unchecked", "C86_decrypt", "C88_methods", "C89_ec", "C89_roundtrip", "C91_methods", "C91_passphrase", "C91_texts"]}
{"i": 209, "file": "bip38.py", "fn": "BIP38.create_new_encrypted_wif", "kind": "dropkw", "old": ", got=wif_type", "new": "", "line": 280, "status": "killed", "stage": 1, "fails": ["create_L275"], "examples": [], "theorems": ["C86_create_new_encrypted_wif", "C88_methods", "C89_ec", "C91_methods", "C91_passphrase", "C91_texts"]}
{"i": 210, "file": "libs/base58.py", "fn": "string_to_int", "kind": "unwrap", "old": "enumerate(data[::-1])", "new": "(data[::-1])", "line": 16, "status": "killed", "stage": 1, "fails": ["string_to_int_eq"], "examples": [], "theorems": ["C82_bad_alphabets", "C82_encode", "C82_read", "C82_roundtrip", "C85_address", "C85_address_roundtrip", "C85_wif", "C85_wif_roundtrip", "C85_wif_unchecked", "C86_confirm_code", "C86_create_new_encrypted_wif", "C86_decrypt", "C86_encrypt", "C86_intermediate_code", "C88_intermediate_code", "C88_methods", "C89_ec", "C89_roundtrip", "C91_intermediate_code", "C91_methods", "C91_numbers", "C91_passphrase", "C91_public_key_type", "C91_texts"]}
{"i": 211, "file": "libs/base58.py", "fn": "encode", "kind": "compare", "old": ">=", "new": ">", "line": 32, "status": "killed", "stage": 1, "fails": ["enc_loop"], "examples": [], "theorems": ["C82_encode", "C82_read", "C82_roundtrip", "C85_address", "C85_address_roundtrip", "C85_wif", "C85_wif_roundtrip", "C85_wif_unchecked", "C86_confirm_code", "C86_create_new_encrypted_wif", "C86_decrypt", "C86_encrypt", "C86_intermediate_code", "C88_intermediate_code", "C88_methods", "C89_ec", "C89_roundtrip", "C91_intermediate_code", "C91_methods", "C91_numbers", "C91_passphrase", "C91_public_key_type", "C91_texts"]}
{"i": 212, "file": "utils.py", "fn": "integer_to_bytes", "kind": "compare", "old": ">", "new": ">=", "line": 114, "status": "killed", "stage": 1, "fails": ["integer_to_bytes_eq"], "examples": [], "theorems": ["C81_integer_roundtrip", "C81_integer_to_bytes", "C84_point", "C85_address", "C85_address_roundtrip", "C85_wif", "C85_wif_roundtrip", "C85_wif_unchecked", "C86_confirm_code", "C86_create_new_encrypted_wif", "C86_decrypt", "C86_encrypt", "C86_intermediate_code", "C88_intermediate_code", "C88_methods", "C89_ec", "C89_roundtrip", "C91_decode", "C91_intermediate_code", "C91_methods", "C91_numbers", "C91_passphrase", "C91_public_key_type", "C91_texts"]}
{"i": 213, "file": "libs/ripemd160.py", "fn": "compress", "kind": "othervar", "old": "block", "new": "el", "line": 88, "status": "killed", "stage": 1, "fails": ["compress_eq"], "examples": [], "theorems": ["C81_crypto", "C81_crypto_bytes", "C83_fallback", "C83_ripemd160", "C85_address", "C85_address_roundtrip", "C86_confirm_code", "C86_create_new_encrypted_wif", "C86_decrypt", "C86_encrypt", "C88_methods", "C89_ec", "C89_roundtrip", "C91_methods", "C91_passphrase", "C91_public_key_type", "C91_texts"]}
{"i": 214, "file": "utils.py", "fn": "bytes_to_integer", "kind": "bool", "old": "False", "new": "True", "line": 77, "status": "killed", "stage": 1, "fails": ["bytes_to_integer_default"], "examples": [], "theorems": ["C81_bytes_to_integer", "C81_integer_roundtrip", "C84_point"]}
{"i": 215, "file": "p2pkh_address.py", "fn": "P2PKHAddress.encode", "kind": "string", "old": "\"address_prefix\"", "new": "\"address_prefixx\"", "line": 46, "status": "killed", "stage": 1, "fails": ["p2pkh_encode_eq"], "examples": [], "theorems": ["C85_address", "C85_address_roundtrip", "C86_confirm_code", "C86_create_new_encrypted_wif", "C86_decrypt", "C86_encrypt", "C88_methods", "C89_ec", "C89_roundtrip", "C91_methods", "C91_passphrase", "C91_texts"]}
{"i": 216, "file": "bip38.py", "fn": "BIP38.create_new_encrypted_wif", "kind": "compare", "old": "==", "new": "!=", "line": 277, "status": "killed", "stage": 1, "fails": ["create_L275"], "examples": [], "theorems": ["C86_create_new_encrypted_wif", "C88_methods", "C89_ec", "C91_methods", "C91_passphrase", "C91_texts"]}
{"i": 217, "file": "bip38.py", "fn": "BIP38.confirm_code", "kind": "negate", "old": "bytes_to_integer(pass_factor) == 0 or bytes_to_integer(pass_factor) >= N", "new": "(not (bytes_to_integer(pass_factor) == 0 or bytes_to_integer(pass_factor) >= N))", "line": 418, "status": "killed", "stage": 1, "fails": ["confirm_obj"], "examples": [], "theorems": ["C86_confirm_code", "C88_methods", "C89_ec", "C91_methods", "C91_passphrase", "C91_texts"]}
{"i": 218, "file": "wif.py", "fn": "private_key_to_wif", "kind": "noraise", "old": "raise WIFError(\"Wrong WIF type\", expected=WIF_TYPES, got=wif_type)", "new": "pass", "line": 120, "status": "killed", "stage": 1, "fails": ["private_key_to_wif_eq"], "examples": [], "theorems": ["C85_wif", "C85_wif_roundtrip", "C85_wif_unchecked", "C86_decrypt", "C88_methods", "C89_ec", "C89_roundtrip", "C91_methods", "C91_passphrase", "C91_texts"]}
{"i": 219, "file": "utils.py", "fn": "bytes_reverse", "kind": "unmethod", "old": "tmp.reverse()", "new": "tmp", "line": 50, "status": "killed", "stage": 1, "fails": ["bytes_reverse_eq"], "examples": [], "theorems": []}
{"i": 220, "file": "libs/base58.py", "fn": "ensure_string", "kind": "noraise", "old": "raise ValueError(\"Invalid value for string\")", "new": "pass", "line": 25, "status": "killed", "stage": 1, "fails": ["ensure_string_eq"], "examples": [], "theorems": ["C82_decode", "C82_read", "C82_roundtrip"]}
{"i": 221, "file": "bip38.py", "fn": "BIP38.confirm_code", "kind": "const+1", "old": "4096", "new": "4097", "line": 461, "status": "killed", "stage": 1, "fails": ["confirm_detail"], "examples": [], "theorems": ["C86_confirm_code", "C88_methods", "C89_ec", "C91_methods", "C91_passphrase", "C91_texts"]}
{"i": 222, "file": "wif.py", "fn": "decode_wif", "kind": "binop", "old": "*", "new": "+", "line": 84, "status": "killed", "stage": 1, "fails": ["decode_wif_eq"], "examples": [], "theorems": ["C85_wif", "C85_wif_roundtrip", "C85_wif_unchecked", "C86_encrypt", "C88_methods", "C89_roundtrip", "C91_decode", "C91_methods", "C91_passphrase", "C91_texts"]}
{"i": 223, "file": "exceptions.py", "fn": "Error.__str__", "kind": "negate", "old": "self._detail", "new": "(not (self._detail))", "line": 35, "status": "killed", "stage": 1, "fails": ["Error_str_eq"], "examples": [], "theorems": ["C81_error_text", "C84_key_methods", "C84_point", "C84_private_key", "C84_public_key", "C85_address", "C85_address_roundtrip", "C85_wif", "C85_wif_roundtrip", "C85_wif_unchecked", "C86_confirm_code", "C86_constructor", "C86_create_new_encrypted_wif", "C86_decrypt", "C86_encrypt", "C86_intermediate_code", "C88_constructor", "C88_intermediate_code", "C88_methods", "C89_ec", "C89_roundtrip", "C91_constructor", "C91_create_type", "C91_decode", "C91_intermediate_code", "C91_methods", "C91_network", "C91_numbers", "C91_passphrase", "C91_public_key_type", "C91_texts", "C91_wif_type"]}
{"i": 224, "file": "libs/ripemd160.py", "fn": "compress", "kind": "othervar", "old": "h0", "new": "dl", "line": 86, "status": "killed", "stage": 1, "fails": ["compress_eq"], "examples": [], "theorems": ["C81_crypto", "C81_crypto_bytes", "C83_fallback", "C83_ripemd160", "C85_address", "C85_address_roundtrip", "C86_confirm_code", "C86_create_new_encrypted_wif", "C86_decrypt", "C86_encrypt", "C88_methods", "C89_ec", "C89_roundtrip", "C91_methods", "C91_passphrase", "C91_public_key_type", "C91_texts"]}
{"i": 225, "file": "crypto.py", "fn": "sha256", "kind": "unmethod", "old": "hashlib.sha256(get_bytes(data)).digest()", "new": "hashlib.sha256(get_bytes(data))", "line": 45, "status": "killed", "stage": 1, "fails": ["crypto_sha256_eq"], "examples": [], "theorems": ["C81_crypto", "C81_crypto_bytes", "C85_address", "C85_address_roundtrip", "C85_wif", "C85_wif_roundtrip", "C85_wif_unchecked", "C86_confirm_code", "C86_create_new_encrypted_wif", "C86_decrypt", "C86_encrypt", "C86_intermediate_code", "C88_intermediate_code", "C88_methods", "C89_ec", "C89_roundtrip", "C91_intermediate_code", "C91_methods", "C91_numbers", "C91_passphrase", "C91_public_key_type", "C91_texts"]}
{"i": 226, "file": "libs/base58.py", "fn": "string_to_int", "kind": "othervar", "old": "i", "new": "data", "line": 17, "status": "killed", "stage": 1, "fails": ["sti_loop"], "examples": [], "theorems": ["C82_bad_alphabets", "C82_encode", "C82_read", "C82_roundtrip", "C85_address", "C85_address_roundtrip", "C85_wif", "C85_wif_roundtrip", "C85_wif_unchecked", "C86_confirm_code", "C86_create_new_encrypted_wif", "C86_decrypt", "C86_encrypt", "C86_intermediate_code", "C88_intermediate_code", "C88_methods", "C89_ec", "C89_roundtrip", "C91_intermediate_code", "C91_methods", "C91_numbers", "C91_passphrase", "C91_public_key_type", "C91_texts"]}
{"i": 227, "file": "secp256k1/public_key.py", "fn": "PublicKey.from_bytes", "kind": "othervar", "old": "cls", "new": "public_key", "line": 48, "status": "untranslatable", "note": "gen_src: call at line 48: Call(func=Name(id='public_key', ctx=Load()), args=[Call(func=Attribute(value=Name(id='VerifyingKey', ctx=Load()), attr='from_string', ctx=Load()), args=[Name(id='public_key',"}
{"i": 228, "file": "p2pkh_address.py", "fn": "P2PKHAddress.encode", "kind": "unmethod", "old": "public_key.raw_uncompressed()", "new": "public_key", "line": 55, "status": "killed", "stage": 1, "fails": ["p2pkh_tail"], "examples": [], "theorems": ["C85_address", "C85_address_roundtrip", "C86_confirm_code", "C86_create_new_encrypted_wif", "C86_decrypt", "C86_encrypt", "C88_methods", "C89_ec", "C89_roundtrip", "C91_methods", "C91_passphrase", "C91_texts"]}
{"i": 229, "file": "wif.py", "fn": "get_wif_type", "kind": "othervar", "old": "cryptocurrency", "new": "network", "line": 167, "status": "killed", "stage": 1, "fails": ["get_wif_type_eq"], "examples": [], "theorems": ["C85_wif", "C85_wif_roundtrip", "C85_wif_unchecked", "C86_encrypt", "C88_methods", "C89_roundtrip", "C91_methods", "C91_passphrase", "C91_texts"]}
{"i": 230, "file": "p2pkh_address.py", "fn": "P2PKHAddress.encode", "kind": "not", "old": "not ", "new": "", "line": 49, "status": "killed", "stage": 1, "fails": ["p2pkh_encode_eq"], "examples": [], "theorems": ["C85_address", "C85_address_roundtrip", "C86_confirm_code", "C86_create_new_encrypted_wif", "C86_decrypt", "C86_encrypt", "C88_methods", "C89_ec", "C89_roundtrip", "C91_methods", "C91_passphrase", "C91_texts"]}
{"i": 231, "file": "libs/base58.py", "fn": "check_decode", "kind": "unwrap", "old": "ValueError(\"base58 decoding checksum error\")", "new": "(\"base58 decoding checksum error\")", "line": 72, "status": "killed", "stage": 1, "fails": ["check_decode_eq"], "examples": [], "theorems": ["C82_decode", "C82_read", "C82_roundtrip", "C85_address", "C85_address_roundtrip", "C86_confirm_code", "C86_create_new_encrypted_wif", "C88_methods", "C89_ec", "C91_create_type", "C91_decode", "C91_methods", "C91_passphrase", "C91_texts"]}
{"i": 232, "file": "wif.py", "fn": "encode_wif", "kind": "const+1", "old": "64", "new": "65", "line": 45, "status": "killed", "stage": 1, "fails": ["encode_wif_eq"], "examples": [], "theorems": ["C85_wif", "C85_wif_roundtrip", "C85_wif_unchecked", "C86_decrypt", "C88_methods", "C89_ec", "C89_roundtrip", "C91_methods", "C91_passphrase", "C91_texts"]}
{"i": 233, "file": "libs/ripemd160.py", "fn": "fi", "kind": "othervar", "old": "x", "new": "y", "line": 63, "status": "killed", "stage": 1, "fails": ["fi_eq"], "examples": [], "theorems": ["C81_crypto", "C81_crypto_bytes", "C83_fallback", "C83_ripemd160", "C85_address", "C85_address_roundtrip", "C86_confirm_code", "C86_create_new_encrypted_wif", "C86_decrypt", "C86_encrypt", "C88_methods", "C89_ec", "C89_roundtrip", "C91_methods", "C91_passphrase", "C91_public_key_type", "C91_texts"]}
{"i": 234, "file": "wif.py", "fn": "decode_wif", "kind": "othervar", "old": "raw_without_prefix", "new": "wif", "line": 85, "status": "killed", "stage": 1, "fails": ["decode_wif_eq"], "examples": [], "theorems": ["C85_wif", "C85_wif_roundtrip", "C85_wif_unchecked", "C86_encrypt", "C88_methods", "C89_roundtrip", "C91_decode", "C91_methods", "C91_passphrase", "C91_texts"]}
{"i": 235, "file": "wif.py", "fn": "decode_wif", "kind": "const+1", "old": "4", "new": "5", "line": 85, "status": "killed", "stage": 1, "fails": ["decode_wif_eq"], "examples": [], "theorems": ["C85_wif", "C85_wif_roundtrip", "C85_wif_unchecked", "C86_encrypt", "C88_methods", "C89_roundtrip", "C91_decode", "C91_methods", "C91_passphrase", "C91_texts"]}
{"i": 236, "file": "utils.py", "fn": "get_bytes", "kind": "noraise", "old": "raise TypeError(\"Agreement must be either 'bytes' or 'string'!\")", "new": "pass", "line": 35, "status": "killed", "stage": 1, "fails": ["get_bytes_eq"], "examples": [], "theorems": ["C81_crypto", "C81_crypto_bytes", "C81_get_bytes", "C81_get_bytes_text", "C81_hex_roundtrip", "C83_fallback", "C85_address", "C85_address_roundtrip", "C85_wif", "C85_wif_roundtrip", "C85_wif_unchecked", "C86_confirm_code", "C86_create_new_encrypted_wif", "C86_decrypt", "C86_encrypt", "C86_intermediate_code", "C88_intermediate_code", "C88_methods", "C89_ec", "C89_roundtrip", "C91_create_type", "C91_intermediate_code", "C91_methods", "C91_numbers", "C91_passphrase", "C91_public_key_type", "C91_texts"]}
{"i": 237, "file": "wif.py", "fn": "wif_to_private_key", "kind": "othervar", "old": "wif", "new": "cryptocurrency", "line": 145, "status": "killed", "stage": 1, "fails": ["wif_to_private_key_eq"], "examples": [], "theorems": ["C85_wif", "C85_wif_roundtrip", "C85_wif_unchecked", "C86_encrypt", "C88_methods", "C89_roundtrip", "C91_methods", "C91_passphrase", "C91_texts"]}
{"i": 238, "file": "wif.py", "fn": "get_wif_type", "kind": "dropkw", "old": ", wif_prefix=cryptocurrency.NETWORKS[network][\"wif_prefix\"]", "new": "", "line": 167, "status": "killed", "stage": 1, "fails": ["get_wif_type_eq"], "examples": [], "theorems": ["C85_wif", "C85_wif_roundtrip", "C85_wif_unchecked", "C86_encrypt", "C88_methods", "C89_roundtrip", "C91_methods", "C91_passphrase", "C91_texts"]}
{"i": 239, "file": "wif.py", "fn": "private_key_to_wif", "kind": "compare", "old": "==", "new": "!=", "line": 124, "status": "killed", "stage": 1, "fails": ["private_key_to_wif_eq"], "examples": [], "theorems": ["C85_wif", "C85_wif_roundtrip", "C85_wif_unchecked", "C86_decrypt", "C88_methods", "C89_ec", "C89_roundtrip", "C91_methods", "C91_passphrase", "C91_texts"]}
{"i": 240, "file": "bip38.py", "fn": "BIP38.create_new_encrypted_wif", "kind": "unwrap", "old": "Error(\"Invalid EC encrypted WIF (Wallet Import Format)\")", "new": "(\"Invalid EC encrypted WIF (Wallet Import Format)\")", "line": 302, "status": "killed", "stage": 1, "fails": ["create_src"], "examples": [], "theorems": ["C86_create_new_encrypted_wif", "C88_methods", "C89_ec", "C91_methods", "C91_passphrase", "C91_texts"]}
{"i": 241, "file": "utils.py", "fn": "get_bytes", "kind": "othervar", "old": "data", "new": "unhexlify", "line": 31, "status": "killed", "stage": 1, "fails": ["get_bytes_eq"], "examples": [], "theorems": ["C81_crypto", "C81_crypto_bytes", "C81_get_bytes", "C81_get_bytes_text", "C81_hex_roundtrip", "C83_fallback", "C85_address", "C85_address_roundtrip", "C85_wif", "C85_wif_roundtrip", "C85_wif_unchecked", "C86_confirm_code", "C86_create_new_encrypted_wif", "C86_decrypt", "C86_encrypt", "C86_intermediate_code", "C88_intermediate_code", "C88_methods", "C89_ec", "C89_roundtrip", "C91_create_type", "C91_intermediate_code", "C91_methods", "C91_numbers", "C91_passphrase", "C91_public_key_type", "C91_texts"]}
{"i": 242, "file": "bip38.py", "fn": "BIP38.encrypt", "kind": "string", "old": "\"NFC\"", "new": "\"NFCx\"", "line": 207, "status": "killed", "stage": 1, "fails": ["encrypt_src"], "examples": [], "theorems": ["C86_encrypt", "C88_methods", "C89_roundtrip", "C91_methods", "C91_passphrase", "C91_texts"]}
{"i": 243, "file": "wif.py", "fn": "encode_wif", "kind": "unwrap", "old": "get_bytes(private_key)", "new": "(private_key)", "line": 48, "status": "killed", "stage": 1, "fails": ["encode_wif_eq"], "examples": [], "theorems": ["C85_wif", "C85_wif_roundtrip", "C85_wif_unchecked", "C86_decrypt", "C88_methods", "C89_ec", "C89_roundtrip", "C91_methods", "C91_passphrase", "C91_texts"]}
{"i": 244, "file": "secp256k1/point.py", "fn": "Point.from_bytes", "kind": "unwrap", "old": "bytes_to_integer(point[COORDINATE_POINT_LENGTH:])", "new": "(point[COORDINATE_POINT_LENGTH:])", "line": 57, "status": "killed", "stage": 1, "fails": ["Point_from_bytes_eq"], "examples": [], "theorems": ["C84_point"]}
{"i": 245, "file": "utils.py", "fn": "bytes_to_string", "kind": "unmethod", "old": "data.hex()", "new": "data", "line": 74, "status": "killed", "stage": 1, "fails": ["bytes_to_string_eq"], "examples": [], "theorems": ["C81_bytes_to_string", "C81_hex_roundtrip", "C85_address", "C85_address_roundtrip", "C85_wif", "C85_wif_roundtrip", "C85_wif_unchecked", "C86_confirm_code", "C86_create_new_encrypted_wif", "C86_decrypt", "C86_encrypt", "C86_intermediate_code", "C88_intermediate_code", "C88_methods", "C89_ec", "C89_roundtrip", "C91_decode", "C91_intermediate_code", "C91_methods", "C91_numbers", "C91_passphrase", "C91_texts"]}
{"i": 246, "file": "crypto.py", "fn": "sha256", "kind": "unwrap", "old": "get_bytes(data)", "new": "(data)", "line": 45, "status": "killed", "stage": 1, "fails": ["crypto_sha256_eq"], "examples": [], "theorems": ["C81_crypto", "C81_crypto_bytes", "C85_address", "C85_address_roundtrip", "C85_wif", "C85_wif_roundtrip", "C85_wif_unchecked", "C86_confirm_code", "C86_create_new_encrypted_wif", "C86_decrypt", "C86_encrypt", "C86_intermediate_code", "C88_intermediate_code", "C88_methods", "C89_ec", "C89_roundtrip", "C91_intermediate_code", "C91_methods", "C91_numbers", "C91_passphrase", "C91_public_key_type", "C91_texts"]}
{"i": 247, "file": "crypto.py", "fn": "ripemd160", "kind": "unwrap", "old": "get_bytes(data)", "new": "(data)", "line": 30, "status": "killed", "stage": 1, "fails": ["crypto_ripemd160_eq"], "examples": [], "theorems": ["C81_crypto", "C81_crypto_bytes", "C83_fallback", "C85_address", "C85_address_roundtrip", "C86_confirm_code", "C86_create_new_encrypted_wif", "C86_decrypt", "C86_encrypt", "C88_methods", "C89_ec", "C89_roundtrip", "C91_methods", "C91_passphrase", "C91_public_key_type", "C91_texts"]}
{"i": 248, "file": "libs/ripemd160.py", "fn": "fi", "kind": "const-1", "old": "3", "new": "2", "line": 68, "status": "killed", "stage": 1, "fails": ["fi_eq"], "examples": [], "theorems": ["C81_crypto", "C81_crypto_bytes", "C83_fallback", "C83_ripemd160", "C85_address", "C85_address_roundtrip", "C86_confirm_code", "C86_create_new_encrypted_wif", "C86_decrypt", "C86_encrypt", "C88_methods", "C89_ec", "C89_roundtrip", "C91_methods", "C91_passphrase", "C91_public_key_type", "C91_texts"]}
{"i": 249, "file": "bip38.py", "fn": "BIP38.encrypt", "kind": "compare", "old": "not in", "new": "in", "line": 183, "status": "killed", "stage": 1, "fails": ["encrypt_src"], "examples": [], "theorems": ["C86_encrypt", "C88_methods", "C89_roundtrip", "C91_methods", "C91_passphrase", "C91_texts"]}
{"i": 250, "file": "libs/ripemd160.py", "fn": "compress", "kind": "binop", "old": "+", "new": "-", "line": 97, "status": "killed", "stage": 1, "fails": ["compress_round"], "examples": [], "theorems": ["C81_crypto", "C81_crypto_bytes", "C83_fallback", "C83_ripemd160", "C85_address", "C85_address_roundtrip", "C86_confirm_code", "C86_create_new_encrypted_wif", "C86_decrypt", "C86_encrypt", "C88_methods", "C89_ec", "C89_roundtrip", "C91_methods", "C91_passphrase", "C91_public_key_type", "C91_texts"]}
{"i": 251, "file": "bip38.py", "fn": "BIP38.intermediate_code", "kind": "string", "old": "\"Invalid owner salt length for non lot/sequence\"", "new": "\"Invalid owner salt length for non lot/sequencex\"", "line": 126, "status": "killed", "stage": 1, "fails": ["intermediate_src"], "examples": [], "theorems": ["C86_intermediate_code", "C88_intermediate_code", "C89_ec", "C91_intermediate_code", "C91_passphrase"]}
{"i": 252, "file": "bip38.py", "fn": "BIP38.confirm_code", "kind": "noraise", "old": "raise PassphraseError(\"Incorrect passphrase\")", "new": "pass", "line": 448, "status": "killed", "stage": 1, "fails": ["confirm_try"], "examples": [], "theorems": ["C86_confirm_code", "C88_methods", "C89_ec", "C91_methods", "C91_passphrase", "C91_texts"]}
{"i": 253, "file": "bip38.py", "fn": "BIP38.encrypt", "kind": "dropbound", "old": "16", "new": "", "line": 212, "status": "killed", "stage": 1, "fails": ["encrypt_src"], "examples": [], "theorems": ["C86_encrypt", "C88_methods", "C89_roundtrip", "C91_methods", "C91_passphrase", "C91_texts"]}
{"i": 254, "file": "p2pkh_address.py", "fn": "P2PKHAddress.encode", "kind": "othervar", "old": "public_key", "new": "public_key_hash", "line": 53, "status": "killed", "stage": 1, "fails": ["p2pkh_tail"], "examples": [], "theorems": ["C85_address", "C85_address_roundtrip", "C86_confirm_code", "C86_create_new_encrypted_wif", "C86_decrypt", "C86_encrypt", "C88_methods", "C89_ec", "C89_roundtrip", "C91_methods", "C91_passphrase", "C91_texts"]}
{"i": 255, "file": "secp256k1/point.py", "fn": "Point.raw_encoded", "kind": "const-1", "old": "1", "new": "0", "line": 134, "status": "killed", "stage": 1, "fails": ["Point_raw_encoded_eq"], "examples": [], "theorems": ["C84_point"]}
{"i": 256, "file": "bip38.py", "fn": "BIP38.create_new_encrypted_wif", "kind": "const+1", "old": "16", "new": "17", "line": 315, "status": "killed", "stage": 1, "fails": ["create_src"], "examples": [], "theorems": ["C86_create_new_encrypted_wif", "C88_methods", "C89_ec", "C91_methods", "C91_passphrase", "C91_texts"]}
{"i": 257, "file": "exceptions.py", "fn": "Error.__init__", "kind": "swap", "old": "expected, list", "new": "list, expected", "line": 21, "status": "killed", "stage": 1, "fails": ["Error_init_eq"], "examples": [], "theorems": ["C81_error_text", "C84_key_methods", "C84_point", "C84_private_key", "C84_public_key", "C85_address", "C85_address_roundtrip", "C85_wif", "C85_wif_roundtrip", "C85_wif_unchecked", "C86_confirm_code", "C86_constructor", "C86_create_new_encrypted_wif", "C86_decrypt", "C86_encrypt", "C86_intermediate_code", "C88_constructor", "C88_intermediate_code", "C88_methods", "C89_ec", "C89_roundtrip", "C91_constructor", "C91_create_type", "C91_decode", "C91_intermediate_code", "C91_methods", "C91_network", "C91_numbers", "C91_passphrase", "C91_public_key_type", "C91_texts", "C91_wif_type"]}
{"i": 258, "file": "wif.py", "fn": "decode_wif", "kind": "const+1", "old": "33", "new": "34", "line": 90, "status": "killed", "stage": 1, "fails": ["decode_wif_eq"], "examples": [], "theorems": ["C85_wif", "C85_wif_roundtrip", "C85_wif_unchecked", "C86_encrypt", "C88_methods", "C89_roundtrip", "C91_decode", "C91_methods", "C91_passphrase", "C91_texts"]}
{"i": 259, "file": "libs/base58.py", "fn": "decode", "kind": "othervar", "old": "val", "new": "alphabet", "line": 59, "status": "killed", "stage": 1, "fails": ["dec_loop2"], "examples": [], "theorems": ["C82_decode", "C82_read", "C82_roundtrip", "C85_address", "C85_address_roundtrip", "C85_wif", "C85_wif_roundtrip", "C85_wif_unchecked", "C86_confirm_code", "C86_create_new_encrypted_wif", "C86_decrypt", "C86_encrypt", "C88_methods", "C89_ec", "C89_roundtrip", "C91_create_type", "C91_decode", "C91_methods", "C91_passphrase", "C91_texts"]}
{"i": 260, "file": "secp256k1/private_key.py", "fn": "PrivateKey.raw", "kind": "unmethod", "old": "self.signing_key.to_string()", "new": "self.signing_key", "line": 82, "status": "killed", "stage": 1, "fails": ["PrivateKey_raw_eq"], "examples": [], "theorems": ["C84_private_key"]}
{"i": 261, "file": "bip38.py", "fn": "BIP38.encrypt", "kind": "const+1", "old": "32", "new": "33", "line": 208, "status": "killed", "stage": 1, "fails": ["encrypt_src"], "examples": [], "theorems": ["C86_encrypt", "C88_methods", "C89_roundtrip", "C91_methods", "C91_passphrase", "C91_texts"]}
{"i": 262, "file": "secp256k1/point.py", "fn": "Point.from_bytes", "kind": "othervar", "old": "point", "new": "cls", "line": 49, "status": "untranslatable", "note": "gen_src: unknown name cls at line 49: Name(id='cls', ctx=Load())"}
{"i": 263, "file": "bip38.py", "fn": "BIP38.confirm_code", "kind": "string", "old": "\"Invalid confirmation code\"", "new": "\"Invalid confirmation codex\"", "line": 394, "status": "killed", "stage": 1, "fails": ["confirm_obj"], "examples": [], "theorems": ["C86_confirm_code", "C88_methods", "C89_ec", "C91_methods", "C91_passphrase", "C91_texts"]}
{"i": 264, "file": "bip38.py", "fn": "BIP38.decrypt", "kind": "bool", "old": "False", "new": "True", "line": 555, "status": "killed", "stage": 1, "fails": ["decrypt_noEc_tail"], "examples": [], "theorems": ["C86_decrypt", "C88_methods", "C89_ec", "C89_roundtrip", "C91_methods", "C91_passphrase", "C91_texts"]}
{"i": 265, "file": "secp256k1/point.py", "fn": "Point.raw_encoded", "kind": "binop", "old": "+", "new": "-", "line": 134, "status": "killed", "stage": 1, "fails": ["Point_raw_encoded_eq"], "examples": [], "theorems": ["C84_point"]}
{"i": 266, "file": "wif.py", "fn": "private_key_to_wif", "kind": "othervar", "old": "wif_type", "new": "private_key", "line": 120, "status": "killed", "stage": 1, "fails": ["private_key_to_wif_eq"], "examples": [], "theorems": ["C85_wif", "C85_wif_roundtrip", "C85_wif_unchecked", "C86_decrypt", "C88_methods", "C89_ec", "C89_roundtrip", "C91_methods", "C91_passphrase", "C91_texts"]}
{"i": 267, "file": "bip38.py", "fn": "BIP38.decrypt", "kind": "noraise", "old": "raise Error(\"Invalid EC encrypted WIF (Wallet Import Format)\")", "new": "pass", "line": 591, "status": "killed", "stage": 1, "fails": ["decrypt_ec_block"], "examples": [], "theorems": ["C86_decrypt", "C88_methods", "C89_ec", "C89_roundtrip", "C91_methods", "C91_passphrase", "C91_texts"]}
{"i": 268, "file": "libs/ripemd160.py", "fn": "compress", "kind": "othervar", "old": "al", "new": "i", "line": 95, "status": "killed", "stage": 1, "fails": ["compress_round"], "examples": [], "theorems": ["C81_crypto", "C81_crypto_bytes", "C83_fallback", "C83_ripemd160", "C85_address", "C85_address_roundtrip", "C86_confirm_code", "C86_create_new_encrypted_wif", "C86_decrypt", "C86_encrypt", "C88_methods", "C89_ec", "C89_roundtrip", "C91_methods", "C91_passphrase", "C91_public_key_type", "C91_texts"]}
{"i": 269, "file": "wif.py", "fn": "decode_wif", "kind": "noraise", "old": "raise WIFError(f\"Invalid Wallet Import Format (WIF)\")", "new": "pass", "line": 89, "status": "killed", "stage": 1, "fails": ["decode_wif_eq"], "examples": [], "theorems": ["C85_wif", "C85_wif_roundtrip", "C85_wif_unchecked", "C86_encrypt", "C88_methods", "C89_roundtrip", "C91_decode", "C91_methods", "C91_passphrase", "C91_texts"]}
{"i": 270, "file": "secp256k1/public_key.py", "fn": "PublicKey.point", "kind": "unwrap", "old": "Point(self.verify_key.pubkey.point)", "new": "(self.verify_key.pubkey.point)", "line": 150, "status": "killed", "stage": 1, "fails": ["PublicKey_point_eq"], "examples": [], "theorems": []}
{"i": 271, "file": "p2pkh_address.py", "fn": "P2PKHAddress.encode", "kind": "binop", "old": "+", "new": "-", "line": 59, "status": "killed", "stage": 1, "fails": ["p2pkh_tail"], "examples": [], "theorems": ["C85_address", "C85_address_roundtrip", "C86_confirm_code", "C86_create_new_encrypted_wif", "C86_decrypt", "C86_encrypt", "C88_methods", "C89_ec", "C89_roundtrip", "C91_methods", "C91_passphrase", "C91_texts"]}
{"i": 272, "file": "libs/base58.py", "fn": "decode", "kind": "unwrap", "old": "bytearray(prefix)", "new": "(prefix)", "line": 63, "status": "killed", "stage": 1, "fails": ["decode_eq"], "examples": [], "theorems": ["C82_decode", "C82_read", "C82_roundtrip", "C85_address", "C85_address_roundtrip", "C85_wif", "C85_wif_roundtrip", "C85_wif_unchecked", "C86_confirm_code", "C86_create_new_encrypted_wif", "C86_decrypt", "C86_encrypt", "C88_methods", "C89_ec", "C89_roundtrip", "C91_create_type", "C91_decode", "C91_methods", "C91_passphrase", "C91_texts"]}
{"i": 273, "file": "libs/ripemd160.py", "fn": "rol", "kind": "const-1", "old": "0xffffffff", "new": "4294967294", "line": 78, "status": "killed", "stage": 1, "fails": ["rol_eq"], "examples": [], "theorems": ["C81_crypto", "C81_crypto_bytes", "C83_fallback", "C83_ripemd160", "C85_address", "C85_address_roundtrip", "C86_confirm_code", "C86_create_new_encrypted_wif", "C86_decrypt", "C86_encrypt", "C88_methods", "C89_ec", "C89_roundtrip", "C91_methods", "C91_passphrase", "C91_public_key_type", "C91_texts"]}
{"i": 274, "file": "wif.py", "fn": "decode_wif", "kind": "compare", "old": "==", "new": "!=", "line": 90, "status": "killed", "stage": 1, "fails": ["decode_wif_eq"], "examples": [], "theorems": ["C85_wif", "C85_wif_roundtrip", "C85_wif_unchecked", "C86_encrypt", "C88_methods", "C89_roundtrip", "C91_decode", "C91_methods", "C91_passphrase", "C91_texts"]}
{"i": 275, "file": "bip38.py", "fn": "BIP38.decrypt", "kind": "negate", "old": "get_checksum(get_bytes(address, unhexlify=False)) == address_hash", "new": "(not (get_checksum(get_bytes(address, unhexlify=False)) == address_hash))", "line": 630, "status": "killed", "stage": 1, "fails": ["decrypt_ec_block"], "examples": [], "theorems": ["C86_decrypt", "C88_methods", "C89_ec", "C89_roundtrip", "C91_methods", "C91_passphrase", "C91_texts"]}
{"i": 276, "file": "utils.py", "fn": "integer_to_bytes", "kind": "negate", "old": "data > 0", "new": "(not (data > 0))", "line": 114, "status": "killed", "stage": 1, "fails": ["integer_to_bytes_eq"], "examples": [], "theorems": ["C81_integer_roundtrip", "C81_integer_to_bytes", "C84_point", "C85_address", "C85_address_roundtrip", "C85_wif", "C85_wif_roundtrip", "C85_wif_unchecked", "C86_confirm_code", "C86_create_new_encrypted_wif", "C86_decrypt", "C86_encrypt", "C86_intermediate_code", "C88_intermediate_code", "C88_methods", "C89_ec", "C89_roundtrip", "C91_decode", "C91_intermediate_code", "C91_methods", "C91_numbers", "C91_passphrase", "C91_public_key_type", "C91_texts"]}
{"i": 277, "file": "libs/base58.py", "fn": "check_encode", "kind": "binop", "old": "+", "new": "-", "line": 44, "status": "killed", "stage": 1, "fails": ["check_encode_eq"], "examples": [], "theorems": ["C82_encode", "C82_read", "C82_roundtrip", "C85_address", "C85_address_roundtrip", "C86_confirm_code", "C86_create_new_encrypted_wif", "C86_decrypt", "C86_encrypt", "C86_intermediate_code", "C88_intermediate_code", "C88_methods", "C89_ec", "C89_roundtrip", "C91_intermediate_code", "C91_methods", "C91_numbers", "C91_passphrase", "C91_public_key_type", "C91_texts"]}
{"i": 278, "file": "bip38.py", "fn": "BIP38.confirm_code", "kind": "unwrap", "old": "bytes_to_string(public_key.raw(public_key_type=public_key_type))", "new": "(public_key.raw(public_key_type=public_key_type))", "line": 463, "status": "killed", "stage": 1, "fails": ["confirm_detail"], "examples": [], "theorems": ["C86_confirm_code", "C88_methods", "C89_ec", "C91_methods", "C91_passphrase", "C91_texts"]}
{"i": 279, "file": "libs/ripemd160.py", "fn": "fi", "kind": "binop", "old": "^", "new": "|", "line": 63, "status": "killed", "stage": 1, "fails": ["fi_eq"], "examples": [], "theorems": ["C81_crypto", "C81_crypto_bytes", "C83_fallback", "C83_ripemd160", "C85_address", "C85_address_roundtrip", "C86_confirm_code", "C86_create_new_encrypted_wif", "C86_decrypt", "C86_encrypt", "C88_methods", "C89_ec", "C89_roundtrip", "C91_methods", "C91_passphrase", "C91_public_key_type", "C91_texts"]}
{"i": 280, "file": "bip38.py", "fn": "BIP38.decrypt", "kind": "compare", "old": "==", "new": "!=", "line": 521, "status": "killed", "stage": 1, "fails": ["decrypt_noEc_block"], "examples": [], "theorems": ["C86_decrypt", "C88_methods", "C89_ec", "C89_roundtrip", "C91_methods", "C91_passphrase", "C91_texts"]}
{"i": 281, "file": "p2pkh_address.py", "fn": "P2PKHAddress.decode", "kind": "othervar", "old": "address_prefix", "new": "address_decode", "line": 94, "status": "killed", "stage": 1, "fails": ["p2pkh_decode_eq"], "examples": [], "theorems": ["C85_address", "C85_address_roundtrip", "C91_decode"]}
{"i": 282, "file": "libs/ripemd160.py", "fn": "rol", "kind": "binop", "old": "|", "new": "&", "line": 78, "status": "killed", "stage": 1, "fails": ["rol_eq"], "examples": [], "theorems": ["C81_crypto", "C81_crypto_bytes", "C83_fallback", "C83_ripemd160", "C85_address", "C85_address_roundtrip", "C86_confirm_code", "C86_create_new_encrypted_wif", "C86_decrypt", "C86_encrypt", "C88_methods", "C89_ec", "C89_roundtrip", "C91_methods", "C91_passphrase", "C91_public_key_type", "C91_texts"]}
{"i": 283, "file": "wif.py", "fn": "encode_wif", "kind": "othervar", "old": "private_key", "new": "wif_prefix", "line": 45, "status": "killed", "stage": 1, "fails": ["encode_wif_eq"], "examples": [], "theorems": ["C85_wif", "C85_wif_roundtrip", "C85_wif_unchecked", "C86_decrypt", "C88_methods", "C89_ec", "C89_roundtrip", "C91_methods", "C91_passphrase", "C91_texts"]}
{"i": 284, "file": "bip38.py", "fn": "BIP38.decrypt", "kind": "othervar", "old": "sequence", "new": "public_key_type", "line": 649, "status": "killed", "stage": 1, "fails": ["decrypt_detail"], "examples": [], "theorems": ["C86_decrypt", "C88_methods", "C89_ec", "C89_roundtrip", "C91_methods", "C91_passphrase", "C91_texts"]}
{"i": 285, "file": "bip38.py", "fn": "BIP38.decrypt", "kind": "othervar", "old": "pre_public_key", "new": "encrypted_half_1_half_1", "line": 595, "status": "killed", "stage": 1, "fails": ["decrypt_ec_block"], "examples": [], "theorems": ["C86_decrypt", "C88_methods", "C89_ec", "C89_roundtrip", "C91_methods", "C91_passphrase", "C91_texts"]}
{"i": 286, "file": "libs/ripemd160.py", "fn": "rol", "kind": "const+1", "old": "32", "new": "33", "line": 78, "status": "killed", "stage": 1, "fails": ["rol_eq"], "examples": [], "theorems": ["C81_crypto", "C81_crypto_bytes", "C83_fallback", "C83_ripemd160", "C85_address", "C85_address_roundtrip", "C86_confirm_code", "C86_create_new_encrypted_wif", "C86_decrypt", "C86_encrypt", "C88_methods", "C89_ec", "C89_roundtrip", "C91_methods", "C91_passphrase", "C91_public_key_type", "C91_texts"]}
{"i": 287, "file": "bip38.py", "fn": "BIP38.create_new_encrypted_wif", "kind": "const-1", "old": "16", "new": "15", "line": 322, "status": "killed", "stage": 1, "fails": ["create_src"], "examples": [], "theorems": ["C86_create_new_encrypted_wif", "C88_methods", "C89_ec", "C91_methods", "C91_passphrase", "C91_texts"]}
{"i": 288, "file": "libs/ripemd160.py", "fn": "ripemd160", "kind": "const+1", "old": "0xc3d2e1f0", "new": "3285377521", "line": 107, "status": "killed", "stage": 1, "fails": ["ripemd160_eq"], "examples": [], "theorems": ["C81_crypto", "C81_crypto_bytes", "C83_fallback", "C83_ripemd160", "C85_address", "C85_address_roundtrip", "C86_confirm_code", "C86_create_new_encrypted_wif", "C86_decrypt", "C86_encrypt", "C88_methods", "C89_ec", "C89_roundtrip", "C91_methods", "C91_passphrase", "C91_public_key_type", "C91_texts"]}
{"i": 289, "file": "secp256k1/point.py", "fn": "Point.raw_encoded", "kind": "unmethod", "old": "self.point.y()", "new": "self.point", "line": 134, "status": "killed", "stage": 1, "fails": ["Point_raw_encoded_eq"], "examples": [], "theorems": ["C84_point"]}
{"i": 290, "file": "bip38.py", "fn": "BIP38.encrypt", "kind": "dropbound", "old": "16", "new": "", "line": 215, "status": "killed", "stage": 1, "fails": ["encrypt_src"], "examples": [], "theorems": ["C86_encrypt", "C88_methods", "C89_roundtrip", "C91_methods", "C91_passphrase", "C91_texts"]}
{"i": 291, "file": "bip38.py", "fn": "BIP38.encrypt", "kind": "noraise", "old": "raise NetworkError(\"Wrong network type\", expected=self.networks, got=type(network))", "new": "pass", "line": 184, "status": "killed", "stage": 1, "fails": ["encrypt_src"], "examples": [], "theorems": ["C86_encrypt", "C88_methods", "C89_roundtrip", "C91_methods", "C91_passphrase", "C91_texts"]}
{"i": 292, "file": "utils.py", "fn": "get_bytes", "kind": "othervar", "old": "data", "new": "unhexlify", "line": 33, "status": "killed", "stage": 1, "fails": ["get_bytes_eq"], "examples": [], "theorems": ["C81_crypto", "C81_crypto_bytes", "C81_get_bytes", "C81_get_bytes_text", "C81_hex_roundtrip", "C83_fallback", "C85_address", "C85_address_roundtrip", "C85_wif", "C85_wif_roundtrip", "C85_wif_unchecked", "C86_confirm_code", "C86_create_new_encrypted_wif", "C86_decrypt", "C86_encrypt", "C86_intermediate_code", "C88_intermediate_code", "C88_methods", "C89_ec", "C89_roundtrip", "C91_create_type", "C91_intermediate_code", "C91_methods", "C91_numbers", "C91_passphrase", "C91_public_key_type", "C91_texts"]}
{"i": 293, "file": "bip38.py", "fn": "BIP38.create_new_encrypted_wif", "kind": "binop", "old": "+", "new": "-", "line": 343, "status": "killed", "stage": 1, "fails": ["create_src"], "examples": [], "theorems": ["C86_create_new_encrypted_wif", "C88_methods", "C89_ec", "C91_methods", "C91_passphrase", "C91_texts"]}
{"i": 294, "file": "utils.py", "fn": "integer_to_bytes", "kind": "binop", "old": "+", "new": "-", "line": 114, "status": "killed", "stage": 1, "fails": ["integer_to_bytes_eq"], "examples": [], "theorems": ["C81_integer_roundtrip", "C81_integer_to_bytes", "C84_point", "C85_address", "C85_address_roundtrip", "C85_wif", "C85_wif_roundtrip", "C85_wif_unchecked", "C86_confirm_code", "C86_create_new_encrypted_wif", "C86_decrypt", "C86_encrypt", "C86_intermediate_code", "C88_intermediate_code", "C88_methods", "C89_ec", "C89_roundtrip", "C91_decode", "C91_intermediate_code", "C91_methods", "C91_numbers", "C91_passphrase", "C91_public_key_type", "C91_texts"]}
{"i": 295, "file": "bip38.py", "fn": "BIP38.encrypt", "kind": "negate", "old": "network", "new": "(not (network))", "line": 181, "status": "killed", "stage": 1, "fails": ["encrypt_src"], "examples": [], "theorems": ["C86_encrypt", "C88_methods", "C89_roundtrip", "C91_methods", "C91_passphrase", "C91_texts"]}
{"i": 296, "file": "secp256k1/point.py", "fn": "Point.raw_decoded", "kind": "othervar", "old": "x", "new": "y", "line": 153, "status": "killed", "stage": 1, "fails": ["Point_raw_decoded_eq"], "examples": [], "theorems": ["C84_point"]}
{"i": 297, "file": "bip38.py", "fn": "BIP38.create_new_encrypted_wif", "kind": "const-1", "old": "24", "new": "23", "line": 263, "status": "killed", "stage": 1, "fails": ["create_src"], "examples": [], "theorems": ["C86_create_new_encrypted_wif", "C88_methods", "C89_ec", "C91_methods", "C91_passphrase", "C91_texts"]}
{"i": 298, "file": "libs/ripemd160.py", "fn": "ripemd160", "kind": "unwrap", "old": "len(data)", "new": "(data)", "line": 114, "status": "killed", "stage": 1, "fails": ["ripemd160_eq"], "examples": [], "theorems": ["C81_crypto", "C81_crypto_bytes", "C83_fallback", "C83_ripemd160", "C85_address", "C85_address_roundtrip", "C86_confirm_code", "C86_create_new_encrypted_wif", "C86_decrypt", "C86_encrypt", "C88_methods", "C89_ec", "C89_roundtrip", "C91_methods", "C91_passphrase", "C91_public_key_type", "C91_texts"]}
{"i": 299, "file": "utils.py", "fn": "integer_to_bytes", "kind": "bool", "old": "False", "new": "True", "line": 96, "status": "killed", "stage": 1, "fails": ["integer_to_bytes_default", "integer_to_bytes_length"], "examples": [], "theorems": ["C81_integer_roundtrip", "C81_integer_to_bytes", "C85_address", "C85_address_roundtrip", "C85_wif", "C85_wif_roundtrip", "C85_wif_unchecked", "C86_confirm_code", "C86_create_new_encrypted_wif", "C86_decrypt", "C86_encrypt", "C86_intermediate_code", "C88_intermediate_code", "C88_methods", "C89_ec", "C89_roundtrip", "C91_decode", "C91_intermediate_code", "C91_methods", "C91_numbers", "C91_passphrase", "C91_public_key_type", "C91_texts"]}
{"i": 300, "file": "bip38.py", "fn": "BIP38.decrypt", "kind": "othervar", "old": "derived_half_1", "new": "encrypted_half_1", "line": 544, "status": "killed", "stage": 1, "fails": ["decrypt_noEc_tail"], "examples": [], "theorems": ["C86_decrypt", "C88_methods", "C89_ec", "C89_roundtrip", "C91_methods", "C91_passphrase", "C91_texts"]}
{"i": 301, "file": "libs/base58.py", "fn": "encode", "kind": "swap", "old": "val, len(alphabet)", "new": "len(alphabet), val", "line": 33, "status": "killed", "stage": 1, "fails": ["enc_loop"], "examples": [], "theorems": ["C82_encode", "C82_read", "C82_roundtrip", "C85_address", "C85_address_roundtrip", "C85_wif", "C85_wif_roundtrip", "C85_wif_unchecked", "C86_confirm_code", "C86_create_new_encrypted_wif", "C86_decrypt", "C86_encrypt", "C86_intermediate_code", "C88_intermediate_code", "C88_methods", "C89_ec", "C89_roundtrip", "C91_intermediate_code", "C91_methods", "C91_numbers", "C91_passphrase", "C91_public_key_type", "C91_texts"]}
{"i": 302, "file": "wif.py", "fn": "get_wif_checksum", "kind": "string", "old": "\"mainnet\"", "new": "\"mainnetx\"", "line": 172, "status": "killed", "stage": 2, "fails": ["C87_wif"], "examples": [], "theorems": ["C87_wif"]}
{"i": 303, "file": "secp256k1/public_key.py", "fn": "PublicKey.from_point", "kind": "unwrap", "old": "cls(\n                VerifyingKey.from_public_point(\n                    ellipticcurve.Point(\n                        curve_secp256k1, point.x(), point.y()\n                    ),\n                    curve=curves.SECP256k1\n                )\n            )", "new": "(VerifyingKey.from_public_point(\n                    ellipticcurve.Point(\n                        curve_secp256k1, point.x(), point.y()\n                    ),\n                    curve=curves.SECP256k1\n                ))", "line": 69, "status": "killed", "stage": 1, "fails": ["PublicKey_from_point_eq"], "examples": [], "theorems": ["C84_key_methods", "C86_confirm_code", "C86_create_new_encrypted_wif", "C88_methods", "C89_ec", "C91_methods", "C91_passphrase", "C91_texts"]}
{"i": 304, "file": "libs/base58.py", "fn": "check_encode", "kind": "othervar", "old": "chk", "new": "raw", "line": 44, "status": "killed", "stage": 1, "fails": ["check_encode_eq"], "examples": [], "theorems": ["C82_encode", "C82_read", "C82_roundtrip", "C85_address", "C85_address_roundtrip", "C86_confirm_code", "C86_create_new_encrypted_wif", "C86_decrypt", "C86_encrypt", "C86_intermediate_code", "C88_intermediate_code", "C88_methods", "C89_ec", "C89_roundtrip", "C91_intermediate_code", "C91_methods", "C91_numbers", "C91_passphrase", "C91_public_key_type", "C91_texts"]}
{"i": 305, "file": "libs/ripemd160.py", "fn": "fi", "kind": "binop", "old": "|", "new": "&", "line": 71, "status": "killed", "stage": 1, "fails": ["fi_eq"], "examples": [], "theorems": ["C81_crypto", "C81_crypto_bytes", "C83_fallback", "C83_ripemd160", "C85_address", "C85_address_roundtrip", "C86_confirm_code", "C86_create_new_encrypted_wif", "C86_decrypt", "C86_encrypt", "C88_methods", "C89_ec", "C89_roundtrip", "C91_methods", "C91_passphrase", "C91_public_key_type", "C91_texts"]}
{"i": 306, "file": "bip38.py", "fn": "BIP38.confirm_code", "kind": "dropbound", "old": "6", "new": "", "line": 404, "status": "killed", "stage": 1, "fails": ["confirm_obj"], "examples": [], "theorems": ["C86_confirm_code", "C88_methods", "C89_ec", "C91_methods", "C91_passphrase", "C91_texts"]}
{"i": 307, "file": "secp256k1/public_key.py", "fn": "PublicKey.raw_uncompressed", "kind": "string", "old": "\"uncompressed\"", "new": "\"uncompressedx\"", "line": 140, "status": "killed", "stage": 1, "fails": ["PublicKey_raw_uncompressed_eq"], "examples": [], "theorems": ["C84_key_methods", "C84_private_key", "C86_confirm_code", "C86_create_new_encrypted_wif", "C86_decrypt", "C88_methods", "C89_ec", "C89_roundtrip", "C91_methods", "C91_passphrase", "C91_texts"]}
{"i": 308, "file": "secp256k1/point.py", "fn": "Point.y", "kind": "unmethod", "old": "self.point.y()", "new": "self.point", "line": 108, "status": "killed", "stage": 1, "fails": ["Point_y_eq", "PublicKey_from_point_eq"], "examples": [], "theorems": ["C84_key_methods", "C84_point", "C86_confirm_code", "C86_create_new_encrypted_wif", "C88_methods", "C89_ec", "C91_methods", "C91_passphrase", "C91_texts"]}
{"i": 309, "file": "bip38.py", "fn": "BIP38.confirm_code", "kind": "dropkw", "old": ", expected=prefix_length", "new": "", "line": 401, "status": "killed", "stage": 1, "fails": ["confirm_obj", "confirm_src"], "examples": [], "theorems": ["C86_confirm_code", "C88_methods", "C89_ec", "C91_methods", "C91_passphrase", "C91_texts"]}
{"i": 310, "file": "secp256k1/point.py", "fn": "Point.__radd__", "kind": "binop", "old": "+", "new": "-", "line": 179, "status": "killed", "stage": 1, "fails": ["Point_radd_eq"], "examples": [], "theorems": []}
{"i": 311, "file": "exceptions.py", "fn": "Error.__init__", "kind": "othervar", "old": "expected", "new": "message", "line": 21, "status": "killed", "stage": 1, "fails": ["Error_init_eq"], "examples": [], "theorems": ["C81_error_text", "C84_key_methods", "C84_point", "C84_private_key", "C84_public_key", "C85_address", "C85_address_roundtrip", "C85_wif", "C85_wif_roundtrip", "C85_wif_unchecked", "C86_confirm_code", "C86_constructor", "C86_create_new_encrypted_wif", "C86_decrypt", "C86_encrypt", "C86_intermediate_code", "C88_constructor", "C88_intermediate_code", "C88_methods", "C89_ec", "C89_roundtrip", "C91_constructor", "C91_create_type", "C91_decode", "C91_intermediate_code", "C91_methods", "C91_network", "C91_numbers", "C91_passphrase", "C91_public_key_type", "C91_texts", "C91_wif_type"]}
{"i": 312, "file": "wif.py", "fn": "get_wif_type", "kind": "const-1", "old": "1", "new": "0", "line": 168, "status": "killed", "stage": 1, "fails": ["get_wif_type_eq"], "examples": [], "theorems": ["C85_wif", "C85_wif_roundtrip", "C85_wif_unchecked", "C86_encrypt", "C88_methods", "C89_roundtrip", "C91_methods", "C91_passphrase", "C91_texts"]}
{"i": 313, "file": "wif.py", "fn": "decode_wif", "kind": "dropkw", "old": ", got=prefix_got", "new": "", "line": 81, "status": "survived"}
{"i": 314, "file": "libs/ripemd160.py", "fn": "fi", "kind": "const+1", "old": "0", "new": "1", "line": 62, "status": "killed", "stage": 1, "fails": ["fi_eq"], "examples": [], "theorems": ["C81_crypto", "C81_crypto_bytes", "C83_fallback", "C83_ripemd160", "C85_address", "C85_address_roundtrip", "C86_confirm_code", "C86_create_new_encrypted_wif", "C86_decrypt", "C86_encrypt", "C88_methods", "C89_ec", "C89_roundtrip", "C91_methods", "C91_passphrase", "C91_public_key_type", "C91_texts"]}
{"i": 315, "file": "wif.py", "fn": "get_wif_checksum", "kind": "othervar", "old": "network", "new": "cryptocurrency", "line": 189, "status": "killed", "stage": 1, "fails": ["get_wif_checksum_eq"], "examples": [], "theorems": ["C85_wif", "C85_wif_roundtrip", "C85_wif_unchecked", "C89_roundtrip"]}
{"i": 316, "file": "bip38.py", "fn": "BIP38.intermediate_code", "kind": "const+1", "old": "4", "new": "5", "line": 138, "status": "killed", "stage": 1, "fails": ["intermediate_src"], "examples": [], "theorems": ["C86_intermediate_code", "C88_intermediate_code", "C89_ec", "C91_intermediate_code", "C91_passphrase"]}
{"i": 317, "file": "p2pkh_address.py", "fn": "P2PKHAddress.decode", "kind": "binop", "old": "+", "new": "-", "line": 89, "status": "killed", "stage": 1, "fails": ["p2pkh_decode_eq"], "examples": [], "theorems": ["C85_address", "C85_address_roundtrip", "C91_decode"]}
{"i": 318, "file": "libs/base58.py", "fn": "ensure_string", "kind": "swap", "old": "data, six.binary_type", "new": "six.binary_type, data", "line": 22, "status": "killed", "stage": 1, "fails": ["ensure_string_eq"], "examples": [], "theorems": ["C82_decode", "C82_read", "C82_roundtrip"]}
{"i": 319, "file": "bip38.py", "fn": "BIP38.confirm_code", "kind": "binop", "old": "^", "new": "|", "line": 434, "status": "killed", "stage": 1, "fails": ["confirm_obj"], "examples": [], "theorems": ["C86_confirm_code", "C88_methods", "C89_ec", "C91_methods", "C91_passphrase", "C91_texts"]}
{"i": 320, "file": "bip38.py", "fn": "BIP38.intermediate_code", "kind": "binop", "old": "+", "new": "-", "line": 139, "status": "killed", "stage": 1, "fails": ["intermediate_src"], "examples": [], "theorems": ["C86_intermediate_code", "C88_intermediate_code", "C89_ec", "C91_intermediate_code", "C91_passphrase"]}
{"i": 321, "file": "libs/ripemd160.py", "fn": "fi", "kind": "compare", "old": "==", "new": "!=", "line": 64, "status": "killed", "stage": 1, "fails": ["fi_eq"], "examples": [], "theorems": ["C81_crypto", "C81_crypto_bytes", "C83_fallback", "C83_ripemd160", "C85_address", "C85_address_roundtrip", "C86_confirm_code", "C86_create_new_encrypted_wif", "C86_decrypt", "C86_encrypt", "C88_methods", "C89_ec", "C89_roundtrip", "C91_methods", "C91_passphrase", "C91_public_key_type", "C91_texts"]}
{"i": 322, "file": "bip38.py", "fn": "BIP38.confirm_code", "kind": "binop", "old": "^", "new": "|", "line": 428, "status": "killed", "stage": 1, "fails": ["confirm_obj"], "examples": [], "theorems": ["C86_confirm_code", "C88_methods", "C89_ec", "C91_methods", "C91_passphrase", "C91_texts"]}
{"i": 323, "file": "libs/ripemd160.py", "fn": "fi", "kind": "bool", "old": "False", "new": "True", "line": 73, "status": "survived"}
{"i": 324, "file": "p2pkh_address.py", "fn": "P2PKHAddress.encode", "kind": "negate", "old": "not isinstance(public_key, PublicKey)", "new": "(not (not isinstance(public_key, PublicKey)))", "line": 49, "status": "killed", "stage": 1, "fails": ["p2pkh_encode_eq"], "examples": [], "theorems": ["C85_address", "C85_address_roundtrip", "C86_confirm_code", "C86_create_new_encrypted_wif", "C86_decrypt", "C86_encrypt", "C88_methods", "C89_ec", "C89_roundtrip", "C91_methods", "C91_passphrase", "C91_texts"]}
{"i": 325, "file": "bip38.py", "fn": "BIP38.intermediate_code", "kind": "const-1", "old": "4", "new": "3", "line": 138, "status": "killed", "stage": 1, "fails": ["intermediate_src"], "examples": [], "theorems": ["C86_intermediate_code", "C88_intermediate_code", "C89_ec", "C91_intermediate_code", "C91_passphrase"]}
{"i": 326, "file": "utils.py", "fn": "bytes_to_string", "kind": "negate", "old": "not isinstance(data, bytes)", "new": "(not (not isinstance(data, bytes)))", "line": 72, "status": "killed", "stage": 1, "fails": ["bytes_to_string_eq"], "examples": [], "theorems": ["C81_bytes_to_string", "C81_hex_roundtrip", "C85_address", "C85_address_roundtrip", "C85_wif", "C85_wif_roundtrip", "C85_wif_unchecked", "C86_confirm_code", "C86_create_new_encrypted_wif", "C86_decrypt", "C86_encrypt", "C86_intermediate_code", "C88_intermediate_code", "C88_methods", "C89_ec", "C89_roundtrip", "C91_decode", "C91_intermediate_code", "C91_methods", "C91_numbers", "C91_passphrase", "C91_texts"]}
{"i": 327, "file": "bip38.py", "fn": "BIP38.create_new_encrypted_wif", "kind": "const+1", "old": "17", "new": "18", "line": 334, "status": "killed", "stage": 1, "fails": ["create_src"], "examples": [], "theorems": ["C86_create_new_encrypted_wif", "C88_methods", "C89_ec", "C91_methods", "C91_passphrase", "C91_texts"]}
{"i": 328, "file": "wif.py", "fn": "private_key_to_wif", "kind": "string", "old": "\"wif_prefix\"", "new": "\"wif_prefixx\"", "line": 122, "status": "killed", "stage": 1, "fails": ["private_key_to_wif_eq"], "examples": [], "theorems": ["C85_wif", "C85_wif_roundtrip", "C85_wif_unchecked", "C86_decrypt", "C88_methods", "C89_ec", "C89_roundtrip", "C91_methods", "C91_passphrase", "C91_texts"]}
{"i": 329, "file": "secp256k1/public_key.py", "fn": "PublicKey.from_bytes", "kind": "string", "old": "\"Invalid public key bytes\"", "new": "\"Invalid public key bytesx\"", "line": 54, "status": "killed", "stage": 1, "fails": ["PublicKey_from_bytes_eq"], "examples": [], "theorems": ["C84_public_key", "C85_address", "C85_address_roundtrip", "C86_confirm_code", "C86_create_new_encrypted_wif", "C86_decrypt", "C86_encrypt", "C88_methods", "C89_ec", "C89_roundtrip", "C91_methods", "C91_passphrase", "C91_public_key_type", "C91_texts"]}
{"i": 330, "file": "exceptions.py", "fn": "Error.__str__", "kind": "boolop", "old": "and", "new": "or", "line": 33, "status": "killed", "stage": 1, "fails": ["Error_str_eq"], "examples": [], "theorems": ["C81_error_text", "C84_key_methods", "C84_point", "C84_private_key", "C84_public_key", "C85_address", "C85_address_roundtrip", "C85_wif", "C85_wif_roundtrip", "C85_wif_unchecked", "C86_confirm_code", "C86_constructor", "C86_create_new_encrypted_wif", "C86_decrypt", "C86_encrypt", "C86_intermediate_code", "C88_constructor", "C88_intermediate_code", "C88_methods", "C89_ec", "C89_roundtrip", "C91_constructor", "C91_create_type", "C91_decode", "C91_intermediate_code", "C91_methods", "C91_network", "C91_numbers", "C91_passphrase", "C91_public_key_type", "C91_texts", "C91_wif_type"]}
{"i": 331, "file": "bip38.py", "fn": "BIP38.confirm_code", "kind": "unmethod", "old": "PrivateKey.from_bytes(pass_factor).public_key().raw_compressed()", "new": "PrivateKey.from_bytes(pass_factor).public_key()", "line": 421, "status": "killed", "stage": 1, "fails": ["confirm_obj"], "examples": [], "theorems": ["C86_confirm_code", "C88_methods", "C89_ec", "C91_methods", "C91_passphrase", "C91_texts"]}
{"i": 332, "file": "libs/base58.py", "fn": "check_encode", "kind": "othervar", "old": "raw", "new": "alphabet", "line": 44, "status": "killed", "stage": 1, "fails": ["check_encode_eq"], "examples": [], "theorems": ["C82_encode", "C82_read", "C82_roundtrip", "C85_address", "C85_address_roundtrip", "C86_confirm_code", "C86_create_new_encrypted_wif", "C86_decrypt", "C86_encrypt", "C86_intermediate_code", "C88_intermediate_code", "C88_methods", "C89_ec", "C89_roundtrip", "C91_intermediate_code", "C91_methods", "C91_numbers", "C91_passphrase", "C91_public_key_type", "C91_texts"]}
{"i": 333, "file": "wif.py", "fn": "get_wif_checksum", "kind": "dropkw", "old": ", wif_prefix=cryptocurrency.NETWORKS[network][\"wif_prefix\"]", "new": "", "line": 189, "status": "killed", "stage": 1, "fails": ["get_wif_checksum_eq"], "examples": [], "theorems": ["C85_wif", "C85_wif_roundtrip", "C85_wif_unchecked", "C89_roundtrip"]}
{"i": 334, "file": "secp256k1/public_key.py", "fn": "PublicKey.raw_compressed", "kind": "string", "old": "\"compressed\"", "new": "\"compressedx\"", "line": 130, "status": "killed", "stage": 1, "fails": ["PublicKey_raw_compressed_eq"], "examples": [], "theorems": ["C84_key_methods", "C84_private_key", "C86_confirm_code", "C86_create_new_encrypted_wif", "C86_decrypt", "C88_methods", "C89_ec", "C89_roundtrip", "C91_methods", "C91_passphrase", "C91_texts"]}
{"i": 335, "file": "bip38.py", "fn": "BIP38.intermediate_code", "kind": "compare", "old": "is", "new": "is not", "line": 125, "status": "killed", "stage": 1, "fails": ["intermediate_src"], "examples": [], "theorems": ["C86_intermediate_code", "C88_intermediate_code", "C89_ec", "C91_intermediate_code", "C91_passphrase"]}
{"i": 336, "file": "utils.py", "fn": "get_bytes", "kind": "negate", "old": "not data", "new": "(not (not data))", "line": 25, "status": "killed", "stage": 1, "fails": ["get_bytes_eq"], "examples": [], "theorems": ["C81_crypto", "C81_crypto_bytes", "C81_get_bytes", "C81_get_bytes_text", "C81_hex_roundtrip", "C83_fallback", "C85_address", "C85_address_roundtrip", "C85_wif", "C85_wif_roundtrip", "C85_wif_unchecked", "C86_confirm_code", "C86_create_new_encrypted_wif", "C86_decrypt", "C86_encrypt", "C86_intermediate_code", "C88_intermediate_code", "C88_methods", "C89_ec", "C89_roundtrip", "C91_create_type", "C91_intermediate_code", "C91_methods", "C91_numbers", "C91_passphrase", "C91_public_key_type", "C91_texts"]}
{"i": 337, "file": "wif.py", "fn": "encode_wif", "kind": "dropkw", "old": ", expected=64", "new": "", "line": 45, "status": "killed", "stage": 1, "fails": ["encode_wif_eq"], "examples": [], "theorems": ["C85_wif", "C85_wif_roundtrip", "C85_wif_unchecked", "C86_decrypt", "C88_methods", "C89_ec", "C89_roundtrip", "C91_methods", "C91_passphrase", "C91_texts"]}
{"i": 338, "file": "wif.py", "fn": "decode_wif", "kind": "const-1", "old": "1", "new": "0", "line": 84, "status": "killed", "stage": 1, "fails": ["decode_wif_eq"], "examples": [], "theorems": ["C85_wif", "C85_wif_roundtrip", "C85_wif_unchecked", "C86_encrypt", "C88_methods", "C89_roundtrip", "C91_decode", "C91_methods", "C91_passphrase", "C91_texts"]}
{"i": 339, "file": "bip38.py", "fn": "BIP38.confirm_code", "kind": "othervar", "old": "network", "new": "passphrase", "line": 387, "status": "killed", "stage": 1, "fails": ["confirm_obj"], "examples": [], "theorems": ["C86_confirm_code", "C88_methods", "C89_ec", "C91_methods", "C91_passphrase", "C91_texts"]}
{"i": 340, "file": "libs/ripemd160.py", "fn": "ripemd160", "kind": "unwrap", "old": "len(data)", "new": "(data)", "line": 114, "status": "killed", "stage": 1, "fails": ["ripemd160_eq"], "examples": [], "theorems": ["C81_crypto", "C81_crypto_bytes", "C83_fallback", "C83_ripemd160", "C85_address", "C85_address_roundtrip", "C86_confirm_code", "C86_create_new_encrypted_wif", "C86_decrypt", "C86_encrypt", "C88_methods", "C89_ec", "C89_roundtrip", "C91_methods", "C91_passphrase", "C91_public_key_type", "C91_texts"]}
{"i": 341, "file": "libs/base58.py", "fn": "check_decode", "kind": "swap", "old": "enc, alphabet", "new": "alphabet, enc", "line": 69, "status": "killed", "stage": 1, "fails": ["check_decode_eq", "check_decode_other"], "examples": [], "theorems": ["C82_decode", "C82_read", "C82_roundtrip", "C85_address", "C85_address_roundtrip", "C86_confirm_code", "C86_create_new_encrypted_wif", "C88_methods", "C89_ec", "C91_create_type", "C91_decode", "C91_methods", "C91_passphrase", "C91_texts"]}
{"i": 342, "file": "bip38.py", "fn": "BIP38.decrypt", "kind": "binop", "old": "+", "new": "-", "line": 589, "status": "killed", "stage": 1, "fails": ["decrypt_factor"], "examples": [], "theorems": ["C86_decrypt", "C88_methods", "C89_ec", "C89_roundtrip", "C91_methods", "C91_passphrase", "C91_texts"]}
{"i": 343, "file": "bip38.py", "fn": "BIP38.create_new_encrypted_wif", "kind": "binop", "old": "+", "new": "-", "line": 322, "status": "killed", "stage": 1, "fails": ["create_src"], "examples": [], "theorems": ["C86_create_new_encrypted_wif", "C88_methods", "C89_ec", "C91_methods", "C91_passphrase", "C91_texts"]}
{"i": 344, "file": "bip38.py", "fn": "BIP38.create_new_encrypted_wif", "kind": "string", "old": "\"uncompressed\"", "new": "\"uncompressedx\"", "line": 288, "status": "killed", "stage": 1, "fails": ["create_L282"], "examples": [], "theorems": ["C86_create_new_encrypted_wif", "C88_methods", "C89_ec", "C91_methods", "C91_passphrase", "C91_texts"]}
{"i": 345, "file": "secp256k1/private_key.py", "fn": "PrivateKey.from_bytes", "kind": "unwrap", "old": "Secp256k1Error(\"Invalid private key bytes\")", "new": "(\"Invalid private key bytes\")", "line": 51, "status": "killed", "stage": 1, "fails": ["PrivateKey_from_bytes_eq"], "examples": [], "theorems": ["C84_private_key", "C86_confirm_code", "C86_create_new_encrypted_wif", "C86_decrypt", "C86_encrypt", "C86_intermediate_code", "C88_intermediate_code", "C88_methods", "C89_ec", "C89_roundtrip", "C91_intermediate_code", "C91_methods", "C91_numbers", "C91_passphrase", "C91_texts"]}
{"i": 346, "file": "libs/base58.py", "fn": "ensure_string", "kind": "negate", "old": "isinstance(data, six.binary_type)", "new": "(not (isinstance(data, six.binary_type)))", "line": 22, "status": "killed", "stage": 1, "fails": ["ensure_string_eq"], "examples": [], "theorems": ["C82_decode", "C82_read", "C82_roundtrip"]}
{"i": 347, "file": "bip38.py", "fn": "BIP38.intermediate_code", "kind": "noraise", "old": "raise Error(\"Invalid lot\", expected=\"100000 <= lot <= 999999\", got=lot)", "new": "pass", "line": 133, "status": "killed", "stage": 1, "fails": ["intermediate_src"], "examples": [], "theorems": ["C86_intermediate_code", "C88_intermediate_code", "C89_ec", "C91_intermediate_code", "C91_passphrase"]}
{"i": 348, "file": "libs/ripemd160.py", "fn": "ripemd160", "kind": "const+1", "old": "64", "new": "65", "line": 117, "status": "killed", "stage": 1, "fails": ["blocks_loop2"], "examples": [], "theorems": ["C81_crypto", "C81_crypto_bytes", "C83_fallback", "C83_ripemd160", "C85_address", "C85_address_roundtrip", "C86_confirm_code", "C86_create_new_encrypted_wif", "C86_decrypt", "C86_encrypt", "C88_methods", "C89_ec", "C89_roundtrip", "C91_methods", "C91_passphrase", "C91_public_key_type", "C91_texts"]}
{"i": 349, "file": "crypto.py", "fn": "ripemd160", "kind": "string", "old": "\"ripemd160\"", "new": "\"ripemd160x\"", "line": 29, "status": "killed", "stage": 1, "fails": ["crypto_ripemd160_eq"], "examples": [], "theorems": ["C81_crypto", "C81_crypto_bytes", "C83_fallback", "C85_address", "C85_address_roundtrip", "C86_confirm_code", "C86_create_new_encrypted_wif", "C86_decrypt", "C86_encrypt", "C88_methods", "C89_ec", "C89_roundtrip", "C91_methods", "C91_passphrase", "C91_public_key_type", "C91_texts"]}
{"i": 350, "file": "secp256k1/private_key.py", "fn": "PrivateKey.from_bytes", "kind": "othervar", "old": "cls", "new": "private_key", "line": 45, "status": "untranslatable", "note": "gen_src: call at line 45: Call(func=Name(id='private_key', ctx=Load()), args=[Call(func=Attribute(value=Name(id='SigningKey', ctx=Load()), attr='from_string', ctx=Load()), args=[Name(id='private_key',"}
{"i": 351, "file": "wif.py", "fn": "encode_wif", "kind": "const-1", "old": "64", "new": "63", "line": 45, "status": "killed", "stage": 1, "fails": ["encode_wif_eq"], "examples": [], "theorems": ["C85_wif", "C85_wif_roundtrip", "C85_wif_unchecked", "C86_decrypt", "C88_methods", "C89_ec", "C89_roundtrip", "C91_methods", "C91_passphrase", "C91_texts"]}
{"i": 352, "file": "libs/base58.py", "fn": "encode", "kind": "const+1", "old": "0", "new": "1", "line": 39, "status": "killed", "stage": 1, "fails": ["enc_tail"], "examples": [], "theorems": ["C82_bad_alphabets", "C82_encode", "C82_read", "C82_roundtrip", "C85_address", "C85_address_roundtrip", "C85_wif", "C85_wif_roundtrip", "C85_wif_unchecked", "C86_confirm_code", "C86_create_new_encrypted_wif", "C86_decrypt", "C86_encrypt", "C86_intermediate_code", "C88_intermediate_code", "C88_methods", "C89_ec", "C89_roundtrip", "C91_intermediate_code", "C91_methods", "C91_numbers", "C91_passphrase", "C91_public_key_type", "C91_texts"]}
{"i": 353, "file": "bip38.py", "fn": "BIP38.encrypt", "kind": "const-1", "old": "8", "new": "7", "line": 207, "status": "killed", "stage": 1, "fails": ["encrypt_src"], "examples": [], "theorems": ["C86_encrypt", "C88_methods", "C89_roundtrip", "C91_methods", "C91_passphrase", "C91_texts"]}
{"i": 354, "file": "libs/base58.py", "fn": "encode", "kind": "othervar", "old": "data", "new": "alphabet", "line": 38, "status": "killed", "stage": 1, "fails": ["enc_tail"], "examples": [], "theorems": ["C82_bad_alphabets", "C82_encode", "C82_read", "C82_roundtrip", "C85_address", "C85_address_roundtrip", "C85_wif", "C85_wif_roundtrip", "C85_wif_unchecked", "C86_confirm_code", "C86_create_new_encrypted_wif", "C86_decrypt", "C86_encrypt", "C86_intermediate_code", "C88_intermediate_code", "C88_methods", "C89_ec", "C89_roundtrip", "C91_intermediate_code", "C91_methods", "C91_numbers", "C91_passphrase", "C91_public_key_type", "C91_texts"]}
{"i": 355, "file": "bip38.py", "fn": "BIP38.encrypt", "kind": "dropkw", "old": ", expected=self.networks", "new": "", "line": 184, "status": "killed", "stage": 1, "fails": ["encrypt_src"], "examples": [], "theorems": ["C86_encrypt", "C88_methods", "C89_roundtrip", "C91_methods", "C91_passphrase", "C91_texts"]}
{"i": 356, "file": "bip38.py", "fn": "BIP38.encrypt", "kind": "unmethod", "old": "private_key.public_key()", "new": "private_key", "line": 202, "status": "killed", "stage": 1, "fails": ["encrypt_src"], "examples": [], "theorems": ["C86_encrypt", "C88_methods", "C89_roundtrip", "C91_methods", "C91_passphrase", "C91_texts"]}
{"i": 357, "file": "p2pkh_address.py", "fn": "P2PKHAddress.decode", "kind": "const+1", "old": "20", "new": "21", "line": 89, "status": "killed", "stage": 1, "fails": ["p2pkh_decode_eq"], "examples": [], "theorems": ["C85_address", "C85_address_roundtrip", "C91_decode"]}
{"i": 358, "file": "bip38.py", "fn": "BIP38.create_new_encrypted_wif", "kind": "negate", "old": "len(intermediate_decode) != 49", "new": "(not (len(intermediate_decode) != 49))", "line": 268, "status": "killed", "stage": 1, "fails": ["create_src"], "examples": [], "theorems": ["C86_create_new_encrypted_wif", "C88_methods", "C89_ec", "C91_methods", "C91_passphrase", "C91_texts"]}
{"i": 359, "file": "bip38.py", "fn": "BIP38.intermediate_code", "kind": "dropkw", "old": ", got=len(bytes_to_string(owner_salt))", "new": "", "line": 126, "status": "killed", "stage": 1, "fails": ["intermediate_src"], "examples": [], "theorems": ["C86_intermediate_code", "C88_intermediate_code", "C89_ec", "C91_intermediate_code", "C91_passphrase"]}
{"i": 360, "file": "bip38.py", "fn": "BIP38.intermediate_code", "kind": "binop", "old": "*", "new": "+", "line": 138, "status": "killed", "stage": 1, "fails": ["intermediate_src"], "examples": [], "theorems": ["C86_intermediate_code", "C88_intermediate_code", "C89_ec", "C91_intermediate_code", "C91_passphrase"]}
{"i": 361, "file": "bip38.py", "fn": "BIP38.intermediate_code", "kind": "string", "old": "\"Invalid lot\"", "new": "\"Invalid lotx\"", "line": 133, "status": "killed", "stage": 1, "fails": ["intermediate_src"], "examples": [], "theorems": ["C86_intermediate_code", "C88_intermediate_code", "C89_ec", "C91_intermediate_code", "C91_passphrase"]}
{"i": 362, "file": "libs/ripemd160.py", "fn": "compress", "kind": "const+1", "old": "4", "new": "5", "line": 92, "status": "killed", "stage": 1, "fails": ["compress_round"], "examples": [], "theorems": ["C81_crypto", "C81_crypto_bytes", "C83_fallback", "C83_ripemd160", "C85_address", "C85_address_roundtrip", "C86_confirm_code", "C86_create_new_encrypted_wif", "C86_decrypt", "C86_encrypt", "C88_methods", "C89_ec", "C89_roundtrip", "C91_methods", "C91_passphrase", "C91_public_key_type", "C91_texts"]}
{"i": 363, "file": "secp256k1/private_key.py", "fn": "PrivateKey.from_bytes", "kind": "noraise", "old": "raise Secp256k1Error(\"Invalid private key bytes\") from ex", "new": "pass", "line": 51, "status": "killed", "stage": 1, "fails": ["PrivateKey_from_bytes_eq"], "examples": [], "theorems": ["C84_private_key", "C86_confirm_code", "C86_create_new_encrypted_wif", "C86_decrypt", "C86_encrypt", "C86_intermediate_code", "C88_intermediate_code", "C88_methods", "C89_ec", "C89_roundtrip", "C91_intermediate_code", "C91_methods", "C91_numbers", "C91_passphrase", "C91_texts"]}
{"i": 364, "file": "bip38.py", "fn": "BIP38.intermediate_code", "kind": "swap", "old": "\"NFC\", passphrase", "new": "passphrase, \"NFC\"", "line": 137, "status": "killed", "stage": 1, "fails": ["intermediate_src"], "examples": [], "theorems": ["C86_intermediate_code", "C88_intermediate_code", "C89_ec", "C91_intermediate_code", "C91_passphrase"]}
{"i": 365, "file": "p2pkh_address.py", "fn": "P2PKHAddress.decode", "kind": "string", "old": "\"address_prefix\"", "new": "\"address_prefixx\"", "line": 81, "status": "killed", "stage": 1, "fails": ["p2pkh_decode_eq"], "examples": [], "theorems": ["C85_address", "C85_address_roundtrip", "C91_decode"]}
{"i": 366, "file": "p2pkh_address.py", "fn": "P2PKHAddress.decode", "kind": "dropkw", "old": ", alphabet=kwargs.get(\n                \"alphabet\", cls.alphabet\n            )", "new": "", "line": 84, "status": "killed", "stage": 1, "fails": ["p2pkh_decode_eq"], "examples": [], "theorems": ["C85_address", "C85_address_roundtrip", "C91_decode"]}
{"i": 367, "file": "bip38.py", "fn": "BIP38.encrypt", "kind": "const+1", "old": "64", "new": "65", "line": 208, "status": "killed", "stage": 1, "fails": ["encrypt_src"], "examples": [], "theorems": ["C86_encrypt", "C88_methods", "C89_roundtrip", "C91_methods", "C91_passphrase", "C91_texts"]}
{"i": 368, "file": "secp256k1/private_key.py", "fn": "PrivateKey.public_key", "kind": "unmethod", "old": "self.signing_key.get_verifying_key()", "new": "self.signing_key", "line": 92, "status": "killed", "stage": 1, "fails": ["PrivateKey_public_key_eq"], "examples": [], "theorems": []}
{"i": 369, "file": "libs/ripemd160.py", "fn": "compress", "kind": "swap", "old": "ar + fi(br, cr, dr, 4 - rnd) + x[MR[j]] + KR[rnd], RR[j]", "new": "RR[j], ar + fi(br, cr, dr, 4 - rnd) + x[MR[j]] + KR[rnd]", "line": 97, "status": "killed", "stage": 1, "fails": ["compress_round"], "examples": [], "theorems": ["C81_crypto", "C81_crypto_bytes", "C83_fallback", "C83_ripemd160", "C85_address", "C85_address_roundtrip", "C86_confirm_code", "C86_create_new_encrypted_wif", "C86_decrypt", "C86_encrypt", "C88_methods", "C89_ec", "C89_roundtrip", "C91_methods", "C91_passphrase", "C91_public_key_type", "C91_texts"]}
{"i": 370, "file": "exceptions.py", "fn": "Error.__init__", "kind": "compare", "old": "is", "new": "is not", "line": 23, "status": "killed", "stage": 1, "fails": ["error_loop"], "examples": [], "theorems": ["C81_error_text", "C84_key_methods", "C84_point", "C84_private_key", "C84_public_key", "C85_address", "C85_address_roundtrip", "C85_wif", "C85_wif_roundtrip", "C85_wif_unchecked", "C86_confirm_code", "C86_constructor", "C86_create_new_encrypted_wif", "C86_decrypt", "C86_encrypt", "C86_intermediate_code", "C88_constructor", "C88_intermediate_code", "C88_methods", "C89_ec", "C89_roundtrip", "C91_constructor", "C91_create_type", "C91_decode", "C91_intermediate_code", "C91_methods", "C91_network", "C91_numbers", "C91_passphrase", "C91_public_key_type", "C91_texts", "C91_wif_type"]}
{"i": 371, "file": "secp256k1/public_key.py", "fn": "PublicKey.raw", "kind": "unmethod", "old": "self.raw_compressed()", "new": "self", "line": 120, "status": "killed", "stage": 1, "fails": ["PublicKey_raw_eq"], "examples": [], "theorems": ["C84_key_methods", "C84_private_key", "C86_confirm_code", "C86_create_new_encrypted_wif", "C86_decrypt", "C88_methods", "C89_ec", "C89_roundtrip", "C91_methods", "C91_passphrase", "C91_texts"]}
{"i": 372, "file": "bip38.py", "fn": "BIP38.decrypt", "kind": "swap", "old": "\"NFC\", passphrase", "new": "passphrase, \"NFC\"", "line": 533, "status": "killed", "stage": 1, "fails": ["decrypt_noEc_tail"], "examples": [], "theorems": ["C86_decrypt", "C88_methods", "C89_ec", "C89_roundtrip", "C91_methods", "C91_passphrase", "C91_texts"]}
{"i": 373, "file": "bip38.py", "fn": "BIP38.decrypt", "kind": "unwrap", "old": "bytes_to_integer(factor_b)", "new": "(factor_b)", "line": 612, "status": "killed", "stage": 1, "fails": ["decrypt_ec_block"], "examples": [], "theorems": ["C86_decrypt", "C88_methods", "C89_ec", "C89_roundtrip", "C91_methods", "C91_passphrase", "C91_texts"]}
{"i": 374, "file": "libs/base58.py", "fn": "decode", "kind": "const+1", "old": "256", "new": "257", "line": 60, "status": "killed", "stage": 1, "fails": ["dec_loop2"], "examples": [], "theorems": ["C82_decode", "C82_read", "C82_roundtrip", "C85_address", "C85_address_roundtrip", "C85_wif", "C85_wif_roundtrip", "C85_wif_unchecked", "C86_confirm_code", "C86_create_new_encrypted_wif", "C86_decrypt", "C86_encrypt", "C88_methods", "C89_ec", "C89_roundtrip", "C91_create_type", "C91_decode", "C91_methods", "C91_passphrase", "C91_texts"]}
{"i": 375, "file": "utils.py", "fn": "get_bytes", "kind": "bool", "old": "True", "new": "False", "line": 12, "status": "killed", "stage": 1, "fails": ["get_bytes_default"], "examples": [], "theorems": ["C81_crypto", "C81_crypto_bytes", "C81_get_bytes", "C81_get_bytes_text", "C81_hex_roundtrip", "C83_fallback", "C85_address", "C85_address_roundtrip", "C85_wif", "C85_wif_roundtrip", "C85_wif_unchecked", "C86_confirm_code", "C86_create_new_encrypted_wif", "C86_decrypt", "C86_encrypt", "C86_intermediate_code", "C88_intermediate_code", "C88_methods", "C89_ec", "C89_roundtrip", "C91_create_type", "C91_intermediate_code", "C91_methods", "C91_numbers", "C91_passphrase", "C91_public_key_type", "C91_texts"]}
{"i": 376, "file": "bip38.py", "fn": "BIP38.confirm_code", "kind": "string", "old": "\"uncompressed\"", "new": "\"uncompressedx\"", "line": 444, "status": "killed", "stage": 1, "fails": ["confirm_try"], "examples": [], "theorems": ["C86_confirm_code", "C88_methods", "C89_ec", "C91_methods", "C91_passphrase", "C91_texts"]}
{"i": 377, "file": "libs/ripemd160.py", "fn": "compress", "kind": "othervar", "old": "h2", "new": "block", "line": 84, "status": "killed", "stage": 1, "fails": ["compress_eq"], "examples": [], "theorems": ["C81_crypto", "C81_crypto_bytes", "C83_fallback", "C83_ripemd160", "C85_address", "C85_address_roundtrip", "C86_confirm_code", "C86_create_new_encrypted_wif", "C86_decrypt", "C86_encrypt", "C88_methods", "C89_ec", "C89_roundtrip", "C91_methods", "C91_passphrase", "C91_public_key_type", "C91_texts"]}
{"i": 378, "file": "bip38.py", "fn": "BIP38.intermediate_code", "kind": "boolop", "old": "and", "new": "or", "line": 127, "status": "killed", "stage": 1, "fails": ["intermediate_src"], "examples": [], "theorems": ["C86_intermediate_code", "C88_intermediate_code", "C89_ec", "C91_intermediate_code", "C91_passphrase"]}
{"i": 379, "file": "bip38.py", "fn": "BIP38.intermediate_code", "kind": "othervar", "old": "lot", "new": "sequence", "line": 127, "status": "killed", "stage": 1, "fails": ["intermediate_src"], "examples": [], "theorems": ["C86_intermediate_code", "C88_intermediate_code", "C89_ec", "C91_intermediate_code", "C91_passphrase"]}
{"i": 380, "file": "libs/ripemd160.py", "fn": "rol", "kind": "binop", "old": "<<", "new": ">>", "line": 78, "status": "killed", "stage": 1, "fails": ["rol_eq"], "examples": [], "theorems": ["C81_crypto", "C81_crypto_bytes", "C83_fallback", "C83_ripemd160", "C85_address", "C85_address_roundtrip", "C86_confirm_code", "C86_create_new_encrypted_wif", "C86_decrypt", "C86_encrypt", "C88_methods", "C89_ec", "C89_roundtrip", "C91_methods", "C91_passphrase", "C91_public_key_type", "C91_texts"]}
{"i": 381, "file": "bip38.py", "fn": "BIP38.encrypt", "kind": "string", "old": "\"uncompressed\"", "new": "\"uncompressedx\"", "line": 193, "status": "killed", "stage": 1, "fails": ["encrypt_src"], "examples": [], "theorems": ["C86_encrypt", "C88_methods", "C89_roundtrip", "C91_methods", "C91_passphrase", "C91_texts"]}
{"i": 382, "file": "wif.py", "fn": "encode_wif", "kind": "compare", "old": "!=", "new": "==", "line": 44, "status": "killed", "stage": 1, "fails": ["encode_wif_eq"], "examples": [], "theorems": ["C85_wif", "C85_wif_roundtrip", "C85_wif_unchecked", "C86_decrypt", "C88_methods", "C89_ec", "C89_roundtrip", "C91_methods", "C91_passphrase", "C91_texts"]}
{"i": 383, "file": "secp256k1/public_key.py", "fn": "PublicKey.from_point", "kind": "unmethod", "old": "point.y()", "new": "point", "line": 72, "status": "killed", "stage": 1, "fails": ["PublicKey_from_point_eq"], "examples": [], "theorems": ["C84_key_methods", "C86_confirm_code", "C86_create_new_encrypted_wif", "C88_methods", "C89_ec", "C91_methods", "C91_passphrase", "C91_texts"]}
{"i": 384, "file": "exceptions.py", "fn": "Error.__str__", "kind": "not", "old": "not ", "new": "", "line": 33, "status": "killed", "stage": 1, "fails": ["Error_str_eq"], "examples": [], "theorems": ["C81_error_text", "C84_key_methods", "C84_point", "C84_private_key", "C84_public_key", "C85_address", "C85_address_roundtrip", "C85_wif", "C85_wif_roundtrip", "C85_wif_unchecked", "C86_confirm_code", "C86_constructor", "C86_create_new_encrypted_wif", "C86_decrypt", "C86_encrypt", "C86_intermediate_code", "C88_constructor", "C88_intermediate_code", "C88_methods", "C89_ec", "C89_roundtrip", "C91_constructor", "C91_create_type", "C91_decode", "C91_intermediate_code", "C91_methods", "C91_network", "C91_numbers", "C91_passphrase", "C91_public_key_type", "C91_texts", "C91_wif_type"]}
{"i": 385, "file": "bip38.py", "fn": "BIP38.confirm_code", "kind": "othervar", "old": "public_key", "new": "confirmation_code", "line": 463, "status": "killed", "stage": 1, "fails": ["confirm_detail"], "examples": [], "theorems": ["C86_confirm_code", "C88_methods", "C89_ec", "C91_methods", "C91_passphrase", "C91_texts"]}
{"i": 386, "file": "bip38.py", "fn": "BIP38.decrypt", "kind": "dropkw", "old": ", expected=43", "new": "", "line": 510, "status": "killed", "stage": 1, "fails": ["decrypt_obj"], "examples": [], "theorems": ["C86_decrypt", "C88_methods", "C89_ec", "C89_roundtrip", "C91_methods", "C91_passphrase", "C91_texts"]}
{"i": 387, "file": "secp256k1/public_key.py", "fn": "PublicKey.from_bytes", "kind": "dropkw", "old": ", curve=curves.SECP256k1", "new": "", "line": 50, "status": "killed", "stage": 1, "fails": ["PublicKey_from_bytes_eq"], "examples": [], "theorems": ["C84_public_key", "C85_address", "C85_address_roundtrip", "C86_confirm_code", "C86_create_new_encrypted_wif", "C86_decrypt", "C86_encrypt", "C88_methods", "C89_ec", "C89_roundtrip", "C91_methods", "C91_passphrase", "C91_public_key_type", "C91_texts"]}
{"i": 388, "file": "bip38.py", "fn": "BIP38.create_new_encrypted_wif", "kind": "othervar", "old": "point_b", "new": "intermediate_passphrase", "line": 334, "status": "killed", "stage": 1, "fails": ["create_src"], "examples": [], "theorems": ["C86_create_new_encrypted_wif", "C88_methods", "C89_ec", "C91_methods", "C91_passphrase", "C91_texts"]}
{"i": 389, "file": "libs/ripemd160.py", "fn": "fi", "kind": "othervar", "old": "z", "new": "i", "line": 67, "status": "killed", "stage": 1, "fails": ["fi_eq"], "examples": [], "theorems": ["C81_crypto", "C81_crypto_bytes", "C83_fallback", "C83_ripemd160", "C85_address", "C85_address_roundtrip", "C86_confirm_code", "C86_create_new_encrypted_wif", "C86_decrypt", "C86_encrypt", "C88_methods", "C89_ec", "C89_roundtrip", "C91_methods", "C91_passphrase", "C91_public_key_type", "C91_texts"]}
{"i": 390, "file": "libs/base58.py", "fn": "ensure_string", "kind": "string", "old": "\"utf-8\"", "new": "\"utf-8x\"", "line": 23, "status": "killed", "stage": 1, "fails": ["ensure_string_eq"], "examples": [], "theorems": ["C82_decode", "C82_read", "C82_roundtrip"]}
{"i": 391, "file": "bip38.py", "fn": "BIP38.intermediate_code", "kind": "unwrap", "old": "check_encode(\n            magic + owner_entropy + pass_point.raw_compressed()\n        )", "new": "(magic + owner_entropy + pass_point.raw_compressed())", "line": 149, "status": "killed", "stage": 1, "fails": ["intermediate_tail"], "examples": [], "theorems": ["C86_intermediate_code", "C88_intermediate_code", "C89_ec", "C91_intermediate_code", "C91_numbers", "C91_passphrase"]}
{"i": 392, "file": "libs/base58.py", "fn": "ensure_string", "kind": "unwrap", "old": "ValueError(\"Invalid value for string\")", "new": "(\"Invalid value for string\")", "line": 25, "status": "killed", "stage": 1, "fails": ["ensure_string_eq"], "examples": [], "theorems": ["C82_decode", "C82_read", "C82_roundtrip"]}
{"i": 393, "file": "bip38.py", "fn": "BIP38.confirm_code", "kind": "bool", "old": "False", "new": "True", "line": 455, "status": "killed", "stage": 1, "fails": ["confirm_obj"], "examples": [], "theorems": ["C86_confirm_code", "C88_methods", "C89_ec", "C91_methods", "C91_passphrase", "C91_texts"]}
{"i": 394, "file": "libs/ripemd160.py", "fn": "ripemd160", "kind": "string", "old": "\"<L\"", "new": "\"<Lx\"", "line": 120, "status": "killed", "stage": 1, "fails": ["ripemd160_eq"], "examples": [], "theorems": ["C81_crypto", "C81_crypto_bytes", "C83_fallback", "C83_ripemd160", "C85_address", "C85_address_roundtrip", "C86_confirm_code", "C86_create_new_encrypted_wif", "C86_decrypt", "C86_encrypt", "C88_methods", "C89_ec", "C89_roundtrip", "C91_methods", "C91_passphrase", "C91_public_key_type", "C91_texts"]}
{"i": 395, "file": "wif.py", "fn": "encode_wif", "kind": "negate", "old": "len(get_bytes(private_key)) != 32", "new": "(not (len(get_bytes(private_key)) != 32))", "line": 44, "status": "killed", "stage": 1, "fails": ["encode_wif_eq"], "examples": [], "theorems": ["C85_wif", "C85_wif_roundtrip", "C85_wif_unchecked", "C86_decrypt", "C88_methods", "C89_ec", "C89_roundtrip", "C91_methods", "C91_passphrase", "C91_texts"]}
{"i": 396, "file": "libs/ripemd160.py", "fn": "compress", "kind": "othervar", "old": "bl", "new": "j", "line": 95, "status": "killed", "stage": 1, "fails": ["compress_round"], "examples": [], "theorems": ["C81_crypto", "C81_crypto_bytes", "C83_fallback", "C83_ripemd160", "C85_address", "C85_address_roundtrip", "C86_confirm_code", "C86_create_new_encrypted_wif", "C86_decrypt", "C86_encrypt", "C88_methods", "C89_ec", "C89_roundtrip", "C91_methods", "C91_passphrase", "C91_public_key_type", "C91_texts"]}
{"i": 397, "file": "bip38.py", "fn": "BIP38.create_new_encrypted_wif", "kind": "noraise", "old": "raise PassphraseError(\"Invalid intermediate passphrase\")", "new": "pass", "line": 267, "status": "killed", "stage": 1, "fails": ["create_src"], "examples": [], "theorems": ["C86_create_new_encrypted_wif", "C88_methods", "C89_ec", "C91_methods", "C91_passphrase", "C91_texts"]}
{"i": 398, "file": "bip38.py", "fn": "BIP38.confirm_code", "kind": "string", "old": "\"Invalid confirmation code length\"", "new": "\"Invalid confirmation code lengthx\"", "line": 396, "status": "killed", "stage": 1, "fails": ["confirm_obj"], "examples": [], "theorems": ["C86_confirm_code", "C88_methods", "C89_ec", "C91_methods", "C91_passphrase", "C91_texts"]}
{"i": 399, "file": "libs/base58.py", "fn": "decode", "kind": "swap", "old": "data, \"ascii\"", "new": "\"ascii\", data", "line": 49, "status": "killed", "stage": 1, "fails": ["check_decode_other", "decode_eq", "decode_other"], "examples": [], "theorems": ["C82_decode", "C82_read", "C82_roundtrip", "C85_address", "C85_address_roundtrip", "C85_wif", "C85_wif_roundtrip", "C85_wif_unchecked", "C86_confirm_code", "C86_create_new_encrypted_wif", "C86_decrypt", "C86_encrypt", "C88_methods", "C89_ec", "C89_roundtrip", "C91_create_type", "C91_decode", "C91_methods", "C91_passphrase", "C91_texts"]}
{"i": 400, "file": "libs/base58.py", "fn": "decode", "kind": "string", "old": "\"ascii\"", "new": "\"asciix\"", "line": 49, "status": "killed", "stage": 1, "fails": ["decode_eq"], "examples": [], "theorems": ["C82_decode", "C82_read", "C82_roundtrip", "C85_address", "C85_address_roundtrip", "C85_wif", "C85_wif_roundtrip", "C85_wif_unchecked", "C86_confirm_code", "C86_create_new_encrypted_wif", "C86_decrypt", "C86_encrypt", "C88_methods", "C89_ec", "C89_roundtrip", "C91_create_type", "C91_decode", "C91_methods", "C91_passphrase", "C91_texts"]}
{"i": 401, "file": "secp256k1/public_key.py", "fn": "PublicKey.from_bytes", "kind": "unwrap", "old": "cls(\n                VerifyingKey.from_string(\n                    public_key, curve=curves.SECP256k1\n                )\n            )", "new": "(VerifyingKey.from_string(\n                    public_key, curve=curves.SECP256k1\n                ))", "line": 48, "status": "killed", "stage": 1, "fails": ["PublicKey_from_bytes_eq"], "examples": [], "theorems": ["C84_public_key", "C85_address", "C85_address_roundtrip", "C86_confirm_code", "C86_create_new_encrypted_wif", "C86_decrypt", "C86_encrypt", "C88_methods", "C89_ec", "C89_roundtrip", "C91_methods", "C91_passphrase", "C91_public_key_type", "C91_texts"]}
{"i": 402, "file": "libs/ripemd160.py", "fn": "fi", "kind": "negate", "old": "i == 1", "new": "(not (i == 1))", "line": 64, "status": "killed", "stage": 1, "fails": ["fi_eq"], "examples": [], "theorems": ["C81_crypto", "C81_crypto_bytes", "C83_fallback", "C83_ripemd160", "C85_address", "C85_address_roundtrip", "C86_confirm_code", "C86_create_new_encrypted_wif", "C86_decrypt", "C86_encrypt", "C88_methods", "C89_ec", "C89_roundtrip", "C91_methods", "C91_passphrase", "C91_public_key_type", "C91_texts"]}
{"i": 403, "file": "bip38.py", "fn": "BIP38.confirm_code", "kind": "unwrap", "old": "bytes_to_integer(aes.decrypt(derived_half_1))", "new": "(aes.decrypt(derived_half_1))", "line": 428, "status": "killed", "stage": 1, "fails": ["confirm_obj"], "examples": [], "theorems": ["C86_confirm_code", "C88_methods", "C89_ec", "C91_methods", "C91_passphrase", "C91_texts"]}
{"i": 404, "file": "bip38.py", "fn": "BIP38.intermediate_code", "kind": "const+1", "old": "8", "new": "9", "line": 124, "status": "killed", "stage": 1, "fails": ["intermediate_src"], "examples": [], "theorems": ["C86_intermediate_code", "C88_intermediate_code", "C89_ec", "C91_intermediate_code", "C91_passphrase"]}
{"i": 405, "file": "libs/base58.py", "fn": "check_decode", "kind": "unmethod", "old": "sha256(raw).digest()", "new": "sha256(raw)", "line": 71, "status": "killed", "stage": 1, "fails": ["check_decode_eq"], "examples": [], "theorems": ["C82_decode", "C82_read", "C82_roundtrip", "C85_address", "C85_address_roundtrip", "C86_confirm_code", "C86_create_new_encrypted_wif", "C88_methods", "C89_ec", "C91_create_type", "C91_decode", "C91_methods", "C91_passphrase", "C91_texts"]}
{"i": 406, "file": "libs/base58.py", "fn": "ensure_string", "kind": "not", "old": "not ", "new": "", "line": 24, "status": "killed", "stage": 1, "fails": ["ensure_string_eq"], "examples": [], "theorems": ["C82_decode", "C82_read", "C82_roundtrip"]}
{"i": 407, "file": "bip38.py", "fn": "BIP38.create_new_encrypted_wif", "kind": "compare", "old": "==", "new": "!=", "line": 288, "status": "killed", "stage": 1, "fails": ["create_L282"], "examples": [], "theorems": ["C86_create_new_encrypted_wif", "C88_methods", "C89_ec", "C91_methods", "C91_passphrase", "C91_texts"]}
{"i": 408, "file": "libs/ripemd160.py", "fn": "ripemd160", "kind": "binop", "old": "+", "new": "-", "line": 110, "status": "killed", "stage": 1, "fails": ["blocks_loop1"], "examples": [], "theorems": ["C81_crypto", "C81_crypto_bytes", "C83_fallback", "C83_ripemd160", "C85_address", "C85_address_roundtrip", "C86_confirm_code", "C86_create_new_encrypted_wif", "C86_decrypt", "C86_encrypt", "C88_methods", "C89_ec", "C89_roundtrip", "C91_methods", "C91_passphrase", "C91_public_key_type", "C91_texts"]}
{"i": 409, "file": "libs/base58.py", "fn": "decode", "kind": "othervar", "old": "alphabet", "new": "data", "line": 54, "status": "killed", "stage": 1, "fails": ["dec_loop1"], "examples": [], "theorems": ["C82_decode", "C82_read", "C82_roundtrip", "C85_address", "C85_address_roundtrip", "C85_wif", "C85_wif_roundtrip", "C85_wif_unchecked", "C86_confirm_code", "C86_create_new_encrypted_wif", "C86_decrypt", "C86_encrypt", "C88_methods", "C89_ec", "C89_roundtrip", "C91_create_type", "C91_decode", "C91_methods", "C91_passphrase", "C91_texts"]}
{"i": 410, "file": "bip38.py", "fn": "BIP38.confirm_code", "kind": "const+1", "old": "1024", "new": "1025", "line": 423, "status": "killed", "stage": 1, "fails": ["confirm_obj"], "examples": [], "theorems": ["C86_confirm_code", "C88_methods", "C89_ec", "C91_methods", "C91_passphrase", "C91_texts"]}
{"i": 411, "file": "libs/ripemd160.py", "fn": "compress", "kind": "const-1", "old": "4", "new": "3", "line": 88, "status": "killed", "stage": 1, "fails": ["compress_eq"], "examples": [], "theorems": ["C81_crypto", "C81_crypto_bytes", "C83_fallback", "C83_ripemd160", "C85_address", "C85_address_roundtrip", "C86_confirm_code", "C86_create_new_encrypted_wif", "C86_decrypt", "C86_encrypt", "C88_methods", "C89_ec", "C89_roundtrip", "C91_methods", "C91_passphrase", "C91_public_key_type", "C91_texts"]}
{"i": 412, "file": "libs/base58.py", "fn": "check_decode", "kind": "noraise", "old": "raise ValueError(\"base58 decoding checksum error\")", "new": "pass", "line": 72, "status": "killed", "stage": 1, "fails": ["check_decode_eq"], "examples": [], "theorems": ["C82_decode", "C82_read", "C82_roundtrip", "C85_address", "C85_address_roundtrip", "C86_confirm_code", "C86_create_new_encrypted_wif", "C88_methods", "C89_ec", "C91_create_type", "C91_decode", "C91_methods", "C91_passphrase", "C91_texts"]}
{"i": 413, "file": "bip38.py", "fn": "BIP38.create_new_encrypted_wif", "kind": "othervar", "old": "address_hash", "new": "salt", "line": 343, "status": "killed", "stage": 1, "fails": ["create_src"], "examples": [], "theorems": ["C86_create_new_encrypted_wif", "C88_methods", "C89_ec", "C91_methods", "C91_passphrase", "C91_texts"]}
{"i": 414, "file": "bip38.py", "fn": "BIP38.decrypt", "kind": "const-1", "old": "1", "new": "0", "line": 595, "status": "killed", "stage": 1, "fails": ["decrypt_ec_block"], "examples": [], "theorems": ["C86_decrypt", "C88_methods", "C89_ec", "C89_roundtrip", "C91_methods", "C91_passphrase", "C91_texts"]}
{"i": 415, "file": "bip38.py", "fn": "BIP38.__init__", "kind": "not", "old": "not ", "new": "", "line": 75, "status": "killed", "stage": 1, "fails": ["init_src"], "examples": [], "theorems": ["C86_constructor", "C88_constructor", "C88_methods", "C89_ec", "C89_roundtrip"]}
{"i": 416, "file": "bip38.py", "fn": "BIP38.decrypt", "kind": "binop", "old": "%", "new": "//", "line": 638, "status": "killed", "stage": 1, "fails": ["decrypt_detail"], "examples": [], "theorems": ["C86_decrypt", "C88_methods", "C89_ec", "C89_roundtrip", "C91_methods", "C91_passphrase", "C91_texts"]}
{"i": 417, "file": "bip38.py", "fn": "BIP38.confirm_code", "kind": "const-1", "old": "32", "new": "31", "line": 415, "status": "killed", "stage": 1, "fails": ["confirm_factor"], "examples": [], "theorems": ["C86_confirm_code", "C88_methods", "C89_ec", "C91_methods", "C91_passphrase", "C91_texts"]}
{"i": 418, "file": "libs/ripemd160.py", "fn": "compress", "kind": "string", "old": "\"<L\"", "new": "\"<Lx\"", "line": 88, "status": "killed", "stage": 1, "fails": ["compress_eq"], "examples": [], "theorems": ["C81_crypto", "C81_crypto_bytes", "C83_fallback", "C83_ripemd160", "C85_address", "C85_address_roundtrip", "C86_confirm_code", "C86_create_new_encrypted_wif", "C86_decrypt", "C86_encrypt", "C88_methods", "C89_ec", "C89_roundtrip", "C91_methods", "C91_passphrase", "C91_public_key_type", "C91_texts"]}
{"i": 419, "file": "bip38.py", "fn": "BIP38.confirm_code", "kind": "const-1", "old": "8", "new": "7", "line": 415, "status": "killed", "stage": 1, "fails": ["confirm_factor"], "examples": [], "theorems": ["C86_confirm_code", "C88_methods", "C89_ec", "C91_methods", "C91_passphrase", "C91_texts"]}
{"i": 420, "file": "bip38.py", "fn": "BIP38.create_new_encrypted_wif", "kind": "string", "old": "\"wif-compressed\"", "new": "\"wif-compressedx\"", "line": 277, "status": "killed", "stage": 1, "fails": ["create_L275"], "examples": [], "theorems": ["C86_create_new_encrypted_wif", "C88_methods", "C89_ec", "C91_methods", "C91_passphrase", "C91_texts"]}
{"i": 421, "file": "bip38.py", "fn": "BIP38.decrypt", "kind": "const-1", "old": "15", "new": "14", "line": 576, "status": "killed", "stage": 1, "fails": ["decrypt_ec_block"], "examples": [], "theorems": ["C86_decrypt", "C88_methods", "C89_ec", "C89_roundtrip", "C91_methods", "C91_passphrase", "C91_texts"]}
{"i": 422, "file": "bip38.py", "fn": "BIP38.intermediate_code", "kind": "negate", "old": "lot and sequence", "new": "(not (lot and sequence))", "line": 130, "status": "killed", "stage": 1, "fails": ["intermediate_src"], "examples": [], "theorems": ["C86_intermediate_code", "C88_intermediate_code", "C89_ec", "C91_intermediate_code", "C91_passphrase"]}
{"i": 423, "file": "bip38.py", "fn": "BIP38.encrypt", "kind": "const-1", "old": "32", "new": "31", "line": 208, "status": "killed", "stage": 1, "fails": ["encrypt_src"], "examples": [], "theorems": ["C86_encrypt", "C88_methods", "C89_roundtrip", "C91_methods", "C91_passphrase", "C91_texts"]}
{"i": 424, "file": "bip38.py", "fn": "BIP38.decrypt", "kind": "unmethod", "old": "pre_public_key.raw_compressed()", "new": "pre_public_key", "line": 595, "status": "killed", "stage": 1, "fails": ["decrypt_ec_block"], "examples": [], "theorems": ["C86_decrypt", "C88_methods", "C89_ec", "C89_roundtrip", "C91_methods", "C91_passphrase", "C91_texts"]}
{"i": 425, "file": "libs/ripemd160.py", "fn": "ripemd160", "kind": "othervar", "old": "state", "new": "data", "line": 110, "status": "killed", "stage": 1, "fails": ["blocks_loop1"], "examples": [], "theorems": ["C81_crypto", "C81_crypto_bytes", "C83_fallback", "C83_ripemd160", "C85_address", "C85_address_roundtrip", "C86_confirm_code", "C86_create_new_encrypted_wif", "C86_decrypt", "C86_encrypt", "C88_methods", "C89_ec", "C89_roundtrip", "C91_methods", "C91_passphrase", "C91_public_key_type", "C91_texts"]}
{"i": 426, "file": "libs/ripemd160.py", "fn": "ripemd160", "kind": "const-1", "old": "8", "new": "7", "line": 114, "status": "killed", "stage": 1, "fails": ["ripemd160_eq"], "examples": [], "theorems": ["C81_crypto", "C81_crypto_bytes", "C83_fallback", "C83_ripemd160", "C85_address", "C85_address_roundtrip", "C86_confirm_code", "C86_create_new_encrypted_wif", "C86_decrypt", "C86_encrypt", "C88_methods", "C89_ec", "C89_roundtrip", "C91_methods", "C91_passphrase", "C91_public_key_type", "C91_texts"]}
{"i": 427, "file": "libs/base58.py", "fn": "check_decode", "kind": "othervar", "old": "raw", "new": "dec", "line": 74, "status": "killed", "stage": 1, "fails": ["check_decode_eq"], "examples": [], "theorems": ["C82_decode", "C82_read", "C82_roundtrip", "C85_address", "C85_address_roundtrip", "C86_confirm_code", "C86_create_new_encrypted_wif", "C88_methods", "C89_ec", "C91_create_type", "C91_decode", "C91_methods", "C91_passphrase", "C91_texts"]}
{"i": 428, "file": "wif.py", "fn": "get_wif_type", "kind": "string", "old": "\"mainnet\"", "new": "\"mainnetx\"", "line": 150, "status": "killed", "stage": 2, "fails": ["C87_wif"], "examples": [], "theorems": ["C87_wif"]}
{"i": 429, "file": "libs/ripemd160.py", "fn": "compress", "kind": "binop", "old": "+", "new": "-", "line": 101, "status": "killed", "stage": 1, "fails": ["compress_eq"], "examples": [], "theorems": ["C81_crypto", "C81_crypto_bytes", "C83_fallback", "C83_ripemd160", "C85_address", "C85_address_roundtrip", "C86_confirm_code", "C86_create_new_encrypted_wif", "C86_decrypt", "C86_encrypt", "C88_methods", "C89_ec", "C89_roundtrip", "C91_methods", "C91_passphrase", "C91_public_key_type", "C91_texts"]}
{"i": 430, "file": "bip38.py", "fn": "BIP38.encrypt", "kind": "const+1", "old": "16", "new": "17", "line": 215, "status": "killed", "stage": 1, "fails": ["encrypt_src"], "examples": [], "theorems": ["C86_encrypt", "C88_methods", "C89_roundtrip", "C91_methods", "C91_passphrase", "C91_texts"]}
{"i": 431, "file": "bip38.py", "fn": "BIP38.intermediate_code", "kind": "dropkw", "old": ", expected=\"100000 <= lot <= 999999\"", "new": "", "line": 133, "status": "killed", "stage": 1, "fails": ["intermediate_src"], "examples": [], "theorems": ["C86_intermediate_code", "C88_intermediate_code", "C89_ec", "C91_intermediate_code", "C91_passphrase"]}
{"i": 432, "file": "wif.py", "fn": "decode_wif", "kind": "unwrap", "old": "len(integer_to_bytes(wif_prefix))", "new": "(integer_to_bytes(wif_prefix))", "line": 78, "status": "killed", "stage": 1, "fails": ["decode_wif_eq"], "examples": [], "theorems": ["C85_wif", "C85_wif_roundtrip", "C85_wif_unchecked", "C86_encrypt", "C88_methods", "C89_roundtrip", "C91_decode", "C91_methods", "C91_passphrase", "C91_texts"]}
{"i": 433, "file": "secp256k1/point.py", "fn": "Point.from_bytes", "kind": "string", "old": "\"Invalid point key bytes\"", "new": "\"Invalid point key bytesx\"", "line": 53, "status": "killed", "stage": 1, "fails": ["Point_from_bytes_eq"], "examples": [], "theorems": ["C84_point"]}
{"i": 434, "file": "bip38.py", "fn": "BIP38.decrypt", "kind": "string", "old": "\"NFC\"", "new": "\"NFCx\"", "line": 587, "status": "killed", "stage": 1, "fails": ["decrypt_factor"], "examples": [], "theorems": ["C86_decrypt", "C88_methods", "C89_ec", "C89_roundtrip", "C91_methods", "C91_passphrase", "C91_texts"]}
{"i": 435, "file": "libs/ripemd160.py", "fn": "compress", "kind": "const+1", "old": "16", "new": "17", "line": 88, "status": "killed", "stage": 1, "fails": ["compress_eq"], "examples": [], "theorems": ["C81_crypto", "C81_crypto_bytes", "C83_fallback", "C83_ripemd160", "C85_address", "C85_address_roundtrip", "C86_confirm_code", "C86_create_new_encrypted_wif", "C86_decrypt", "C86_encrypt", "C88_methods", "C89_ec", "C89_roundtrip", "C91_methods", "C91_passphrase", "C91_public_key_type", "C91_texts"]}
{"i": 436, "file": "p2pkh_address.py", "fn": "P2PKHAddress.decode", "kind": "noraise", "old": "raise AddressError(f\"Invalid prefix (expected: {address_prefix}, got: {prefix_got})\")", "new": "pass", "line": 95, "status": "killed", "stage": 1, "fails": ["p2pkh_decode_eq"], "examples": [], "theorems": ["C85_address", "C85_address_roundtrip", "C91_decode"]}
{"i": 437, "file": "libs/ripemd160.py", "fn": "ripemd160", "kind": "binop", "old": "+", "new": "-", "line": 114, "status": "killed", "stage": 1, "fails": ["ripemd160_eq"], "examples": [], "theorems": ["C81_crypto", "C81_crypto_bytes", "C83_fallback", "C83_ripemd160", "C85_address", "C85_address_roundtrip", "C86_confirm_code", "C86_create_new_encrypted_wif", "C86_decrypt", "C86_encrypt", "C88_methods", "C89_ec", "C89_roundtrip", "C91_methods", "C91_passphrase", "C91_public_key_type", "C91_texts"]}
{"i": 438, "file": "bip38.py", "fn": "BIP38.create_new_encrypted_wif", "kind": "dropbound", "old": "17", "new": "", "line": 334, "status": "killed", "stage": 1, "fails": ["create_src"], "examples": [], "theorems": ["C86_create_new_encrypted_wif", "C88_methods", "C89_ec", "C91_methods", "C91_passphrase", "C91_texts"]}
{"i": 439, "file": "bip38.py", "fn": "BIP38.decrypt", "kind": "boolop", "old": "or", "new": "and", "line": 612, "status": "killed", "stage": 1, "fails": ["decrypt_ec_block"], "examples": [], "theorems": ["C86_decrypt", "C88_methods", "C89_ec", "C89_roundtrip", "C91_methods", "C91_passphrase", "C91_texts"]}
{"i": 440, "file": "wif.py", "fn": "encode_wif", "kind": "noraise", "old": "raise Secp256k1Error(\"Invalid private key length\", expected=64, got=len(private_key))", "new": "pass", "line": 45, "status": "killed", "stage": 1, "fails": ["encode_wif_eq"], "examples": [], "theorems": ["C85_wif", "C85_wif_roundtrip", "C85_wif_unchecked", "C86_decrypt", "C88_methods", "C89_ec", "C89_roundtrip", "C91_methods", "C91_passphrase", "C91_texts"]}
{"i": 441, "file": "wif.py", "fn": "decode_wif", "kind": "unwrap", "old": "integer_to_bytes(wif_prefix)", "new": "(wif_prefix)", "line": 78, "status": "killed", "stage": 1, "fails": ["decode_wif_eq"], "examples": [], "theorems": ["C85_wif", "C85_wif_roundtrip", "C85_wif_unchecked", "C86_encrypt", "C88_methods", "C89_roundtrip", "C91_decode", "C91_methods", "C91_passphrase", "C91_texts"]}
{"i": 442, "file": "libs/base58.py", "fn": "check_decode", "kind": "const+1", "old": "4", "new": "5", "line": 70, "status": "killed", "stage": 1, "fails": ["check_decode_eq"], "examples": [], "theorems": ["C82_decode", "C82_read", "C82_roundtrip", "C85_address", "C85_address_roundtrip", "C86_confirm_code", "C86_create_new_encrypted_wif", "C88_methods", "C89_ec", "C91_create_type", "C91_decode", "C91_methods", "C91_passphrase", "C91_texts"]}
{"i": 443, "file": "crypto.py", "fn": "get_checksum", "kind": "unwrap", "old": "double_sha256(data)", "new": "(data)", "line": 76, "status": "killed", "stage": 1, "fails": ["crypto_get_checksum_eq"], "examples": [], "theorems": ["C81_crypto", "C81_crypto_bytes", "C85_wif", "C85_wif_roundtrip", "C85_wif_unchecked", "C86_confirm_code", "C86_create_new_encrypted_wif", "C86_decrypt", "C86_encrypt", "C88_methods", "C89_ec", "C89_roundtrip", "C91_methods", "C91_passphrase", "C91_texts"]}
{"i": 444, "file": "bip38.py", "fn": "BIP38.create_new_encrypted_wif", "kind": "unwrap", "old": "check_encode((\n            integer_to_bytes(CONFIRMATION_CODE_PREFIX) + flag + address_hash + owner_entropy + encrypted_point_b\n        ))", "new": "(integer_to_bytes(CONFIRMATION_CODE_PREFIX) + flag + address_hash + owner_entropy + encrypted_point_b)", "line": 342, "status": "killed", "stage": 1, "fails": ["create_src"], "examples": [], "theorems": ["C86_create_new_encrypted_wif", "C88_methods", "C89_ec", "C91_methods", "C91_passphrase", "C91_texts"]}
{"i": 445, "file": "p2pkh_address.py", "fn": "P2PKHAddress.encode", "kind": "swap", "old": "public_key, PublicKey", "new": "PublicKey, public_key", "line": 49, "status": "killed", "stage": 1, "fails": ["p2pkh_encode_eq"], "examples": [], "theorems": ["C85_address", "C85_address_roundtrip", "C86_confirm_code", "C86_create_new_encrypted_wif", "C86_decrypt", "C86_encrypt", "C88_methods", "C89_ec", "C89_roundtrip", "C91_methods", "C91_passphrase", "C91_texts"]}
{"i": 446, "file": "bip38.py", "fn": "BIP38.intermediate_code", "kind": "const-1", "old": "4", "new": "3", "line": 138, "status": "killed", "stage": 1, "fails": ["intermediate_src"], "examples": [], "theorems": ["C86_intermediate_code", "C88_intermediate_code", "C89_ec", "C91_intermediate_code", "C91_passphrase"]}
{"i": 447, "file": "wif.py", "fn": "encode_wif", "kind": "unwrap", "old": "encode(wif_compressed_payload + get_checksum(wif_compressed_payload))", "new": "(wif_compressed_payload + get_checksum(wif_compressed_payload))", "line": 55, "status": "killed", "stage": 1, "fails": ["encode_wif_eq"], "examples": [], "theorems": ["C85_wif", "C85_wif_roundtrip", "C85_wif_unchecked", "C86_decrypt", "C88_methods", "C89_ec", "C89_roundtrip", "C91_methods", "C91_passphrase", "C91_texts"]}
{"i": 448, "file": "bip38.py", "fn": "BIP38.decrypt", "kind": "compare", "old": ">=", "new": ">", "line": 546, "status": "killed", "stage": 1, "fails": ["decrypt_noEc_tail"], "examples": [], "theorems": ["C86_decrypt", "C88_methods", "C89_ec", "C89_roundtrip", "C91_methods", "C91_passphrase", "C91_texts"]}
{"i": 449, "file": "bip38.py", "fn": "BIP38.decrypt", "kind": "const+1", "old": "8", "new": "9", "line": 609, "status": "killed", "stage": 1, "fails": ["decrypt_ec_block"], "examples": [], "theorems": ["C86_decrypt", "C88_methods", "C89_ec", "C89_roundtrip", "C91_methods", "C91_passphrase", "C91_texts"]}
{"i": 450, "file": "libs/base58.py", "fn": "check_decode", "kind": "negate", "old": "chk != sha256(sha256(raw).digest()).digest()[:4]", "new": "(not (chk != sha256(sha256(raw).digest()).digest()[:4]))", "line": 71, "status": "killed", "stage": 1, "fails": ["check_decode_eq"], "examples": [], "theorems": ["C82_decode", "C82_read", "C82_roundtrip", "C85_address", "C85_address_roundtrip", "C86_confirm_code", "C86_create_new_encrypted_wif", "C88_methods", "C89_ec", "C91_create_type", "C91_decode", "C91_methods", "C91_passphrase", "C91_texts"]}
{"i": 451, "file": "wif.py", "fn": "get_wif_checksum", "kind": "const-1", "old": "2", "new": "1", "line": 190, "status": "killed", "stage": 1, "fails": ["get_wif_checksum_eq"], "examples": [], "theorems": ["C85_wif", "C85_wif_roundtrip", "C85_wif_unchecked", "C89_roundtrip"]}
{"i": 452, "file": "secp256k1/point.py", "fn": "Point.from_bytes", "kind": "unwrap", "old": "Secp256k1Error(\"Invalid point key bytes\")", "new": "(\"Invalid point key bytes\")", "line": 53, "status": "killed", "stage": 1, "fails": ["Point_from_bytes_eq"], "examples": [], "theorems": ["C84_point"]}
{"i": 453, "file": "p2pkh_address.py", "fn": "P2PKHAddress.decode", "kind": "swap", "old": "\"alphabet\", cls.alphabet", "new": "cls.alphabet, \"alphabet\"", "line": 84, "status": "untranslatable", "note": "gen_src: kwargs.get at line 84: Call(func=Attribute(value=Name(id='kwargs', ctx=Load()), attr='get', ctx=Load()), args=[Attribute(value=Name(id='cls', ctx=Load()), attr='alphabet', ctx=Load()), Consta"}
{"i": 454, "file": "secp256k1/point.py", "fn": "Point.raw_encoded", "kind": "swap", "old": "self.point.x(), COORDINATE_POINT_LENGTH", "new": "COORDINATE_POINT_LENGTH, self.point.x()", "line": 131, "status": "killed", "stage": 1, "fails": ["Point_raw_encoded_eq"], "examples": [], "theorems": ["C84_point"]}
{"i": 455, "file": "utils.py", "fn": "bytes_reverse", "kind": "unwrap", "old": "bytes(tmp)", "new": "(tmp)", "line": 51, "status": "killed", "stage": 1, "fails": ["bytes_reverse_eq"], "examples": [], "theorems": []}
{"i": 456, "file": "bip38.py", "fn": "BIP38.create_new_encrypted_wif", "kind": "othervar", "old": "key", "new": "public_key_type", "line": 317, "status": "killed", "stage": 1, "fails": ["create_src"], "examples": [], "theorems": ["C86_create_new_encrypted_wif", "C88_methods", "C89_ec", "C91_methods", "C91_passphrase", "C91_texts"]}
{"i": 457, "file": "bip38.py", "fn": "BIP38.__init__", "kind": "noraise", "old": "raise NetworkError(\"Wrong network type\", expected=self.networks, got=type(network))", "new": "pass", "line": 83, "status": "killed", "stage": 1, "fails": ["init_src"], "examples": [], "theorems": ["C86_constructor", "C88_constructor", "C88_methods", "C89_ec", "C89_roundtrip"]}
{"i": 458, "file": "bip38.py", "fn": "BIP38.create_new_encrypted_wif", "kind": "swap", "old": "pass_point, salt", "new": "salt, pass_point", "line": 314, "status": "killed", "stage": 1, "fails": ["create_src"], "examples": [], "theorems": ["C86_create_new_encrypted_wif", "C88_methods", "C89_ec", "C91_methods", "C91_passphrase", "C91_texts"]}
