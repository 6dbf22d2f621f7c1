{
"Error_init_eq": [
"C81_error_text",
"C84_key_methods",
"C84_point",
"C84_private_key",
"C84_public_key",
"C85_address",
"C85_address_roundtrip",
"C85_wif",
"C85_wif_roundtrip",
"C85_wif_unchecked",
"C86_characters",
"C86_confirm_code",
"C86_constructor",
"C86_create_new_encrypted_wif",
"C86_decrypt",
"C86_encrypt",
"C86_intermediate_code",
"C88_constructor",
"C88_intermediate_code",
"C88_methods",
"C89_ec",
"C89_roundtrip",
"C91_constructor",
"C91_create_type",
"C91_decode",
"C91_intermediate_code",
"C91_methods",
"C91_network",
"C91_numbers",
"C91_passphrase",
"C91_public_key_type",
"C91_texts",
"C91_wif_type",
"C98_addresses",
"C98_bip38",
"C98_keys",
"C98_points"
],
"Error_str_eq": [
"C81_error_text",
"C84_key_methods",
"C84_point",
"C84_private_key",
"C84_public_key",
"C85_address",
"C85_address_roundtrip",
"C85_wif",
"C85_wif_roundtrip",
"C85_wif_unchecked",
"C86_characters",
"C86_confirm_code",
"C86_constructor",
"C86_create_new_encrypted_wif",
"C86_decrypt",
"C86_encrypt",
"C86_intermediate_code",
"C88_constructor",
"C88_intermediate_code",
"C88_methods",
"C89_ec",
"C89_roundtrip",
"C91_constructor",
"C91_create_type",
"C91_decode",
"C91_intermediate_code",
"C91_methods",
"C91_network",
"C91_numbers",
"C91_passphrase",
"C91_public_key_type",
"C91_texts",
"C91_wif_type",
"C98_addresses",
"C98_bip38",
"C98_keys",
"C98_points"
],
"Point_add_eq": [],
"Point_from_bytes_eq": [
"C84_point"
],
"Point_from_coordinates_eq": [
"C84_point"
],
"Point_radd_eq": [],
"Point_raw_decoded_eq": [
"C84_point"
],
"Point_raw_encoded_eq": [
"C84_point"
],
"Point_raw_eq": [
"C84_point"
],
"Point_rmul_eq": [],
"Point_x_eq": [
"C84_key_methods",
"C84_point",
"C86_characters",
"C86_confirm_code",
"C86_create_new_encrypted_wif",
"C88_methods",
"C89_ec",
"C91_methods",
"C91_passphrase",
"C91_texts"
],
"Point_y_eq": [
"C84_key_methods",
"C84_point",
"C86_characters",
"C86_confirm_code",
"C86_create_new_encrypted_wif",
"C88_methods",
"C89_ec",
"C91_methods",
"C91_passphrase",
"C91_texts"
],
"PrivateKey_from_bytes_eq": [
"C84_private_key",
"C86_characters",
"C86_confirm_code",
"C86_create_new_encrypted_wif",
"C86_decrypt",
"C86_encrypt",
"C86_intermediate_code",
"C88_intermediate_code",
"C88_methods",
"C89_ec",
"C89_roundtrip",
"C91_intermediate_code",
"C91_methods",
"C91_numbers",
"C91_passphrase",
"C91_texts"
],
"PrivateKey_public_key_eq": [],
"PrivateKey_raw_eq": [
"C84_private_key"
],
"PublicKey_from_bytes_eq": [
"C84_public_key",
"C85_address",
"C85_address_roundtrip",
"C86_characters",
"C86_confirm_code",
"C86_create_new_encrypted_wif",
"C86_decrypt",
"C86_encrypt",
"C88_methods",
"C89_ec",
"C89_roundtrip",
"C91_methods",
"C91_passphrase",
"C91_public_key_type",
"C91_texts"
],
"PublicKey_from_point_eq": [
"C84_key_methods",
"C86_characters",
"C86_confirm_code",
"C86_create_new_encrypted_wif",
"C88_methods",
"C89_ec",
"C91_methods",
"C91_passphrase",
"C91_texts"
],
"PublicKey_point_eq": [],
"PublicKey_raw_compressed_eq": [
"C84_key_methods",
"C84_private_key",
"C86_characters",
"C86_confirm_code",
"C86_create_new_encrypted_wif",
"C86_decrypt",
"C88_methods",
"C89_ec",
"C89_roundtrip",
"C91_methods",
"C91_passphrase",
"C91_texts"
],
"PublicKey_raw_eq": [
"C84_key_methods",
"C84_private_key",
"C86_characters",
"C86_confirm_code",
"C86_create_new_encrypted_wif",
"C86_decrypt",
"C88_methods",
"C89_ec",
"C89_roundtrip",
"C91_methods",
"C91_passphrase",
"C91_texts"
],
"PublicKey_raw_uncompressed_eq": [
"C84_key_methods",
"C84_private_key",
"C86_characters",
"C86_confirm_code",
"C86_create_new_encrypted_wif",
"C86_decrypt",
"C88_methods",
"C89_ec",
"C89_roundtrip",
"C91_methods",
"C91_passphrase",
"C91_texts"
],
"blocks_loop1": [
"C81_crypto",
"C81_crypto_bytes",
"C83_fallback",
"C83_ripemd160",
"C85_address",
"C85_address_roundtrip",
"C86_characters",
"C86_confirm_code",
"C86_create_new_encrypted_wif",
"C86_decrypt",
"C86_encrypt",
"C88_methods",
"C89_ec",
"C89_roundtrip",
"C91_methods",
"C91_passphrase",
"C91_public_key_type",
"C91_texts"
],
"blocks_loop2": [
"C81_crypto",
"C81_crypto_bytes",
"C83_fallback",
"C83_ripemd160",
"C85_address",
"C85_address_roundtrip",
"C86_characters",
"C86_confirm_code",
"C86_create_new_encrypted_wif",
"C86_decrypt",
"C86_encrypt",
"C88_methods",
"C89_ec",
"C89_roundtrip",
"C91_methods",
"C91_passphrase",
"C91_public_key_type",
"C91_texts"
],
"bytes_reverse_eq": [],
"bytes_to_integer_default": [
"C81_bytes_to_integer",
"C81_integer_roundtrip",
"C84_point"
],
"bytes_to_integer_eq": [
"C81_bytes_to_integer",
"C81_integer_roundtrip"
],
"bytes_to_string_eq": [
"C81_bytes_to_string",
"C81_hex_roundtrip",
"C85_address",
"C85_address_roundtrip",
"C85_wif",
"C85_wif_roundtrip",
"C85_wif_unchecked",
"C86_characters",
"C86_confirm_code",
"C86_create_new_encrypted_wif",
"C86_decrypt",
"C86_encrypt",
"C86_intermediate_code",
"C88_intermediate_code",
"C88_methods",
"C89_ec",
"C89_roundtrip",
"C91_decode",
"C91_intermediate_code",
"C91_methods",
"C91_numbers",
"C91_passphrase",
"C91_texts"
],
"check_decode_eq": [
"C82_decode",
"C82_read",
"C82_roundtrip",
"C85_address",
"C85_address_roundtrip",
"C86_characters",
"C86_confirm_code",
"C86_create_new_encrypted_wif",
"C88_methods",
"C89_ec",
"C91_create_type",
"C91_decode",
"C91_methods",
"C91_passphrase",
"C91_texts"
],
"check_decode_other": [
"C82_decode",
"C82_read",
"C82_roundtrip"
],
"check_encode_eq": [
"C82_encode",
"C82_read",
"C82_roundtrip",
"C85_address",
"C85_address_roundtrip",
"C86_characters",
"C86_confirm_code",
"C86_create_new_encrypted_wif",
"C86_decrypt",
"C86_encrypt",
"C86_intermediate_code",
"C88_intermediate_code",
"C88_methods",
"C89_ec",
"C89_roundtrip",
"C91_intermediate_code",
"C91_methods",
"C91_numbers",
"C91_passphrase",
"C91_public_key_type",
"C91_texts"
],
"compress_eq": [
"C81_crypto",
"C81_crypto_bytes",
"C83_fallback",
"C83_ripemd160",
"C85_address",
"C85_address_roundtrip",
"C86_characters",
"C86_confirm_code",
"C86_create_new_encrypted_wif",
"C86_decrypt",
"C86_encrypt",
"C88_methods",
"C89_ec",
"C89_roundtrip",
"C91_methods",
"C91_passphrase",
"C91_public_key_type",
"C91_texts"
],
"compress_round": [
"C81_crypto",
"C81_crypto_bytes",
"C83_fallback",
"C83_ripemd160",
"C85_address",
"C85_address_roundtrip",
"C86_characters",
"C86_confirm_code",
"C86_create_new_encrypted_wif",
"C86_decrypt",
"C86_encrypt",
"C88_methods",
"C89_ec",
"C89_roundtrip",
"C91_methods",
"C91_passphrase",
"C91_public_key_type",
"C91_texts"
],
"confirm_detail": [
"C55_confirm_detail",
"C77_methods",
"C86_characters",
"C86_confirm_code",
"C88_methods",
"C89_ec",
"C91_methods",
"C91_passphrase",
"C91_texts"
],
"confirm_factor": [
"C86_characters",
"C86_confirm_code",
"C88_methods",
"C89_ec",
"C91_methods",
"C91_passphrase",
"C91_texts"
],
"confirm_obj": [
"C86_characters",
"C86_confirm_code",
"C88_methods",
"C89_ec",
"C91_methods",
"C91_passphrase",
"C91_texts"
],
"confirm_split": [
"C86_characters",
"C86_confirm_code",
"C88_methods",
"C89_ec",
"C91_methods",
"C91_passphrase",
"C91_texts"
],
"confirm_src": [
"C86_characters",
"C86_confirm_code",
"C88_methods",
"C89_ec"
],
"confirm_try": [
"C86_characters",
"C86_confirm_code",
"C88_methods",
"C89_ec",
"C91_methods",
"C91_passphrase",
"C91_texts"
],
"create_L275": [
"C86_characters",
"C86_create_new_encrypted_wif",
"C88_methods",
"C89_ec",
"C91_methods",
"C91_passphrase",
"C91_texts"
],
"create_L282": [
"C86_characters",
"C86_create_new_encrypted_wif",
"C88_methods",
"C89_ec",
"C91_methods",
"C91_passphrase",
"C91_texts"
],
"create_src": [
"C86_characters",
"C86_create_new_encrypted_wif",
"C88_methods",
"C89_ec",
"C91_methods",
"C91_passphrase",
"C91_texts"
],
"crypto_double_sha256_eq": [
"C81_crypto",
"C81_crypto_bytes",
"C85_wif",
"C85_wif_roundtrip",
"C85_wif_unchecked",
"C86_characters",
"C86_confirm_code",
"C86_create_new_encrypted_wif",
"C86_decrypt",
"C86_encrypt",
"C86_intermediate_code",
"C88_intermediate_code",
"C88_methods",
"C89_ec",
"C89_roundtrip",
"C91_intermediate_code",
"C91_methods",
"C91_numbers",
"C91_passphrase",
"C91_texts"
],
"crypto_get_checksum_eq": [
"C81_crypto",
"C81_crypto_bytes",
"C85_wif",
"C85_wif_roundtrip",
"C85_wif_unchecked",
"C86_characters",
"C86_confirm_code",
"C86_create_new_encrypted_wif",
"C86_decrypt",
"C86_encrypt",
"C88_methods",
"C89_ec",
"C89_roundtrip",
"C91_methods",
"C91_passphrase",
"C91_texts"
],
"crypto_hash160_eq": [
"C81_crypto",
"C81_crypto_bytes",
"C85_address",
"C85_address_roundtrip",
"C86_characters",
"C86_confirm_code",
"C86_create_new_encrypted_wif",
"C86_decrypt",
"C86_encrypt",
"C88_methods",
"C89_ec",
"C89_roundtrip",
"C91_methods",
"C91_passphrase",
"C91_public_key_type",
"C91_texts"
],
"crypto_ripemd160_eq": [
"C81_crypto",
"C81_crypto_bytes",
"C83_fallback",
"C85_address",
"C85_address_roundtrip",
"C86_characters",
"C86_confirm_code",
"C86_create_new_encrypted_wif",
"C86_decrypt",
"C86_encrypt",
"C88_methods",
"C89_ec",
"C89_roundtrip",
"C91_methods",
"C91_passphrase",
"C91_public_key_type",
"C91_texts"
],
"crypto_sha256_eq": [
"C81_crypto",
"C81_crypto_bytes",
"C85_address",
"C85_address_roundtrip",
"C85_wif",
"C85_wif_roundtrip",
"C85_wif_unchecked",
"C86_characters",
"C86_confirm_code",
"C86_create_new_encrypted_wif",
"C86_decrypt",
"C86_encrypt",
"C86_intermediate_code",
"C88_intermediate_code",
"C88_methods",
"C89_ec",
"C89_roundtrip",
"C91_intermediate_code",
"C91_methods",
"C91_numbers",
"C91_passphrase",
"C91_public_key_type",
"C91_texts"
],
"dec_loop1": [
"C82_decode",
"C82_read",
"C82_roundtrip",
"C85_address",
"C85_address_roundtrip",
"C85_wif",
"C85_wif_roundtrip",
"C85_wif_unchecked",
"C86_characters",
"C86_confirm_code",
"C86_create_new_encrypted_wif",
"C86_decrypt",
"C86_encrypt",
"C88_methods",
"C89_ec",
"C89_roundtrip",
"C91_create_type",
"C91_decode",
"C91_methods",
"C91_passphrase",
"C91_texts",
"C98_hash_failure_as_code",
"C98_hash_failure_as_passphrase"
],
"dec_loop2": [
"C82_decode",
"C82_read",
"C82_roundtrip",
"C85_address",
"C85_address_roundtrip",
"C85_wif",
"C85_wif_roundtrip",
"C85_wif_unchecked",
"C86_characters",
"C86_confirm_code",
"C86_create_new_encrypted_wif",
"C86_decrypt",
"C86_encrypt",
"C88_methods",
"C89_ec",
"C89_roundtrip",
"C91_create_type",
"C91_decode",
"C91_methods",
"C91_passphrase",
"C91_texts",
"C98_hash_failure_as_code",
"C98_hash_failure_as_passphrase"
],
"decode_eq": [
"C82_decode",
"C82_read",
"C82_roundtrip",
"C85_address",
"C85_address_roundtrip",
"C85_wif",
"C85_wif_roundtrip",
"C85_wif_unchecked",
"C86_characters",
"C86_confirm_code",
"C86_create_new_encrypted_wif",
"C86_decrypt",
"C86_encrypt",
"C88_methods",
"C89_ec",
"C89_roundtrip",
"C91_create_type",
"C91_decode",
"C91_methods",
"C91_passphrase",
"C91_texts",
"C98_hash_failure_as_code",
"C98_hash_failure_as_passphrase"
],
"decode_other": [
"C82_decode",
"C82_read",
"C82_roundtrip"
],
"decode_wif_default": [],
"decode_wif_eq": [
"C85_wif",
"C85_wif_roundtrip",
"C85_wif_unchecked",
"C86_characters",
"C86_encrypt",
"C88_methods",
"C89_roundtrip",
"C91_decode",
"C91_methods",
"C91_passphrase",
"C91_texts"
],
"decrypt_detail": [
"C55_decrypt_detail",
"C77_methods",
"C86_characters",
"C86_decrypt",
"C88_methods",
"C89_ec",
"C89_roundtrip",
"C91_methods",
"C91_passphrase",
"C91_texts"
],
"decrypt_ec_block": [
"C86_characters",
"C86_decrypt",
"C88_methods",
"C89_ec",
"C89_roundtrip",
"C91_methods",
"C91_passphrase",
"C91_texts"
],
"decrypt_factor": [
"C86_characters",
"C86_decrypt",
"C88_methods",
"C89_ec",
"C89_roundtrip",
"C91_methods",
"C91_passphrase",
"C91_texts"
],
"decrypt_noEc_block": [
"C86_characters",
"C86_decrypt",
"C88_methods",
"C89_ec",
"C89_roundtrip",
"C91_methods",
"C91_passphrase",
"C91_texts"
],
"decrypt_noEc_tail": [
"C86_characters",
"C86_decrypt",
"C88_methods",
"C89_ec",
"C89_roundtrip",
"C91_methods",
"C91_passphrase",
"C91_texts"
],
"decrypt_obj": [
"C86_characters",
"C86_decrypt",
"C88_methods",
"C89_ec",
"C89_roundtrip",
"C91_methods",
"C91_passphrase",
"C91_texts"
],
"decrypt_split": [
"C86_characters",
"C86_decrypt",
"C88_methods",
"C89_ec",
"C89_roundtrip",
"C91_methods",
"C91_passphrase",
"C91_texts"
],
"decrypt_types": [
"C86_characters",
"C86_decrypt",
"C88_methods",
"C89_ec",
"C89_roundtrip",
"C91_methods",
"C91_passphrase",
"C91_texts"
],
"enc_loop": [
"C82_encode",
"C82_read",
"C82_roundtrip",
"C85_address",
"C85_address_roundtrip",
"C85_wif",
"C85_wif_roundtrip",
"C85_wif_unchecked",
"C86_characters",
"C86_confirm_code",
"C86_create_new_encrypted_wif",
"C86_decrypt",
"C86_encrypt",
"C86_intermediate_code",
"C88_intermediate_code",
"C88_methods",
"C89_ec",
"C89_roundtrip",
"C91_intermediate_code",
"C91_methods",
"C91_numbers",
"C91_passphrase",
"C91_public_key_type",
"C91_texts"
],
"enc_tail": [
"C82_bad_alphabets",
"C82_encode",
"C82_read",
"C82_roundtrip",
"C85_address",
"C85_address_roundtrip",
"C85_wif",
"C85_wif_roundtrip",
"C85_wif_unchecked",
"C86_characters",
"C86_confirm_code",
"C86_create_new_encrypted_wif",
"C86_decrypt",
"C86_encrypt",
"C86_intermediate_code",
"C88_intermediate_code",
"C88_methods",
"C89_ec",
"C89_roundtrip",
"C91_intermediate_code",
"C91_methods",
"C91_numbers",
"C91_passphrase",
"C91_public_key_type",
"C91_texts"
],
"encode_bytes": [
"C82_encode",
"C82_read",
"C82_roundtrip",
"C85_address",
"C85_address_roundtrip",
"C85_wif",
"C85_wif_roundtrip",
"C85_wif_unchecked",
"C86_characters",
"C86_confirm_code",
"C86_create_new_encrypted_wif",
"C86_decrypt",
"C86_encrypt",
"C86_intermediate_code",
"C88_intermediate_code",
"C88_methods",
"C89_ec",
"C89_roundtrip",
"C91_intermediate_code",
"C91_methods",
"C91_numbers",
"C91_passphrase",
"C91_public_key_type",
"C91_texts"
],
"encode_other": [
"C82_encode_other"
],
"encode_wif_default": [],
"encode_wif_eq": [
"C85_wif",
"C85_wif_roundtrip",
"C85_wif_unchecked",
"C86_characters",
"C86_decrypt",
"C88_methods",
"C89_ec",
"C89_roundtrip",
"C91_methods",
"C91_passphrase",
"C91_texts"
],
"encrypt_src": [
"C86_characters",
"C86_encrypt",
"C88_methods",
"C89_roundtrip",
"C91_methods",
"C91_passphrase",
"C91_texts"
],
"ensure_string_eq": [
"C82_decode",
"C82_read",
"C82_roundtrip"
],
"error_loop": [
"C81_error_text",
"C84_key_methods",
"C84_point",
"C84_private_key",
"C84_public_key",
"C85_address",
"C85_address_roundtrip",
"C85_wif",
"C85_wif_roundtrip",
"C85_wif_unchecked",
"C86_characters",
"C86_confirm_code",
"C86_constructor",
"C86_create_new_encrypted_wif",
"C86_decrypt",
"C86_encrypt",
"C86_intermediate_code",
"C88_constructor",
"C88_intermediate_code",
"C88_methods",
"C89_ec",
"C89_roundtrip",
"C91_constructor",
"C91_create_type",
"C91_decode",
"C91_intermediate_code",
"C91_methods",
"C91_network",
"C91_numbers",
"C91_passphrase",
"C91_public_key_type",
"C91_texts",
"C91_wif_type",
"C98_addresses",
"C98_bip38",
"C98_keys",
"C98_points"
],
"fi_eq": [
"C81_crypto",
"C81_crypto_bytes",
"C83_fallback",
"C83_ripemd160",
"C85_address",
"C85_address_roundtrip",
"C86_characters",
"C86_confirm_code",
"C86_create_new_encrypted_wif",
"C86_decrypt",
"C86_encrypt",
"C88_methods",
"C89_ec",
"C89_roundtrip",
"C91_methods",
"C91_passphrase",
"C91_public_key_type",
"C91_texts"
],
"get_bytes_default": [
"C81_crypto",
"C81_crypto_bytes",
"C81_get_bytes",
"C81_get_bytes_text",
"C81_hex_roundtrip",
"C83_fallback",
"C85_address",
"C85_address_roundtrip",
"C85_wif",
"C85_wif_roundtrip",
"C85_wif_unchecked",
"C86_characters",
"C86_confirm_code",
"C86_create_new_encrypted_wif",
"C86_decrypt",
"C86_encrypt",
"C86_intermediate_code",
"C88_intermediate_code",
"C88_methods",
"C89_ec",
"C89_roundtrip",
"C91_create_type",
"C91_intermediate_code",
"C91_methods",
"C91_numbers",
"C91_passphrase",
"C91_public_key_type",
"C91_texts"
],
"get_bytes_eq": [
"C81_crypto",
"C81_crypto_bytes",
"C81_get_bytes",
"C81_get_bytes_text",
"C81_hex_roundtrip",
"C83_fallback",
"C85_address",
"C85_address_roundtrip",
"C85_wif",
"C85_wif_roundtrip",
"C85_wif_unchecked",
"C86_characters",
"C86_confirm_code",
"C86_create_new_encrypted_wif",
"C86_decrypt",
"C86_encrypt",
"C86_intermediate_code",
"C88_intermediate_code",
"C88_methods",
"C89_ec",
"C89_roundtrip",
"C91_create_type",
"C91_intermediate_code",
"C91_methods",
"C91_numbers",
"C91_passphrase",
"C91_public_key_type",
"C91_texts"
],
"get_wif_checksum_eq": [
"C85_wif",
"C85_wif_roundtrip",
"C85_wif_unchecked",
"C89_roundtrip"
],
"get_wif_type_eq": [
"C85_wif",
"C85_wif_roundtrip",
"C85_wif_unchecked",
"C86_characters",
"C86_encrypt",
"C88_methods",
"C89_roundtrip",
"C91_methods",
"C91_passphrase",
"C91_texts"
],
"init_src": [
"C86_characters",
"C86_constructor",
"C88_constructor",
"C88_methods",
"C89_ec",
"C89_roundtrip"
],
"integer_to_bytes_default": [
"C81_integer_roundtrip",
"C81_integer_to_bytes",
"C85_address",
"C85_address_roundtrip",
"C85_wif",
"C85_wif_roundtrip",
"C85_wif_unchecked",
"C86_characters",
"C86_confirm_code",
"C86_create_new_encrypted_wif",
"C86_decrypt",
"C86_encrypt",
"C86_intermediate_code",
"C88_intermediate_code",
"C88_methods",
"C89_ec",
"C89_roundtrip",
"C91_decode",
"C91_intermediate_code",
"C91_methods",
"C91_numbers",
"C91_passphrase",
"C91_public_key_type",
"C91_texts"
],
"integer_to_bytes_eq": [
"C81_integer_roundtrip",
"C81_integer_to_bytes",
"C84_point",
"C85_address",
"C85_address_roundtrip",
"C85_wif",
"C85_wif_roundtrip",
"C85_wif_unchecked",
"C86_characters",
"C86_confirm_code",
"C86_create_new_encrypted_wif",
"C86_decrypt",
"C86_encrypt",
"C86_intermediate_code",
"C88_intermediate_code",
"C88_methods",
"C89_ec",
"C89_roundtrip",
"C91_decode",
"C91_intermediate_code",
"C91_methods",
"C91_numbers",
"C91_passphrase",
"C91_public_key_type",
"C91_texts"
],
"integer_to_bytes_length": [],
"intermediate_src": [
"C86_characters",
"C86_intermediate_code",
"C88_intermediate_code",
"C89_ec",
"C91_intermediate_code",
"C91_passphrase"
],
"intermediate_tail": [
"C11_intermediate",
"C26_refuted",
"C26_validation",
"C27_unusable_code",
"C28_layout",
"C29_decrypt_create",
"C29_refuted",
"C30_confirm_create",
"C30_refuted",
"C31_lot_sequence",
"C32_long_seed_lost",
"C32_refuted_long",
"C32_refuted_short",
"C34_illegal_refuted",
"C57_recreate",
"C62_determines",
"C65_created_standard",
"C69_intermediate",
"C70_intermediate",
"C73_never",
"C74_text_zero",
"C74_used",
"C86_characters",
"C86_intermediate_code",
"C88_intermediate_code",
"C89_ec",
"C91_intermediate_code",
"C91_numbers",
"C91_passphrase"
],
"p2pkh_decode_eq": [
"C85_address",
"C85_address_roundtrip",
"C91_decode"
],
"p2pkh_encode_eq": [
"C85_address",
"C85_address_roundtrip",
"C86_characters",
"C86_confirm_code",
"C86_create_new_encrypted_wif",
"C86_decrypt",
"C86_encrypt",
"C88_methods",
"C89_ec",
"C89_roundtrip",
"C91_methods",
"C91_passphrase",
"C91_texts"
],
"p2pkh_encode_kw": [],
"p2pkh_tail": [
"C85_address",
"C85_address_roundtrip",
"C86_characters",
"C86_confirm_code",
"C86_create_new_encrypted_wif",
"C86_decrypt",
"C86_encrypt",
"C88_methods",
"C89_ec",
"C89_roundtrip",
"C91_methods",
"C91_passphrase",
"C91_texts"
],
"package_sound": [
"C96_all_loaded",
"C96_except",
"C96_import",
"C96_kept",
"C96_links",
"C96_one_object",
"C96_only_faults",
"C96_public",
"C96_reads"
],
"private_key_to_wif_eq": [
"C85_wif",
"C85_wif_roundtrip",
"C85_wif_unchecked",
"C86_characters",
"C86_decrypt",
"C88_methods",
"C89_ec",
"C89_roundtrip",
"C91_methods",
"C91_passphrase",
"C91_texts"
],
"ripemd160_eq": [
"C38_fallback",
"C38_length",
"C38_ripemd160",
"C81_crypto",
"C81_crypto_bytes",
"C83_fallback",
"C83_ripemd160",
"C85_address",
"C85_address_roundtrip",
"C86_characters",
"C86_confirm_code",
"C86_create_new_encrypted_wif",
"C86_decrypt",
"C86_encrypt",
"C88_methods",
"C89_ec",
"C89_roundtrip",
"C91_methods",
"C91_passphrase",
"C91_public_key_type",
"C91_texts"
],
"rol_eq": [
"C81_crypto",
"C81_crypto_bytes",
"C83_fallback",
"C83_ripemd160",
"C85_address",
"C85_address_roundtrip",
"C86_characters",
"C86_confirm_code",
"C86_create_new_encrypted_wif",
"C86_decrypt",
"C86_encrypt",
"C88_methods",
"C89_ec",
"C89_roundtrip",
"C91_methods",
"C91_passphrase",
"C91_public_key_type",
"C91_texts"
],
"sim_BIP38_confirm_code": [
"C92_bip38",
"C93_bip38",
"C93_no_random",
"C94_bip38",
"C94_scrypt",
"C95_encrypt"
],
"sim_BIP38_decrypt": [
"C92_bip38",
"C93_bip38",
"C93_no_random",
"C94_bip38",
"C94_scrypt",
"C95_encrypt"
],
"sim_BIP38_encrypt": [
"C92_bip38",
"C93_bip38",
"C93_no_random",
"C94_bip38",
"C94_scrypt",
"C95_encrypt"
],
"sim_PrivateKey_from_bytes": [
"C92_bip38",
"C92_keys",
"C93_bip38",
"C93_keys",
"C93_no_random",
"C94_bip38",
"C94_keys",
"C94_scrypt",
"C95_encrypt"
],
"sim_PublicKey_from_bytes": [
"C92_addresses",
"C92_bip38",
"C92_keys",
"C93_addresses",
"C93_bip38",
"C93_keys",
"C93_no_random",
"C94_addresses",
"C94_bip38",
"C94_keys",
"C94_scrypt",
"C95_encrypt",
"C98_bip38"
],
"sim_crypto_ripemd160": [
"C92_addresses",
"C92_bip38",
"C92_crypto",
"C93_addresses",
"C93_bip38",
"C93_crypto",
"C93_no_random",
"C94_addresses",
"C94_bip38",
"C94_crypto",
"C94_scrypt",
"C95_encrypt"
],
"sim_crypto_sha256": [
"C92_addresses",
"C92_bip38",
"C92_crypto",
"C92_wif",
"C93_addresses",
"C93_bip38",
"C93_crypto",
"C93_no_random",
"C93_wif",
"C94_addresses",
"C94_bip38",
"C94_crypto",
"C94_scrypt",
"C94_wif",
"C95_encrypt"
],
"st_BIP38_confirm_code_L391": [
"C98_bip38"
],
"st_BIP38_confirm_code_L440": [
"C98_bip38"
],
"st_BIP38_create_new_encrypted_wif_L264": [
"C98_bip38"
],
"st_Point_from_bytes_L46": [
"C98_points"
],
"st_Point_raw_decoded": [
"C98_points"
],
"st_Point_raw_encoded": [
"C98_points"
],
"st_PrivateKey_from_bytes_L44": [
"C98_bip38",
"C98_keys"
],
"sti_loop": [
"C82_bad_alphabets",
"C82_encode",
"C82_read",
"C82_roundtrip",
"C85_address",
"C85_address_roundtrip",
"C85_wif",
"C85_wif_roundtrip",
"C85_wif_unchecked",
"C86_characters",
"C86_confirm_code",
"C86_create_new_encrypted_wif",
"C86_decrypt",
"C86_encrypt",
"C86_intermediate_code",
"C88_intermediate_code",
"C88_methods",
"C89_ec",
"C89_roundtrip",
"C91_intermediate_code",
"C91_methods",
"C91_numbers",
"C91_passphrase",
"C91_public_key_type",
"C91_texts"
],
"string_to_int_eq": [
"C82_bad_alphabets",
"C82_encode",
"C82_read",
"C82_roundtrip",
"C85_address",
"C85_address_roundtrip",
"C85_wif",
"C85_wif_roundtrip",
"C85_wif_unchecked",
"C86_characters",
"C86_confirm_code",
"C86_create_new_encrypted_wif",
"C86_decrypt",
"C86_encrypt",
"C86_intermediate_code",
"C88_intermediate_code",
"C88_methods",
"C89_ec",
"C89_roundtrip",
"C91_intermediate_code",
"C91_methods",
"C91_numbers",
"C91_passphrase",
"C91_public_key_type",
"C91_texts"
],
"wif_to_private_key_eq": [
"C85_wif",
"C85_wif_roundtrip",
"C85_wif_unchecked",
"C86_characters",
"C86_encrypt",
"C88_methods",
"C89_roundtrip",
"C91_methods",
"C91_passphrase",
"C91_texts"
]
}