{"i": 0, "file": "Model/Bip38.lean", "definition": "wrongNetwork", "old": "\"<class 'str'>\"", "new": "\"str\"", "claims": ["C24"], "desc": "class shown differently in the network error", "ok": false, "fails": ["wrongNetwork_eq"], "files": {"Verif/Props/Select.lean": ["wrongNetwork_eq"]}, "broken": ["C24_constructor_errors", "C24_unknown_network"], "hit": ["C24"], "direct": [], "rounds": 2, "note": ""}
{"i": 1, "file": "Model/Bip38.lean", "definition": "wrongNetwork", "old": "(.list (networks.map String.toList))", "new": ".none", "claims": ["C24"], "desc": "known networks not listed in the error", "ok": false, "fails": ["wrongNetwork_eq"], "files": {"Verif/Props/Select.lean": ["wrongNetwork_eq"]}, "broken": ["C24_constructor_errors", "C24_unknown_network"], "hit": ["C24"], "direct": [], "rounds": 2, "note": ""}
{"i": 2, "file": "Model/Bip38.lean", "definition": "BIP38.new", "old": "raiseIf (network ∉ networks) .networkError (wrongNetwork networks)\n", "new": "", "claims": ["C24"], "desc": "constructor accepts unknown networks", "ok": false, "fails": ["BIP38.new"], "files": {"Verif/Model/Bip38.lean": ["BIP38.new"]}, "broken": [], "hit": [], "direct": [], "rounds": 1, "note": "model does not compile Verif/Model/Bip38.lean"}
{"i": 3, "file": "Model/Bip38.lean", "definition": "BIP38.new", "old": ".cryptocurrencyError (errText", "new": ".networkError (errText", "claims": ["C24"], "desc": "wrong class for a class that is no coin", "ok": false, "fails": ["C24_constructor_errors"], "files": {"Verif/Props/Select.lean": ["C24_constructor_errors"]}, "broken": ["C24_constructor_errors"], "hit": ["C24"], "direct": ["C24"], "rounds": 2, "note": ""}
{"i": 4, "file": "Model/Bip38.lean", "definition": "lotFactor", "old": "\"100000 <= lot <= 999999\".toList", "new": "\"0 <= lot <= 999999\".toList", "claims": ["C69"], "desc": "wrong range in the text", "ok": false, "fails": ["C69_intermediate", "C73_intermediate_passphrase", "C74_used"], "files": {"Verif/Props/Messages.lean": ["C69_intermediate"], "Verif/Props/Numbers.lean": ["C74_used"], "Verif/Props/AnyArgs.lean": ["C73_intermediate_passphrase"]}, "broken": ["C69_intermediate", "C70_intermediate", "C73_intermediate_passphrase", "C73_never", "C74_text_zero", "C74_used"], "hit": ["C69"], "direct": ["C69"], "rounds": 3, "note": ""}
{"i": 5, "file": "Model/Bip38.lean", "definition": "lotFactor", "old": "(.one true \"0 <= sequence <= 4095\".toList) (toString sequence)", "new": "(.one true \"0 <= sequence <= 4095\".toList) (toString lot)", "claims": ["C69"], "desc": "lot shown in the error about the sequence", "ok": false, "fails": ["C69_intermediate", "C73_intermediate_passphrase", "C74_used"], "files": {"Verif/Props/Messages.lean": ["C69_intermediate"], "Verif/Props/Numbers.lean": ["C74_used"], "Verif/Props/AnyArgs.lean": ["C73_intermediate_passphrase"]}, "broken": ["C69_intermediate", "C70_intermediate", "C73_intermediate_passphrase", "C73_never", "C74_text_zero", "C74_used"], "hit": ["C69"], "direct": ["C69"], "rounds": 3, "note": ""}
{"i": 6, "file": "Model/Bip38.lean", "definition": "lotFactor", "old": "raiseIf (¬ (0 ≤ sequence ∧ sequence ≤ 4095)) .error", "new": "raiseIf (¬ (0 ≤ sequence ∧ sequence ≤ 4096)) .error", "claims": ["C26", "C69"], "desc": "sequence 4096 accepted", "ok": false, "fails": ["C69_intermediate", "C73_intermediate_passphrase", "C74_used", "intermediate_eq"], "files": {"Verif/Props/Intermediate.lean": ["intermediate_eq"], "Verif/Props/Messages.lean": ["C69_intermediate"], "Verif/Props/Numbers.lean": ["C74_used"], "Verif/Props/AnyArgs.lean": ["C73_intermediate_passphrase"]}, "broken": ["C11_intermediate", "C26_refuted", "C26_validation", "C27_unusable_code", "C28_layout", "C29_decrypt_create", "C29_refuted", "C30_confirm_create", "C30_refuted", "C31_lot_sequence", "C32_long_seed_lost", "C32_refuted_long", "C32_refuted_short", "C34_illegal_refuted", "C57_recreate", "C62_determines", "C65_created_standard", "C69_intermediate", "C70_intermediate", "C73_intermediate_passphrase", "C73_never", "C74_text_zero", "C74_used"], "hit": ["C26", "C69"], "direct": ["C69"], "rounds": 4, "note": ""}
{"i": 7, "file": "Model/Bip38.lean", "definition": "intermediateCode", "old": "(.list [\"8\".toList, \"16\".toList])", "new": "(.list [\"4\".toList, \"8\".toList])", "claims": ["C69"], "desc": "lengths in bytes in the text", "ok": false, "fails": ["C69_intermediate", "C73_intermediate_passphrase", "C74_ignored", "C74_integers", "C74_one_missing", "C74_text"], "files": {"Verif/Props/Messages.lean": ["C69_intermediate"], "Verif/Props/AnyArgs.lean": ["C73_intermediate_passphrase"], "Verif/Props/Numbers.lean": ["C74_integers", "C74_one_missing", "C74_ignored", "C74_text"]}, "broken": ["C69_intermediate", "C70_intermediate", "C73_intermediate_passphrase", "C73_never", "C74_ignored", "C74_integers", "C74_one_missing", "C74_text"], "hit": ["C69"], "direct": ["C69"], "rounds": 3, "note": "nodecl Verif/Props/Numbers.lean"}
{"i": 8, "file": "Model/Bip38.lean", "definition": "intermediateCode", "old": "(.one true \"16\".toList) (toString (hexText ownerSalt).length)", "new": "(.one true \"16\".toList) (toString ownerSalt.length)", "claims": ["C69"], "desc": "length in bytes shown", "ok": false, "fails": ["C69_intermediate", "C73_intermediate_passphrase", "C74_ignored", "C74_integers", "C74_one_missing", "C74_text"], "files": {"Verif/Props/Messages.lean": ["C69_intermediate"], "Verif/Props/AnyArgs.lean": ["C73_intermediate_passphrase"], "Verif/Props/Numbers.lean": ["C74_integers", "C74_one_missing", "C74_ignored", "C74_text"]}, "broken": ["C69_intermediate", "C70_intermediate", "C73_intermediate_passphrase", "C73_never", "C74_ignored", "C74_integers", "C74_one_missing", "C74_text"], "hit": ["C69"], "direct": ["C69"], "rounds": 3, "note": "nodecl Verif/Props/Numbers.lean"}
{"i": 9, "file": "Model/Bip38.lean", "definition": "intermediateCode", "old": "(lot = none ∨ sequence = none)) .error", "new": "(lot = none ∧ sequence = none)) .error", "claims": ["C26", "C69"], "desc": "4-byte salt with only one number passes the salt check", "ok": false, "fails": ["C69_intermediate", "C73_intermediate_passphrase", "C74_integers", "intermediate_eq"], "files": {"Verif/Props/Intermediate.lean": ["intermediate_eq"], "Verif/Props/Messages.lean": ["C69_intermediate"], "Verif/Props/AnyArgs.lean": ["C73_intermediate_passphrase"], "Verif/Props/Numbers.lean": ["C74_integers"]}, "broken": ["C11_intermediate", "C26_refuted", "C26_validation", "C27_unusable_code", "C28_layout", "C29_decrypt_create", "C29_refuted", "C30_confirm_create", "C30_refuted", "C31_lot_sequence", "C32_long_seed_lost", "C32_refuted_long", "C32_refuted_short", "C34_illegal_refuted", "C57_recreate", "C62_determines", "C65_created_standard", "C69_intermediate", "C70_intermediate", "C73_intermediate_passphrase", "C73_never", "C74_ignored", "C74_integers", "C74_one_missing", "C74_text", "C74_text_zero"], "hit": ["C26", "C69"], "direct": ["C69"], "rounds": 4, "note": ""}
{"i": 10, "file": "Model/Bip38.lean", "definition": "intermediateCode", "old": "raiseIf ((truthyInt lot ∧ sequence = none) ∨ (lot = none ∧ truthyInt sequence)) .error", "new": "raiseIf (truthyInt lot ∧ sequence = none) .error", "claims": ["C26", "C69"], "desc": "sequence without lot accepted", "ok": false, "fails": ["C69_intermediate", "C73_intermediate_passphrase", "C74_integers", "intermediate_eq", "intermediate_noLot"], "files": {"Verif/Lemmas/Intermediate.lean": ["intermediate_noLot"], "Verif/Props/Intermediate.lean": ["intermediate_eq"], "Verif/Props/Messages.lean": ["C69_intermediate"], "Verif/Props/AnyArgs.lean": ["C73_intermediate_passphrase"], "Verif/Props/Numbers.lean": ["C74_integers"]}, "broken": ["C11_intermediate", "C26_refuted", "C26_validation", "C27_unusable_code", "C28_layout", "C29_decrypt_create", "C29_refuted", "C30_confirm_create", "C30_refuted", "C31_lot_sequence", "C32_long_seed_lost", "C32_refuted_long", "C32_refuted_short", "C34_illegal_refuted", "C57_recreate", "C62_determines", "C65_created_standard", "C69_intermediate", "C70_intermediate", "C73_intermediate_passphrase", "C73_never", "C74_ignored", "C74_integers", "C74_one_missing", "C74_text", "C74_text_zero"], "hit": ["C26", "C69"], "direct": ["C69"], "rounds": 5, "note": ""}
{"i": 11, "file": "Model/Bip38.lean", "definition": "intermediateCode", "old": "\"got: (lot \" ++ pyInt lot ++ \") & (sequence \" ++ pyInt sequence ++ \")\"", "new": "\"got: (lot \" ++ pyInt sequence ++ \") & (sequence \" ++ pyInt lot ++ \")\"", "claims": ["C69"], "desc": "numbers swapped in the text", "ok": false, "fails": ["C69_intermediate", "C70_intermediate", "C73_intermediate_passphrase", "C74_integers", "example@114", "example@409", "numberText"], "files": {"Verif/Props/Messages.lean": ["C69_intermediate", "numberText", "example@114", "C70_intermediate", "example@409"], "Verif/Props/AnyArgs.lean": ["C73_intermediate_passphrase"], "Verif/Props/Numbers.lean": ["C74_integers"]}, "broken": ["C69_intermediate", "C70_intermediate", "C73_intermediate_passphrase", "C73_never", "C74_ignored", "C74_integers", "C74_one_missing", "C74_text"], "hit": ["C69"], "direct": ["C69"], "rounds": 3, "note": ""}
{"i": 12, "file": "Model/Bip38.lean", "definition": "intermediateCode", "old": "raiseIf (ownerSalt.length ∉ [4, 8]) .error", "new": "raiseIf (ownerSalt.length ∉ [8]) .error", "claims": ["C26", "C69"], "desc": "4-byte salts refused", "ok": false, "fails": ["C62_salt_prefix", "C69_intermediate", "C73_intermediate_passphrase", "C74_integers", "intermediate_eq", "intermediate_lot", "intermediate_noLot"], "files": {"Verif/Lemmas/Intermediate.lean": ["intermediate_lot", "intermediate_noLot"], "Verif/Props/Intermediate.lean": ["intermediate_eq"], "Verif/Props/Outcome.lean": ["C62_salt_prefix"], "Verif/Props/Messages.lean": ["C69_intermediate"], "Verif/Props/AnyArgs.lean": ["C73_intermediate_passphrase"], "Verif/Props/Numbers.lean": ["C74_integers"]}, "broken": ["C11_intermediate", "C26_refuted", "C26_validation", "C27_unusable_code", "C28_layout", "C29_decrypt_create", "C29_refuted", "C30_confirm_create", "C30_refuted", "C31_lot_sequence", "C32_long_seed_lost", "C32_refuted_long", "C32_refuted_short", "C34_illegal_refuted", "C57_recreate", "C62_determines", "C62_salt_prefix", "C65_created_standard", "C69_intermediate", "C70_intermediate", "C73_intermediate_passphrase", "C73_never", "C74_ignored", "C74_integers", "C74_one_missing", "C74_text", "C74_text_zero"], "hit": ["C26", "C69"], "direct": ["C69"], "rounds": 6, "note": ""}
{"i": 13, "file": "Model/Bip38.lean", "definition": "pyInt", "old": "| none => \"None\"", "new": "| none => \"\"", "claims": ["C69"], "desc": "None printed as nothing", "ok": false, "fails": ["C69_intermediate", "C74_integers"], "files": {"Verif/Props/Messages.lean": ["C69_intermediate"], "Verif/Props/Numbers.lean": ["C74_integers"]}, "broken": ["C69_intermediate", "C70_intermediate", "C74_ignored", "C74_integers", "C74_one_missing", "C74_text"], "hit": ["C69"], "direct": ["C69"], "rounds": 3, "note": ""}
{"i": 14, "file": "Model/Bip38.lean", "definition": "createNewEncryptedWif", "old": "\"Invalid intermediate passphrase\"\n  raiseIf", "new": "\"Invalid passphrase\"\n  raiseIf", "claims": ["C68"], "desc": "other message", "ok": false, "fails": ["C68_refused"], "files": {"Verif/Props/Outcome2.lean": ["C68_refused"]}, "broken": ["C68_refused", "C70_create"], "hit": ["C68"], "direct": ["C68"], "rounds": 2, "note": ""}
{"i": 15, "file": "Model/Bip38.lean", "definition": "createNewEncryptedWif", "old": "(.one true \"49\".toList) (toString intermediateDecode.length)", "new": "(.one true \"49\".toList) (toString intermediatePassphrase.length)", "claims": ["C68"], "desc": "length of the text instead of the payload shown", "ok": false, "fails": ["C68_refused"], "files": {"Verif/Props/Outcome2.lean": ["C68_refused"]}, "broken": ["C68_refused", "C70_create"], "hit": ["C68"], "direct": ["C68"], "rounds": 2, "note": ""}
{"i": 16, "file": "Model/Bip38.lean", "definition": "createNewEncryptedWif", "old": "raiseIf (intermediateDecode.length ≠ 49) .passphraseError", "new": "raiseIf (intermediateDecode.length < 49) .passphraseError", "claims": ["C33", "C68"], "desc": "longer codes accepted", "ok": false, "fails": ["C27_unusable_code", "C33_factor_point", "C33_length", "C33_magic", "C33_type", "C68_refused", "C68_refused_point", "create_eq"], "files": {"Verif/Lemmas/Create.lean": ["create_eq"], "Verif/Props/Intermediate.lean": ["C27_unusable_code"], "Verif/Props/Create.lean": ["C33_length", "C33_type", "C33_magic", "C33_factor_point"], "Verif/Props/Outcome2.lean": ["C68_refused", "C68_refused_point"]}, "broken": ["C11_create", "C27_unusable_code", "C29_decrypt_create", "C29_refuted", "C30_confirm_create", "C30_refuted", "C31_lot_sequence", "C32_long_seed_lost", "C32_refuted_long", "C32_refuted_short", "C33_errors", "C33_factor_point", "C33_length", "C33_magic", "C33_returns", "C33_type", "C34_create_flag", "C34_illegal_refuted", "C37_ripple_create", "C52_seed_injective", "C57_recreate", "C63_confirmation_injective", "C65_created_standard", "C68_create", "C68_refused", "C68_refused_point", "C70_create"], "hit": ["C33", "C68"], "direct": ["C33", "C68"], "rounds": 5, "note": ""}
{"i": 17, "file": "Model/Bip38.lean", "definition": "newFlag", "old": "(String.ofList (hexText magic))", "new": "(String.ofList (hexText magicLot))", "claims": ["C68"], "desc": "wrong magic shown", "ok": false, "fails": ["newFlag_error"], "files": {"Verif/Lemmas/ReportBip38.lean": ["newFlag_error"]}, "broken": ["C11_create", "C29_decrypt_create", "C29_refuted", "C30_confirm_create", "C30_refuted", "C31_lot_sequence", "C32_long_seed_lost", "C33_errors", "C33_magic", "C33_returns", "C34_create_flag", "C34_illegal_refuted", "C37_ripple_create", "C52_seed_injective", "C63_confirmation_injective", "C65_created_standard", "C68_refused", "C70_create"], "hit": ["C68"], "direct": [], "rounds": 2, "note": ""}
{"i": 18, "file": "Model/Bip38.lean", "definition": "publicKeyTypeOf", "old": "(.list (WIF_TYPES.map String.toList)) wifType", "new": "(.list (WIF_TYPES.map String.toList))", "claims": ["C68"], "desc": "given type not shown", "ok": false, "fails": ["publicKeyTypeOf_error"], "files": {"Verif/Lemmas/ReportBip38.lean": ["publicKeyTypeOf_error"]}, "broken": ["C11_create", "C29_decrypt_create", "C29_refuted", "C30_confirm_create", "C30_refuted", "C31_lot_sequence", "C32_long_seed_lost", "C33_errors", "C33_returns", "C33_type", "C34_create_flag", "C34_illegal_refuted", "C37_ripple_create", "C52_seed_injective", "C63_confirmation_injective", "C65_created_standard", "C68_refused", "C70_create"], "hit": ["C68"], "direct": [], "rounds": 2, "note": ""}
{"i": 19, "file": "Model/Bip38.lean", "definition": "confirmCode", "old": "(.one true \"102\".toList)", "new": "(.one true \"51\".toList)", "claims": ["C67"], "desc": "other expected length shown", "ok": false, "fails": ["C34_confirm_flag", "C67_malformed", "C73_confirm_passphrase"], "files": {"Verif/Props/Flags.lean": ["C34_confirm_flag"], "Verif/Props/Outcome2.lean": ["C67_malformed"], "Verif/Props/AnyArgs.lean": ["C73_confirm_passphrase"]}, "broken": ["C34_confirm_flag", "C67_malformed", "C70_confirm", "C73_confirm_passphrase", "C73_never"], "hit": ["C67"], "direct": ["C67"], "rounds": 3, "note": ""}
{"i": 20, "file": "Model/Bip38.lean", "definition": "confirmCode", "old": "raiseIf (decoded.length ≠ 51) .error", "new": "raiseIf (decoded.length ≠ 51) .passphraseError", "claims": ["C67"], "desc": "wrong class", "ok": false, "fails": ["C34_confirm_flag", "C35_length", "C67_malformed", "C73_confirm_passphrase"], "files": {"Verif/Props/Confirm.lean": ["C35_length"], "Verif/Props/Flags.lean": ["C34_confirm_flag"], "Verif/Props/Outcome2.lean": ["C67_malformed"], "Verif/Props/AnyArgs.lean": ["C73_confirm_passphrase"]}, "broken": ["C34_confirm_flag", "C35_length", "C35_prefix", "C35_sound", "C37_ripple_confirm", "C40_confirm_errors", "C61_confirm_elsewhere", "C67_malformed", "C70_confirm", "C73_confirm_passphrase", "C73_never"], "hit": ["C67"], "direct": ["C67"], "rounds": 4, "note": ""}
{"i": 21, "file": "Model/Bip38.lean", "definition": "confirmCode", "old": "(errText \"Invalid confirmation code prefix\" (.one true (toString prefixLength).toList) (String.ofList (bytesRepr prefixGot)))", "new": "(errText \"Invalid confirmation code prefix\" (.one true (toString prefixLength).toList) (String.ofList passphrase))", "claims": ["C70", "C67"], "desc": "the passphrase leaks into the text of an error", "ok": false, "fails": ["C25_nfc", "C67_malformed", "C73_confirm_passphrase"], "files": {"Verif/Props/Select.lean": ["C25_nfc"], "Verif/Props/Outcome2.lean": ["C67_malformed"], "Verif/Props/AnyArgs.lean": ["C73_confirm_passphrase"]}, "broken": ["C25_nfc", "C67_malformed", "C70_confirm", "C73_confirm_passphrase", "C73_never"], "hit": ["C70", "C67"], "direct": ["C67"], "rounds": 4, "note": ""}
{"i": 22, "file": "Model/Bip38.lean", "definition": "decryptNoEc", "old": "raiseIf (addressChecksum ≠ addressHash) .passphraseError \"Incorrect passphrase\"", "new": "raiseIf (addressChecksum ≠ addressHash) .passphraseError (String.ofList (hex privateKey))", "claims": ["C70", "C66"], "desc": "the private key leaks into the text of an error", "ok": false, "fails": ["decryptNoEc_eq"], "files": {"Verif/Lemmas/NoEc.lean": ["decryptNoEc_eq"]}, "broken": ["C17_decrypt_encrypt", "C17_refuted", "C17_roundtrip_iff", "C20_C21_returned_key", "C22_refuted", "C34_illegal_refuted", "C37_refuted", "C37_ripple_decrypt", "C40_decrypt_errors", "C40_noEc_iff", "C41_other_network", "C53_reencrypt", "C57_recreate", "C61_decrypt_elsewhere", "C64_decrypt_standard", "C66_noEc", "C70_decrypt", "C71_canonical", "C71_encrypted", "C71_history", "C71_path_independent", "C71_reencrypt", "C71_rekeyed", "C71_returned_large", "C71_step", "C71_wif"], "hit": ["C70", "C66"], "direct": [], "rounds": 2, "note": ""}
{"i": 23, "file": "Model/Bip38.lean", "definition": "createNewEncryptedWif", "old": ".error \"Invalid EC encrypted WIF (Wallet Import Format)\"\n  let passPublicKey", "new": ".error (String.ofList (hex seedB))\n  let passPublicKey", "claims": ["C70", "C68"], "desc": "the seed leaks into the text of an error", "ok": false, "fails": ["C68_refused_point"], "files": {"Verif/Props/Outcome2.lean": ["C68_refused_point"]}, "broken": ["C68_refused_point", "C70_create"], "hit": ["C70", "C68"], "direct": ["C68"], "rounds": 2, "note": ""}
{"i": 24, "file": "Model/Bip38.lean", "definition": "decryptEc", "old": "    else .ok (.wif wif)\n  else raise .passphraseError \"Incorrect passphrase\"", "new": "    else .ok (.wif wif)\n  else raise .passphraseError (\"Incorrect passphrase \" ++ String.ofList passphrase)", "claims": ["C70", "C66"], "desc": "the passphrase leaks into the text of an error", "ok": false, "fails": ["C25_nfc", "decryptEc_eq"], "files": {"Verif/Lemmas/Ec.lean": ["decryptEc_eq"], "Verif/Props/Select.lean": ["C25_nfc"]}, "broken": ["C20_C21_returned_key", "C22_refuted", "C25_nfc", "C29_decrypt_create", "C29_refuted", "C31_lot_sequence", "C31_reported_pair", "C32_long_seed_lost", "C34_decrypt_flag", "C34_decrypt_reading", "C34_illegal_refuted", "C34_unknown_flag", "C37_refuted", "C37_ripple_decrypt", "C40_decrypt_errors", "C40_ec_iff", "C53_reencrypt", "C57_recreate", "C61_decrypt_elsewhere", "C64_decrypt_standard_ec", "C66_ec", "C70_decrypt", "C71_canonical", "C71_encrypted", "C71_path_independent", "C71_reencrypt", "C71_rekeyed", "C71_returned_large"], "hit": ["C70", "C66"], "direct": [], "rounds": 3, "note": ""}
{"i": 25, "file": "Model/Bip38.lean", "definition": "decryptNoEc", "old": "(.list [hexText flagU, hexText flagC]) (String.ofList (hexText flag))", "new": "(.list [hexText flagU]) (String.ofList (hexText flag))", "claims": ["C66"], "desc": "one expected flag missing in the text", "ok": false, "fails": ["C66_malformed", "C73_decrypt_passphrase"], "files": {"Verif/Props/Outcome2.lean": ["C66_malformed"], "Verif/Props/AnyArgs.lean": ["C73_decrypt_passphrase"]}, "broken": ["C66_malformed", "C70_decrypt", "C73_decrypt_passphrase", "C73_never"], "hit": ["C66"], "direct": ["C66"], "rounds": 3, "note": ""}
{"i": 26, "file": "Model/Bip38.lean", "definition": "decrypt", "old": "(.one true \"43\".toList) (toString decoded.length)", "new": "(.one true \"43\".toList) (toString encryptedWif.length)", "claims": ["C66"], "desc": "length of the text shown", "ok": false, "fails": ["C22_checksum_ignored", "C66_malformed", "C73_decrypt_passphrase"], "files": {"Verif/Props/Decrypt.lean": ["C22_checksum_ignored"], "Verif/Props/Outcome2.lean": ["C66_malformed"], "Verif/Props/AnyArgs.lean": ["C73_decrypt_passphrase"]}, "broken": ["C22_checksum_ignored", "C22_refuted", "C66_malformed", "C70_decrypt", "C73_decrypt_passphrase", "C73_never"], "hit": ["C66"], "direct": ["C66"], "rounds": 4, "note": ""}
{"i": 27, "file": "Model/Bip38.lean", "definition": "decrypt", "old": "raiseIf (decoded.length ≠ 43) .wifError", "new": "raiseIf (decoded.length ≠ 43) .error", "claims": ["C23", "C66"], "desc": "wrong class", "ok": false, "fails": ["C23_length", "C66_malformed", "C73_decrypt_passphrase"], "files": {"Verif/Props/Decrypt.lean": ["C23_length"], "Verif/Props/Outcome2.lean": ["C66_malformed"], "Verif/Props/AnyArgs.lean": ["C73_decrypt_passphrase"]}, "broken": ["C20_C21_returned_key", "C22_refuted", "C23_length", "C34_illegal_refuted", "C37_refuted", "C37_ripple_decrypt", "C40_decrypt_errors", "C53_reencrypt", "C57_recreate", "C61_decrypt_elsewhere", "C66_malformed", "C70_decrypt", "C71_canonical", "C71_encrypted", "C71_path_independent", "C71_reencrypt", "C71_rekeyed", "C71_returned_large", "C73_decrypt_passphrase", "C73_never"], "hit": ["C23", "C66"], "direct": ["C23", "C66"], "rounds": 4, "note": ""}
{"i": 28, "file": "Model/Bip38.lean", "definition": "decrypt", "old": "let decoded ← b58decode encryptedWif\n", "new": "let decoded ← checkDecode P.sha256 encryptedWif\n  let decoded := decoded ++ (P.sha256 (P.sha256 decoded)).take 4\n", "claims": ["C22", "C66"], "desc": "the checksum is verified (an improvement, but another behaviour)", "ok": false, "fails": ["C20_C21_returned_key", "C22_checksum_ignored", "C23_length", "C23_non_ascii", "C23_prefix", "C40_decrypt_errors", "C66_malformed", "C70_decrypt", "C73_decrypt_passphrase", "decrypt_ec", "decrypt_noEc"], "files": {"Verif/Lemmas/NoEc.lean": ["decrypt_noEc", "decrypt_ec"], "Verif/Props/Decrypt.lean": ["C23_length", "C23_prefix", "C23_non_ascii", "C20_C21_returned_key", "C22_checksum_ignored", "C40_decrypt_errors"], "Verif/Props/Outcome2.lean": ["C66_malformed"], "Verif/Props/Messages.lean": ["C70_decrypt"], "Verif/Props/AnyArgs.lean": ["C73_decrypt_passphrase"]}, "broken": ["C17_decrypt_encrypt", "C17_refuted", "C17_roundtrip_iff", "C20_C21_returned_key", "C22_checksum_ignored", "C22_refuted", "C23_flag", "C23_length", "C23_non_ascii", "C23_prefix", "C29_decrypt_create", "C29_refuted", "C31_lot_sequence", "C31_reported_pair", "C32_long_seed_lost", "C34_decrypt_flag", "C34_decrypt_reading", "C34_illegal_refuted", "C34_unknown_flag", "C37_refuted", "C37_ripple_decrypt", "C40_decrypt_errors", "C40_ec_iff", "C40_noEc_iff", "C41_other_network", "C53_reencrypt", "C57_recreate", "C61_decrypt_elsewhere", "C64_decrypt_standard", "C64_decrypt_standard_ec", "C66_ec", "C66_malformed", "C66_noEc", "C70_decrypt", "C71_canonical", "C71_encrypted", "C71_history", "C71_path_independent", "C71_reencrypt", "C71_rekeyed", "C71_returned_large", "C71_step", "C71_wif", "C73_decrypt_passphrase", "C73_never"], "hit": ["C22", "C66"], "direct": ["C22", "C66"], "rounds": 6, "note": ""}
{"i": 29, "file": "Model/Bip38.lean", "definition": "hexText", "old": "| .ok t => t", "new": "| .ok t => t.map Char.toUpper", "claims": ["C66"], "desc": "capitals in texts", "ok": false, "fails": ["hexText_eq"], "files": {"Verif/Lemmas/ReportBip38.lean": ["hexText_eq"]}, "broken": ["C11_create", "C29_decrypt_create", "C29_refuted", "C30_confirm_create", "C30_refuted", "C31_lot_sequence", "C32_long_seed_lost", "C33_errors", "C33_magic", "C33_returns", "C34_create_flag", "C34_illegal_refuted", "C37_ripple_create", "C52_seed_injective", "C63_confirmation_injective", "C65_created_standard", "C66_malformed", "C68_refused", "C69_intermediate", "C70_create", "C70_decrypt", "C70_intermediate", "C73_never"], "hit": ["C66"], "direct": [], "rounds": 2, "note": ""}
{"i": 30, "file": "Model/Wif.lean", "definition": "encodeWif", "old": "(.one true \"64\".toList)", "new": "(.one true \"32\".toList)", "claims": ["C49"], "desc": "other expected length", "ok": false, "fails": ["encodeWif_length"], "files": {"Verif/Props/Wif.lean": ["encodeWif_length"]}, "broken": ["C07_wrong_length", "C49_key_argument"], "hit": ["C49"], "direct": [], "rounds": 2, "note": ""}
{"i": 31, "file": "Model/Wif.lean", "definition": "encodeWif", "old": "raiseIf (key.length ≠ 32 ∧ privateKey = .none) .typeError \"object of type 'NoneType' has no len()\"\n", "new": "", "claims": ["C49"], "desc": "None reported as a wrong length", "ok": false, "fails": ["encodeWif"], "files": {"Verif/Model/Wif.lean": ["encodeWif"]}, "broken": [], "hit": [], "direct": [], "rounds": 1, "note": "model does not compile Verif/Model/Wif.lean"}
{"i": 32, "file": "Model/Wif.lean", "definition": "decodeWif", "old": "raiseIf (¬ pre.isPrefixOf raw) .wifError \"Invalid Wallet Import Format (WIF)\"", "new": "raiseIf (¬ pre.isPrefixOf raw) .wifError \"Invalid WIF\"", "claims": ["C08"], "desc": "other text", "ok": false, "fails": ["decodeWif_wrong_prefix"], "files": {"Verif/Lemmas/Wif.lean": ["decodeWif_wrong_prefix"]}, "broken": ["C08_library", "C08_one_byte", "C08_other_network", "C09_decode_wif_iff", "C11_encrypt", "C17_decrypt_encrypt", "C17_refuted", "C17_roundtrip_iff", "C19_record", "C22_refuted", "C34_encrypt_flag", "C37_refuted", "C41_other_network", "C49_decode_errors", "C49_readers_agree", "C51_injective", "C58_wif_networks", "C60_encrypt", "C70_encrypt", "C71_canonical", "C71_encrypted", "C71_history", "C71_path_independent", "C71_reencrypt", "C71_rekeyed", "C71_step", "C71_wif", "C73_encrypt_passphrase", "C73_never"], "hit": ["C08"], "direct": [], "rounds": 2, "note": ""}
{"i": 33, "file": "Model/Wif.lean", "definition": "privateKeyToWif", "old": "raiseIf (wifType ∉ WIF_TYPES) .wifError (errText \"Wrong WIF type\" (.list (WIF_TYPES.map String.toList)) wifType)\n", "new": "", "claims": ["C07"], "desc": "unknown types treated as compressed", "ok": false, "fails": ["privateKeyToWif"], "files": {"Verif/Model/Wif.lean": ["privateKeyToWif"]}, "broken": [], "hit": [], "direct": [], "rounds": 1, "note": "model does not compile Verif/Model/Wif.lean"}
{"i": 34, "file": "Model/Wif.lean", "definition": "lookupNet", "old": "raise .keyError network", "new": "raise .networkError network", "claims": ["C49"], "desc": "NetworkError instead of KeyError", "ok": false, "fails": ["C49_unknown_network"], "files": {"Verif/Props/WifMore.lean": ["C49_unknown_network"]}, "broken": ["C49_unknown_network"], "hit": ["C49"], "direct": ["C49"], "rounds": 2, "note": ""}
{"i": 35, "file": "Model/P2pkh.lean", "definition": "p2pkhDecode", "old": "(\"Invalid prefix (expected: \" ++ String.ofList (bytesRepr pre)", "new": "(\"Invalid prefix (expected: \" ++ String.ofList (bytesRepr prefixGot)", "claims": ["C13"], "desc": "expected prefix wrong in the text", "ok": false, "fails": ["p2pkhDecode_eq"], "files": {"Verif/Lemmas/P2pkh.lean": ["p2pkhDecode_eq"]}, "broken": ["C12_address_roundtrip", "C13_bad_checksum", "C13_bad_payload", "C13_decode_iff", "C13_texts", "C58_address_networks"], "hit": ["C13"], "direct": [], "rounds": 2, "note": ""}
{"i": 36, "file": "Model/P2pkh.lean", "definition": "p2pkhDecode", "old": "toString expectedLength ++ \", got: \"", "new": "\"25\" ++ \", got: \"", "claims": ["C13"], "desc": "fixed length in the text", "ok": false, "fails": ["p2pkhDecode_eq"], "files": {"Verif/Lemmas/P2pkh.lean": ["p2pkhDecode_eq"]}, "broken": ["C12_address_roundtrip", "C13_bad_checksum", "C13_bad_payload", "C13_decode_iff", "C13_texts", "C58_address_networks"], "hit": ["C13"], "direct": [], "rounds": 2, "note": ""}
{"i": 37, "file": "Model/Exceptions.lean", "definition": "bytesRepr", "old": "let q := if 39 ∈ b ∧ 34 ∉ b then '\"' else '\\''", "new": "let q := '\\''", "claims": ["C13", "C67"], "desc": "always single quotes", "ok": false, "fails": ["example@132"], "files": {"Verif/Props/Address.lean": ["example@132"]}, "broken": [], "hit": [], "direct": [], "rounds": 2, "note": ""}
{"i": 38, "file": "Model/Exceptions.lean", "definition": "byteRepr", "old": "if b = 92 ∨ b.toNat = q.toNat then", "new": "if b.toNat = q.toNat then", "claims": ["C13", "C67"], "desc": "backslash not escaped", "ok": false, "fails": ["example@132"], "files": {"Verif/Props/Address.lean": ["example@132"]}, "broken": [], "hit": [], "direct": [], "rounds": 2, "note": ""}
{"i": 39, "file": "Model/Exceptions.lean", "definition": "byteRepr", "old": "b.toNat < 32 ∨ 127 ≤ b.toNat", "new": "b.toNat < 32 ∨ 128 ≤ b.toNat", "claims": ["C13", "C67"], "desc": "DEL printed raw", "ok": true, "fails": [], "files": {}, "broken": [], "hit": [], "direct": [], "rounds": 1, "note": ""}
{"i": 40, "file": "Model/Exceptions.lean", "definition": "errText", "old": "(got : String := \"None\")", "new": "(got : String := \"\")", "claims": ["C39"], "desc": "default of got", "ok": true, "fails": [], "files": {}, "broken": [], "hit": [], "direct": [], "rounds": 1, "note": ""}
{"i": 41, "file": "Model/Exceptions.lean", "definition": "expectedTruthy", "old": "| some (b, _) => b", "new": "| some _ => true", "claims": ["C39"], "desc": "falsy expected values shown", "ok": false, "fails": ["init_expected"], "files": {"Verif/Props/Exceptions.lean": ["init_expected"]}, "broken": ["C07_wrong_length", "C07_wrong_type", "C11_create", "C24_constructor_errors", "C24_unknown_network", "C29_decrypt_create", "C29_refuted", "C30_confirm_create", "C30_refuted", "C31_lot_sequence", "C32_long_seed_lost", "C33_errors", "C33_magic", "C33_returns", "C33_type", "C34_create_flag", "C34_illegal_refuted", "C37_ripple_create", "C39_detail", "C39_expected", "C39_message", "C39_plain", "C39_text", "C49_key_argument", "C52_seed_injective", "C63_confirmation_injective", "C65_created_standard", "C66_malformed", "C67_malformed", "C68_refused", "C69_intermediate", "C70_confirm", "C70_create", "C70_decrypt", "C70_intermediate", "C73_never", "C74_one_missing", "C74_text_zero", "C74_used"], "hit": ["C39"], "direct": [], "rounds": 2, "note": ""}
{"i": 42, "file": "Model/Bip38.lean", "definition": "createNewEncryptedWif", "old": "let publicKeyType ← publicKeyTypeOf wifType\n  let flag ← newFlag magic publicKeyType\n", "new": "let flag ← newFlag magic wifType\n  let publicKeyType ← publicKeyTypeOf wifType\n", "claims": ["C33", "C68"], "desc": "magic checked before the type", "ok": false, "fails": ["C33_factor_point", "C33_magic", "C33_type", "C68_refused", "C68_refused_point", "create_eq"], "files": {"Verif/Lemmas/Create.lean": ["create_eq"], "Verif/Props/Create.lean": ["C33_type", "C33_magic", "C33_factor_point"], "Verif/Props/Outcome2.lean": ["C68_refused", "C68_refused_point"]}, "broken": ["C11_create", "C29_decrypt_create", "C29_refuted", "C30_confirm_create", "C30_refuted", "C31_lot_sequence", "C32_long_seed_lost", "C32_refuted_long", "C32_refuted_short", "C33_errors", "C33_factor_point", "C33_magic", "C33_returns", "C33_type", "C34_create_flag", "C34_illegal_refuted", "C37_ripple_create", "C52_seed_injective", "C57_recreate", "C63_confirmation_injective", "C65_created_standard", "C68_create", "C68_refused", "C68_refused_point", "C70_create"], "hit": ["C33", "C68"], "direct": ["C33", "C68"], "rounds": 4, "note": ""}
{"i": 43, "file": "Model/Bip38.lean", "definition": "encrypt", "old": "raiseIf (network ∉ self.networks) .networkError (wrongNetwork self.networks)\n  let wifType ←", "new": "let wifType ←", "claims": ["C24", "C60"], "desc": "network not checked", "ok": false, "fails": ["C24_unknown_network", "C60_encrypt", "C73_encrypt_passphrase", "encrypt_reads"], "files": {"Verif/Props/NoEc.lean": ["encrypt_reads"], "Verif/Props/Select.lean": ["C24_unknown_network"], "Verif/Props/Outcome.lean": ["C60_encrypt"], "Verif/Props/AnyArgs.lean": ["C73_encrypt_passphrase"]}, "broken": ["C11_encrypt", "C17_decrypt_encrypt", "C17_refuted", "C17_roundtrip_iff", "C19_record", "C22_refuted", "C24_unknown_network", "C34_encrypt_flag", "C37_refuted", "C41_other_network", "C51_injective", "C60_encrypt", "C70_encrypt", "C71_canonical", "C71_encrypted", "C71_history", "C71_path_independent", "C71_reencrypt", "C71_rekeyed", "C71_step", "C71_wif", "C73_encrypt_passphrase", "C73_never"], "hit": ["C24", "C60"], "direct": ["C24", "C60"], "rounds": 5, "note": ""}
{"i": 44, "file": "Model/Bip38.lean", "definition": "createNewEncryptedWif", "old": "let seedB ← bytesOrRandom seed urandom24\n  let intermediateDecode ← checkDecodeOr P intermediatePassphrase .passphraseError \"Invalid intermediate passphrase\"\n", "new": "let intermediateDecode ← checkDecodeOr P intermediatePassphrase .passphraseError \"Invalid intermediate passphrase\"\n  let seedB ← bytesOrRandom seed urandom24\n", "claims": ["C33"], "desc": "seed read after the intermediate code", "ok": false, "fails": ["C27_unusable_code", "C33_checksum", "C33_factor_point", "C33_length", "C33_magic", "C33_seed", "C33_type", "C68_refused", "C68_refused_point", "C73_create", "create_eq"], "files": {"Verif/Lemmas/Create.lean": ["create_eq"], "Verif/Props/Intermediate.lean": ["C27_unusable_code"], "Verif/Props/Create.lean": ["C33_seed", "C33_checksum", "C33_length", "C33_type", "C33_magic", "C33_factor_point"], "Verif/Props/Outcome2.lean": ["C68_refused", "C68_refused_point"], "Verif/Props/AnyArgs.lean": ["C73_create"]}, "broken": ["C11_create", "C27_unusable_code", "C29_decrypt_create", "C29_refuted", "C30_confirm_create", "C30_refuted", "C31_lot_sequence", "C32_long_seed_lost", "C32_refuted_long", "C32_refuted_short", "C33_checksum", "C33_errors", "C33_factor_point", "C33_length", "C33_magic", "C33_returns", "C33_seed", "C33_type", "C34_create_flag", "C34_illegal_refuted", "C37_ripple_create", "C52_seed_injective", "C57_recreate", "C63_confirmation_injective", "C65_created_standard", "C68_create", "C68_refused", "C68_refused_point", "C70_create", "C73_create"], "hit": ["C33"], "direct": ["C33"], "rounds": 6, "note": ""}
{"i": 45, "file": "Model/Bip38.lean", "definition": "decryptNoEc", "old": "let wif ← privateKeyToWif P (.bytes privateKey) wifType self.cryptocurrency network\n  if detail then do\n    let privateKeyText", "new": "let wif ← privateKeyToWif P (.bytes privateKey) \"wif-compressed\" self.cryptocurrency network\n  if detail then do\n    let privateKeyText", "claims": ["C71", "C17"], "desc": "decrypt always writes compressed WIFs", "ok": false, "fails": ["decryptNoEc_eq"], "files": {"Verif/Lemmas/NoEc.lean": ["decryptNoEc_eq"]}, "broken": ["C17_decrypt_encrypt", "C17_refuted", "C17_roundtrip_iff", "C20_C21_returned_key", "C22_refuted", "C34_illegal_refuted", "C37_refuted", "C37_ripple_decrypt", "C40_decrypt_errors", "C40_noEc_iff", "C41_other_network", "C53_reencrypt", "C57_recreate", "C61_decrypt_elsewhere", "C64_decrypt_standard", "C66_noEc", "C70_decrypt", "C71_canonical", "C71_encrypted", "C71_history", "C71_path_independent", "C71_reencrypt", "C71_rekeyed", "C71_returned_large", "C71_step", "C71_wif"], "hit": ["C71", "C17"], "direct": [], "rounds": 2, "note": ""}
{"i": 46, "file": "Model/Bip38.lean", "definition": "decryptEc", "old": "then do\n    let wif ← privateKeyToWif P (.bytes privateKey) wifType self.cryptocurrency network", "new": "then do\n    let wif ← privateKeyToWif P (.bytes privateKey) wifType self.cryptocurrency self.network", "claims": ["C71", "C61"], "desc": "the network argument ignored when writing the WIF", "ok": false, "fails": ["C56_same_prefixes", "decryptEc_eq"], "files": {"Verif/Lemmas/Ec.lean": ["decryptEc_eq"], "Verif/Props/Network.lean": ["C56_same_prefixes"]}, "broken": ["C20_C21_returned_key", "C22_refuted", "C29_decrypt_create", "C29_refuted", "C31_lot_sequence", "C31_reported_pair", "C32_long_seed_lost", "C34_decrypt_flag", "C34_decrypt_reading", "C34_illegal_refuted", "C34_unknown_flag", "C37_refuted", "C37_ripple_decrypt", "C40_decrypt_errors", "C40_ec_iff", "C53_reencrypt", "C56_same_prefixes", "C57_recreate", "C61_decrypt_elsewhere", "C64_decrypt_standard_ec", "C66_ec", "C70_decrypt", "C71_canonical", "C71_encrypted", "C71_path_independent", "C71_reencrypt", "C71_rekeyed", "C71_returned_large"], "hit": ["C71", "C61"], "direct": [], "rounds": 3, "note": ""}
{"i": 47, "file": "Model/Bip38.lean", "definition": "lotSequenceOf", "old": "let lot := (b2i (c :: cs) - sequence) / 4096", "new": "let lot := b2i (c :: cs) / 4095", "claims": ["C31"], "desc": "wrong divisor", "ok": false, "fails": ["lotSequenceOf_eq"], "files": {"Verif/Lemmas/Ec.lean": ["lotSequenceOf_eq"]}, "broken": ["C20_C21_returned_key", "C22_refuted", "C29_decrypt_create", "C29_refuted", "C30_confirm_create", "C30_refuted", "C31_confirm_pair", "C31_lot_sequence", "C31_reported_pair", "C32_long_seed_lost", "C34_confirm_flag", "C34_confirm_reading", "C34_decrypt_flag", "C34_decrypt_reading", "C34_illegal_refuted", "C34_unknown_flag", "C35_iff", "C35_sound", "C37_refuted", "C37_ripple_confirm", "C37_ripple_decrypt", "C40_confirm_errors", "C40_decrypt_errors", "C40_ec_iff", "C53_reencrypt", "C57_recreate", "C61_confirm_elsewhere", "C61_decrypt_elsewhere", "C64_confirm_standard", "C64_decrypt_standard_ec", "C66_ec", "C67_confirm", "C70_confirm", "C70_decrypt", "C71_canonical", "C71_encrypted", "C71_path_independent", "C71_reencrypt", "C71_rekeyed", "C71_returned_large"], "hit": ["C31"], "direct": [], "rounds": 2, "note": ""}
{"i": 48, "file": "Model/Bip38.lean", "definition": "splitEntropy", "old": "(ownerEntropy.take 4, some (ownerEntropy.drop 4))", "new": "(ownerEntropy, some (ownerEntropy.drop 4))", "claims": ["C64", "C29"], "desc": "whole entropy as salt", "ok": false, "fails": ["splitEntropy_eq"], "files": {"Verif/Lemmas/Ec.lean": ["splitEntropy_eq"]}, "broken": ["C20_C21_returned_key", "C22_refuted", "C29_decrypt_create", "C29_refuted", "C30_confirm_create", "C30_refuted", "C31_confirm_pair", "C31_lot_sequence", "C31_reported_pair", "C32_long_seed_lost", "C34_confirm_flag", "C34_confirm_reading", "C34_decrypt_flag", "C34_decrypt_reading", "C34_illegal_refuted", "C34_unknown_flag", "C35_iff", "C35_sound", "C37_refuted", "C37_ripple_confirm", "C37_ripple_decrypt", "C40_confirm_errors", "C40_decrypt_errors", "C40_ec_iff", "C53_reencrypt", "C57_recreate", "C61_confirm_elsewhere", "C61_decrypt_elsewhere", "C64_confirm_standard", "C64_decrypt_standard_ec", "C66_ec", "C67_confirm", "C70_confirm", "C70_decrypt", "C71_canonical", "C71_encrypted", "C71_path_independent", "C71_reencrypt", "C71_rekeyed", "C71_returned_large"], "hit": ["C64", "C29"], "direct": [], "rounds": 2, "note": ""}
{"i": 49, "file": "Model/Bip38.lean", "definition": "xorBytes", "old": "integerToBytes ((b2i a ^^^ b2i b : Nat) : Int)", "new": "integerToBytes ((b2i a ^^^ b2i b : Nat) : Int) (some 16)", "claims": ["C60", "C18"], "desc": "byte count given (the repair of the finding, another behaviour)", "ok": false, "fails": ["confirm_detail", "decryptEc_detail", "decryptEc_eq", "decryptNoEc_detail", "decryptNoEc_eq", "encrypt_eq", "xorBytes_eq", "xorBytes_xb"], "files": {"Verif/Lemmas/Bip38.lean": ["xorBytes_eq", "xorBytes_xb"], "Verif/Lemmas/NoEc.lean": ["encrypt_eq", "decryptNoEc_eq"], "Verif/Lemmas/Ec.lean": ["decryptEc_eq"], "Verif/Props/Detail.lean": ["decryptNoEc_detail", "decryptEc_detail", "confirm_detail"]}, "broken": ["C11_create", "C11_encrypt", "C17_decrypt_encrypt", "C17_refuted", "C17_roundtrip_iff", "C18_encrypt_returns_iff", "C18_refuted", "C19_record", "C20_C21_returned_key", "C22_refuted", "C29_decrypt_create", "C29_refuted", "C30_confirm_create", "C30_refuted", "C31_confirm_pair", "C31_lot_sequence", "C31_reported_pair", "C32_long_seed_lost", "C32_refuted_long", "C32_refuted_short", "C33_errors", "C33_returns", "C34_confirm_flag", "C34_confirm_reading", "C34_create_flag", "C34_decrypt_flag", "C34_decrypt_reading", "C34_encrypt_flag", "C34_illegal_refuted", "C34_unknown_flag", "C35_iff", "C35_sound", "C37_refuted", "C37_ripple_confirm", "C37_ripple_create", "C37_ripple_decrypt", "C40_confirm_errors", "C40_decrypt_errors", "C40_ec_iff", "C40_noEc_iff", "C41_other_network", "C51_injective", "C52_seed_injective", "C53_reencrypt", "C55_confirm_detail", "C55_decrypt_detail", "C57_recreate", "C60_encrypt", "C61_confirm_elsewhere", "C61_decrypt_elsewhere", "C63_confirmation_injective", "C64_confirm_standard", "C64_decrypt_standard", "C64_decrypt_standard_ec", "C65_created_standard", "C66_ec", "C66_noEc", "C67_confirm", "C68_create", "C70_confirm", "C70_create", "C70_decrypt", "C70_encrypt", "C71_canonical", "C71_encrypted", "C71_history", "C71_path_independent", "C71_reencrypt", "C71_rekeyed", "C71_returned_large", "C71_step", "C71_wif", "C73_never"], "hit": ["C60", "C18"], "direct": [], "rounds": 5, "note": ""}
{"i": 50, "file": "Model/Bip38.lean", "definition": "xorBytes", "old": "(b2i a ^^^ b2i b : Nat)", "new": "(b2i a ||| b2i b : Nat)", "claims": ["C17", "C71"], "desc": "or instead of exclusive or", "ok": false, "fails": ["xorBytes_eq", "xorBytes_xb"], "files": {"Verif/Lemmas/Bip38.lean": ["xorBytes_eq", "xorBytes_xb"]}, "broken": ["C11_create", "C11_encrypt", "C17_decrypt_encrypt", "C17_refuted", "C17_roundtrip_iff", "C18_encrypt_returns_iff", "C18_refuted", "C19_record", "C20_C21_returned_key", "C22_refuted", "C29_decrypt_create", "C29_refuted", "C30_confirm_create", "C30_refuted", "C31_confirm_pair", "C31_lot_sequence", "C31_reported_pair", "C32_long_seed_lost", "C32_refuted_long", "C32_refuted_short", "C33_errors", "C33_returns", "C34_confirm_flag", "C34_confirm_reading", "C34_create_flag", "C34_decrypt_flag", "C34_decrypt_reading", "C34_encrypt_flag", "C34_illegal_refuted", "C34_unknown_flag", "C35_iff", "C35_sound", "C37_refuted", "C37_ripple_confirm", "C37_ripple_create", "C37_ripple_decrypt", "C40_confirm_errors", "C40_decrypt_errors", "C40_ec_iff", "C40_noEc_iff", "C41_other_network", "C51_injective", "C52_seed_injective", "C53_reencrypt", "C57_recreate", "C60_encrypt", "C61_confirm_elsewhere", "C61_decrypt_elsewhere", "C63_confirmation_injective", "C64_confirm_standard", "C64_decrypt_standard", "C64_decrypt_standard_ec", "C65_created_standard", "C66_ec", "C66_noEc", "C67_confirm", "C68_create", "C70_confirm", "C70_create", "C70_decrypt", "C70_encrypt", "C71_canonical", "C71_encrypted", "C71_history", "C71_path_independent", "C71_reencrypt", "C71_rekeyed", "C71_returned_large", "C71_step", "C71_wif", "C73_never"], "hit": ["C17", "C71"], "direct": [], "rounds": 2, "note": ""}
{"i": 51, "file": "Model/Bip38.lean", "definition": "decryptEc", "old": "let privateKey ← integerToBytes ((b2i passFactor * b2i factorB % N : Nat) : Int)", "new": "let privateKey ← integerToBytes ((b2i passFactor * b2i factorB % N : Nat) : Int) (some 32)", "claims": ["C64", "C29"], "desc": "byte count given (repair)", "ok": false, "fails": ["decryptEc_detail", "decryptEc_eq"], "files": {"Verif/Lemmas/Ec.lean": ["decryptEc_eq"], "Verif/Props/Detail.lean": ["decryptEc_detail"]}, "broken": ["C20_C21_returned_key", "C22_refuted", "C29_decrypt_create", "C29_refuted", "C31_lot_sequence", "C31_reported_pair", "C32_long_seed_lost", "C34_decrypt_flag", "C34_decrypt_reading", "C34_illegal_refuted", "C34_unknown_flag", "C37_refuted", "C37_ripple_decrypt", "C40_decrypt_errors", "C40_ec_iff", "C53_reencrypt", "C55_decrypt_detail", "C57_recreate", "C61_decrypt_elsewhere", "C64_decrypt_standard_ec", "C66_ec", "C70_decrypt", "C71_canonical", "C71_encrypted", "C71_path_independent", "C71_reencrypt", "C71_rekeyed", "C71_returned_large"], "hit": ["C64", "C29"], "direct": [], "rounds": 3, "note": ""}
{"i": 52, "file": "Model/Base58Any.lean", "definition": "utf8Next", "old": "if a < 0xe0 then\n      match r with\n      | x :: r => if cont x then char ((a - 0xc0) * 64 + bits x) 0x80 r", "new": "if a < 0xe0 then\n      match r with\n      | x :: r => if cont x then char ((a - 0xc0) * 64 + bits x) 0 r", "claims": ["C72"], "desc": "overlong two-byte forms accepted", "ok": false, "fails": ["example@65", "utf8Next_sound"], "files": {"Verif/Lemmas/Utf8.lean": ["utf8Next_sound"], "Verif/Props/AnyKind.lean": ["example@65"]}, "broken": ["C72_ensure_bytes", "C72_ensure_invalid", "C72_ensure_utf8"], "hit": ["C72"], "direct": [], "rounds": 3, "note": ""}
{"i": 53, "file": "Model/Base58Any.lean", "definition": "utf8Next", "old": "∧ ¬ (0xd800 ≤ v ∧ v ≤ 0xdfff)", "new": "", "claims": ["C72"], "desc": "surrogates accepted", "ok": false, "fails": ["example@65", "utf8Next_sound"], "files": {"Verif/Lemmas/Utf8.lean": ["utf8Next_sound"], "Verif/Props/AnyKind.lean": ["example@65"]}, "broken": ["C72_ensure_bytes", "C72_ensure_invalid", "C72_ensure_utf8"], "hit": ["C72"], "direct": [], "rounds": 3, "note": ""}
{"i": 54, "file": "Model/Base58Any.lean", "definition": "utf8Next", "old": "v ≤ 0x10ffff ∧", "new": "v ≤ 0x10fffe ∧", "claims": ["C72"], "desc": "last code point refused", "ok": false, "fails": ["utf8Next_encode"], "files": {"Verif/Lemmas/Utf8.lean": ["utf8Next_encode"]}, "broken": ["C72_ensure_bytes", "C72_ensure_invalid", "C72_ensure_utf8"], "hit": ["C72"], "direct": [], "rounds": 2, "note": ""}
{"i": 55, "file": "Model/Base58Any.lean", "definition": "utf8Next", "old": "let cont (x : UInt8) : Bool := 0x80 ≤ x.toNat ∧ x.toNat < 0xc0", "new": "let cont (x : UInt8) : Bool := 0x80 ≤ x.toNat", "claims": ["C72"], "desc": "any high byte continues a character", "ok": false, "fails": ["utf8Next_encode", "utf8Next_sound"], "files": {"Verif/Lemmas/Utf8.lean": ["utf8Next_encode", "utf8Next_sound"]}, "broken": ["C72_ensure_bytes", "C72_ensure_invalid", "C72_ensure_utf8"], "hit": ["C72"], "direct": [], "rounds": 2, "note": ""}
{"i": 56, "file": "Model/Base58Any.lean", "definition": "ensureStringAny", "old": "| .str s => .ok s\n  | _ => raise .valueError", "new": "| .str s => .ok s\n  | _ => raise .typeError", "claims": ["C72"], "desc": "TypeError instead of ValueError", "ok": false, "fails": ["C72_ensure_other"], "files": {"Verif/Props/AnyKind.lean": ["C72_ensure_other"]}, "broken": ["C72_ensure_other"], "hit": ["C72"], "direct": ["C72"], "rounds": 2, "note": ""}
{"i": 57, "file": "Model/Base58Any.lean", "definition": "stringToIntAny", "old": "| .str _ => some (raise .typeError", "new": "| .str _ => some (raise .valueError", "claims": ["C72"], "desc": "ValueError instead of TypeError", "ok": false, "fails": ["C72_encode"], "files": {"Verif/Props/AnyKind.lean": ["C72_encode"]}, "broken": ["C72_encode"], "hit": ["C72"], "direct": ["C72"], "rounds": 2, "note": ""}
{"i": 58, "file": "Model/Base58Any.lean", "definition": "b58decodeAny", "old": "| _ => raise .typeError \"encoding without a string argument\"", "new": "| .bytes b => .ok b\n  | _ => raise .typeError \"encoding without a string argument\"", "claims": ["C72"], "desc": "bytes returned as they are", "ok": false, "fails": ["C72_decode", "C73_create", "C73_decode", "C73_no_text"], "files": {"Verif/Props/AnyKind.lean": ["C72_decode"], "Verif/Props/AnyArgs.lean": ["C73_no_text", "C73_create", "C73_decode"]}, "broken": ["C72_decode", "C73_create", "C73_decode", "C73_never", "C73_no_text"], "hit": ["C72"], "direct": ["C72"], "rounds": 3, "note": ""}
{"i": 59, "file": "Model/Base58Any.lean", "definition": "checkDecodeAny", "old": "(sha256 (sha256 raw)).take 4", "new": "(sha256 raw).take 4", "claims": ["C72"], "desc": "single hash", "ok": false, "fails": ["C72_decode"], "files": {"Verif/Props/AnyKind.lean": ["C72_decode"]}, "broken": ["C72_decode"], "hit": ["C72"], "direct": ["C72"], "rounds": 2, "note": ""}
