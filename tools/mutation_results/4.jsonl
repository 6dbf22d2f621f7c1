{"i": 0, "file": "Model/Bip38Any.lean", "definition": "normalizeFails", "old": "raise .typeError \"normalize() argument 2 must be str\"", "new": "raise .valueError \"normalize() argument 2 must be str\"", "claims": ["C73"], "desc": "ValueError for a passphrase that is no text", "ok": false, "fails": ["C73_confirm_passphrase", "C73_decrypt_passphrase", "C73_encrypt_passphrase", "C73_intermediate_passphrase"], "files": {"Verif/Props/AnyArgs.lean": ["C73_encrypt_passphrase", "C73_decrypt_passphrase", "C73_confirm_passphrase", "C73_intermediate_passphrase"]}, "broken": ["C73_confirm_passphrase", "C73_decrypt_passphrase", "C73_encrypt_passphrase", "C73_intermediate_passphrase", "C73_never"], "hit": ["C73"], "direct": ["C73"], "rounds": 2, "note": ""}
{"i": 1, "file": "Model/Bip38Any.lean", "definition": "intermediateCodeAny", "old": "  | _ => do\n    let ownerSalt", "new": "  | .none => intermediateCode P [] lot sequence ownerSalt urandom8\n  | _ => do\n    let ownerSalt", "claims": ["C73"], "desc": "a missing passphrase taken for the empty one", "ok": false, "fails": ["C73_intermediate_passphrase"], "files": {"Verif/Props/AnyArgs.lean": ["C73_intermediate_passphrase"]}, "broken": ["C73_intermediate_passphrase", "C73_never"], "hit": ["C73"], "direct": ["C73"], "rounds": 2, "note": ""}
{"i": 2, "file": "Model/Bip38Any.lean", "definition": "encryptAny", "old": "  | .str w, _ => do", "new": "  | .str w, .none => self.encrypt P w [] network\n  | .str w, _ => do", "claims": ["C73"], "desc": "a missing passphrase taken for the empty one", "ok": false, "fails": ["C73_no_text", "encryptAny_eq"], "files": {"Verif/Props/AnyArgs.lean": ["C73_no_text", "encryptAny_eq"]}, "broken": ["C73_encrypt_passphrase", "C73_never", "C73_no_text"], "hit": ["C73"], "direct": ["C73"], "rounds": 2, "note": ""}
{"i": 3, "file": "Model/Bip38Any.lean", "definition": "encryptAny", "old": "  | .str w, _ => do\n    let network := self.selectNetwork network\n    raiseIf (network ∉ self.networks) .networkError (wrongNetwork self.networks)\n    let wifType ← getWifType w self.cryptocurrency network\n", "new": "  | .str w, _ => do\n    let network := self.selectNetwork network\n    raiseIf (network ∉ self.networks) .networkError (wrongNetwork self.networks)\n    let _ : Str ← normalizeFails\n    let wifType ← getWifType w self.cryptocurrency network\n", "claims": ["C73"], "desc": "passphrase normalised before the WIF is read", "ok": false, "fails": ["encryptAny_eq"], "files": {"Verif/Props/AnyArgs.lean": ["encryptAny_eq"]}, "broken": ["C73_encrypt_passphrase", "C73_never"], "hit": ["C73"], "direct": [], "rounds": 2, "note": ""}
{"i": 4, "file": "Model/Bip38Any.lean", "definition": "encryptAny", "old": "    let _ ← b58decodeAny d\n    .ok []", "new": "    let _ ← b58decodeAny (.str [])\n    .ok []", "claims": ["C73"], "desc": "a missing WIF gives an empty result", "ok": false, "fails": ["C73_no_text"], "files": {"Verif/Props/AnyArgs.lean": ["C73_no_text"]}, "broken": ["C73_never", "C73_no_text"], "hit": ["C73"], "direct": ["C73"], "rounds": 2, "note": ""}
{"i": 5, "file": "Model/Bip38Any.lean", "definition": "createAny", "old": ".passphraseError \"Invalid intermediate passphrase\" else .error e", "new": ".passphraseError \"Invalid intermediate passphrase\" else raise .passphraseError \"Invalid intermediate passphrase\"", "claims": ["C73"], "desc": "TypeError also turned into PassphraseError", "ok": false, "fails": ["C73_create"], "files": {"Verif/Props/AnyArgs.lean": ["C73_create"]}, "broken": ["C73_create"], "hit": ["C73"], "direct": ["C73"], "rounds": 2, "note": ""}
{"i": 6, "file": "Model/Bip38Any.lean", "definition": "createAny", "old": "    let _ ← bytesOrRandom seed urandom24\n", "new": "", "claims": ["C73"], "desc": "intermediate passphrase looked at before the seed", "ok": false, "fails": ["C73_create"], "files": {"Verif/Props/AnyArgs.lean": ["C73_create"]}, "broken": ["C73_create"], "hit": ["C73"], "direct": ["C73"], "rounds": 2, "note": ""}
{"i": 7, "file": "Model/Bip38Any.lean", "definition": "confirmAny", "old": "raise .error \"Invalid confirmation code\" else .error e", "new": "raise .error \"Invalid confirmation code\" else .ok (.address [])", "claims": ["C73"], "desc": "exceptions other than ValueError swallowed", "ok": false, "fails": ["C73_no_text"], "files": {"Verif/Props/AnyArgs.lean": ["C73_no_text"]}, "broken": ["C73_never", "C73_no_text"], "hit": ["C73"], "direct": ["C73"], "rounds": 2, "note": ""}
{"i": 8, "file": "Model/Bip38Any.lean", "definition": "confirmAny", "old": "    raiseIf (decoded.length ≠ 51) .error\n      (errText \"Invalid confirmation code length\" (.one true \"102\".toList) (toString decoded.length))\n", "new": "", "claims": ["C73"], "desc": "length not checked before the passphrase is used", "ok": false, "fails": ["confirmAny_eq"], "files": {"Verif/Props/AnyArgs.lean": ["confirmAny_eq"]}, "broken": ["C73_confirm_passphrase", "C73_never"], "hit": ["C73"], "direct": [], "rounds": 2, "note": ""}
{"i": 9, "file": "Model/Bip38Any.lean", "definition": "confirmAny", "old": "    raiseIf (confPrefix ≠ prefixGot) .error\n      (errText \"Invalid confirmation code prefix\" (.one true (toString prefixLength).toList) (String.ofList (bytesRepr prefixGot)))\n", "new": "", "claims": ["C73"], "desc": "prefix not checked before the passphrase is used", "ok": false, "fails": ["confirmAny_eq"], "files": {"Verif/Props/AnyArgs.lean": ["confirmAny_eq"]}, "broken": ["C73_confirm_passphrase", "C73_never"], "hit": ["C73"], "direct": [], "rounds": 2, "note": ""}
{"i": 10, "file": "Model/Bip38Any.lean", "definition": "decryptAny", "old": "if pre = ecPrefix then normalizeFails", "new": "if pre = ecPrefix then .ok (.wif [])", "claims": ["C73"], "desc": "decrypt of an EC record returns without a passphrase", "ok": false, "fails": ["decryptAny_eq"], "files": {"Verif/Props/AnyArgs.lean": ["decryptAny_eq"]}, "broken": ["C73_decrypt_passphrase", "C73_never"], "hit": ["C73"], "direct": [], "rounds": 2, "note": ""}
{"i": 11, "file": "Model/Bip38Any.lean", "definition": "decryptAny", "old": "      raiseIf (flag ≠ flagU ∧ flag ≠ flagC) .error\n        (errText \"Invalid flag\" (.list [hexText flagU, hexText flagC]) (String.ofList (hexText flag)))\n      normalizeFails", "new": "      normalizeFails", "claims": ["C73"], "desc": "flag checked after the passphrase", "ok": false, "fails": ["decryptAny_eq"], "files": {"Verif/Props/AnyArgs.lean": ["decryptAny_eq"]}, "broken": ["C73_decrypt_passphrase", "C73_never"], "hit": ["C73"], "direct": [], "rounds": 2, "note": ""}
{"i": 12, "file": "Model/Bip38Any.lean", "definition": "decryptAny", "old": "raiseIf (decoded.length ≠ 43) .wifError", "new": "raiseIf (decoded.length < 43) .wifError", "claims": ["C73"], "desc": "longer records reach the passphrase", "ok": false, "fails": ["decryptAny_eq"], "files": {"Verif/Props/AnyArgs.lean": ["decryptAny_eq"]}, "broken": ["C73_decrypt_passphrase", "C73_never"], "hit": ["C73"], "direct": [], "rounds": 2, "note": ""}
{"i": 13, "file": "Model/Bip38Any.lean", "definition": "decodeWifAny", "old": "  | d => do\n    let _ ← b58decodeAny d\n    .ok ([], \"\", [])", "new": "  | .bytes b => .ok (b, \"wif\", [])\n  | d => do\n    let _ ← b58decodeAny d\n    .ok ([], \"\", [])", "claims": ["C73"], "desc": "bytes accepted as a WIF", "ok": false, "fails": ["C73_decode"], "files": {"Verif/Props/AnyArgs.lean": ["C73_decode"]}, "broken": ["C73_decode"], "hit": ["C73"], "direct": ["C73"], "rounds": 2, "note": ""}
{"i": 14, "file": "Model/Bip38Any.lean", "definition": "p2pkhDecodeAny", "old": "    let _ ← checkDecodeAny P.sha256 d alphabet\n    .ok []", "new": "    .ok []", "claims": ["C73"], "desc": "an address that is no text decodes to nothing", "ok": false, "fails": ["C73_decode"], "files": {"Verif/Props/AnyArgs.lean": ["C73_decode"]}, "broken": ["C73_decode"], "hit": ["C73"], "direct": ["C73"], "rounds": 2, "note": ""}
{"i": 15, "file": "Model/Base58Any.lean", "definition": "b58decodeAny", "old": "| _ => raise .typeError \"encoding without a string argument\"", "new": "| .none => .ok []\n  | _ => raise .typeError \"encoding without a string argument\"", "claims": ["C72", "C73"], "desc": "None decodes to nothing", "ok": false, "fails": ["C72_decode", "C73_create", "C73_decode", "C73_no_text"], "files": {"Verif/Props/AnyKind.lean": ["C72_decode"], "Verif/Props/AnyArgs.lean": ["C73_no_text", "C73_create", "C73_decode"]}, "broken": ["C72_decode", "C73_create", "C73_decode", "C73_never", "C73_no_text"], "hit": ["C72", "C73"], "direct": ["C72", "C73"], "rounds": 3, "note": ""}
{"i": 16, "file": "Model/Bip38Num.lean", "definition": "NumArg.toInt", "old": "| .value _ i _ => i", "new": "| .value t i _ => if t then i else .ok 0", "claims": ["C74"], "desc": "false objects convert to 0 (never converted: no change)", "ok": false, "fails": ["C74_integers"], "files": {"Verif/Props/Numbers.lean": ["C74_integers"]}, "broken": ["C74_ignored", "C74_integers", "C74_one_missing", "C74_text"], "hit": ["C74"], "direct": ["C74"], "rounds": 2, "note": ""}
{"i": 17, "file": "Model/Bip38Num.lean", "definition": "NumArg.text", "old": ".value (s ≠ \"\") (parse s) s", "new": ".value (s ≠ \"\" ∧ s ≠ \"0\") (parse s) s", "claims": ["C74"], "desc": "the text 0 counts as false", "ok": false, "fails": ["C74_text", "example@178"], "files": {"Verif/Props/Numbers.lean": ["C74_text", "example@178"]}, "broken": ["C74_text"], "hit": ["C74"], "direct": ["C74"], "rounds": 2, "note": ""}
{"i": 18, "file": "Model/Bip38Num.lean", "definition": "NumArg.int", "old": ".value (n ≠ 0) (.ok n) (toString n)", "new": ".value true (.ok n) (toString n)", "claims": ["C74"], "desc": "the number 0 counts as true", "ok": false, "fails": ["C74_ignored", "C74_integers"], "files": {"Verif/Props/Numbers.lean": ["C74_integers", "C74_ignored"]}, "broken": ["C74_ignored", "C74_integers", "C74_one_missing", "C74_text"], "hit": ["C74"], "direct": ["C74"], "rounds": 2, "note": ""}
{"i": 19, "file": "Model/Bip38Num.lean", "definition": "intermediateCodeNum", "old": "      let l ← lot.toInt\n      let s ← sequence.toInt\n", "new": "      let s ← sequence.toInt\n      let l ← lot.toInt\n", "claims": ["C74"], "desc": "sequence converted first", "ok": false, "fails": ["C74_used"], "files": {"Verif/Props/Numbers.lean": ["C74_used"]}, "broken": ["C74_text_zero", "C74_used"], "hit": ["C74"], "direct": ["C74"], "rounds": 2, "note": ""}
{"i": 20, "file": "Model/Bip38Num.lean", "definition": "intermediateCodeNum", "old": "lotFactor P passphrase l s ownerSalt", "new": "lotFactor P passphrase s l ownerSalt", "claims": ["C74"], "desc": "lot and sequence swapped", "ok": false, "fails": ["C74_integers", "C74_used"], "files": {"Verif/Props/Numbers.lean": ["C74_integers", "C74_used"]}, "broken": ["C74_ignored", "C74_integers", "C74_one_missing", "C74_text", "C74_text_zero", "C74_used"], "hit": ["C74"], "direct": ["C74"], "rounds": 2, "note": ""}
{"i": 21, "file": "Model/Bip38Num.lean", "definition": "intermediateCodeNum", "old": "if lot.truthy ∧ sequence.truthy then", "new": "if lot.truthy ∨ sequence.truthy then", "claims": ["C74"], "desc": "one true number is enough", "ok": false, "fails": ["C74_ignored", "C74_integers", "C74_used"], "files": {"Verif/Props/Numbers.lean": ["C74_integers", "C74_ignored", "C74_used"]}, "broken": ["C74_ignored", "C74_integers", "C74_one_missing", "C74_text", "C74_text_zero", "C74_used"], "hit": ["C74"], "direct": ["C74"], "rounds": 2, "note": ""}
{"i": 22, "file": "Model/Bip38Num.lean", "definition": "intermediateCodeNum", "old": "(lot.isNone ∧ sequence.truthy)", "new": "(lot.isNone ∧ ¬ sequence.isNone)", "claims": ["C74"], "desc": "sequence=0 without lot is an error", "ok": false, "fails": ["C74_integers", "C74_one_missing"], "files": {"Verif/Props/Numbers.lean": ["C74_integers", "C74_one_missing"]}, "broken": ["C74_ignored", "C74_integers", "C74_one_missing", "C74_text"], "hit": ["C74"], "direct": ["C74"], "rounds": 2, "note": ""}
{"i": 23, "file": "Model/Bip38Num.lean", "definition": "intermediateCodeNum", "old": "\"got: (lot \" ++ lot.show", "new": "\"got: (lot \" ++ sequence.show", "claims": ["C74"], "desc": "wrong number shown", "ok": false, "fails": ["C74_integers", "C74_one_missing"], "files": {"Verif/Props/Numbers.lean": ["C74_integers", "C74_one_missing"]}, "broken": ["C74_ignored", "C74_integers", "C74_one_missing", "C74_text"], "hit": ["C74"], "direct": ["C74"], "rounds": 2, "note": ""}
{"i": 24, "file": "Model/Bip38Num.lean", "definition": "NumArg.show", "old": "| .none => \"None\"", "new": "| .none => \"\"", "claims": ["C74"], "desc": "None shown as nothing", "ok": false, "fails": ["C74_integers", "C74_one_missing"], "files": {"Verif/Props/Numbers.lean": ["C74_integers", "C74_one_missing"]}, "broken": ["C74_ignored", "C74_integers", "C74_one_missing", "C74_text"], "hit": ["C74"], "direct": ["C74"], "rounds": 2, "note": ""}
{"i": 25, "file": "Model/Wif.lean", "definition": "decodeWif", "old": "let raw ← b58decode wif", "new": "let raw ← b58decode (wif.filter (· ∈ bitcoinAlphabet))", "claims": ["C09", "C04"], "desc": "foreign characters skipped", "ok": false, "fails": ["C49_decode_errors", "C49_negative_prefix", "decodeWif_ok_iff", "decodeWif_payload", "decodeWif_wrong_prefix"], "files": {"Verif/Lemmas/Wif.lean": ["decodeWif_payload", "decodeWif_wrong_prefix", "decodeWif_ok_iff"], "Verif/Props/WifMore.lean": ["C49_negative_prefix", "C49_decode_errors"]}, "broken": ["C07_wif_roundtrip", "C08_injective", "C08_library", "C08_longer_prefix", "C08_one_byte", "C08_other_network", "C09_any_checksum_accepted", "C09_decode_wif_iff", "C09_wrong_checksum_refuted", "C10_any_marker_accepted", "C10_wrong_marker_refuted", "C11_encrypt", "C17_decrypt_encrypt", "C17_refuted", "C17_roundtrip_iff", "C18_refuted", "C19_record", "C20_C21_returned_key", "C22_refuted", "C34_encrypt_flag", "C34_illegal_refuted", "C37_refuted", "C37_ripple_decrypt", "C41_other_network", "C49_any_prefix", "C49_decode_errors", "C49_negative_prefix", "C49_readers_agree", "C51_injective", "C53_reencrypt", "C57_recreate", "C58_wif_networks", "C60_encrypt", "C61_decrypt_elsewhere", "C70_encrypt", "C71_canonical", "C71_encrypted", "C71_history", "C71_path_independent", "C71_reencrypt", "C71_rekeyed", "C71_returned_large", "C71_step", "C71_wif", "C73_encrypt_passphrase", "C73_never"], "hit": ["C09"], "direct": [], "rounds": 3, "note": ""}
