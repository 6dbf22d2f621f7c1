{"i": 0, "file": "Model/Threads.lean", "definition": "World.value", "old": "| .network i => (w.objects.getD i .absent).network", "new": "| .network _ => (w.objects.getD 0 .absent).network", "claims": ["C78"], "desc": "network kept in the class instead of the object", "ok": false, "fails": ["C78_class_changed", "C78_undisturbed", "alone_readNetwork", "value_network"], "files": {"Verif/Lemmas/Threads.lean": ["alone_readNetwork"], "Verif/Props/Threads.lean": ["value_network", "C78_undisturbed", "C78_class_changed"]}, "broken": ["C78_class_changed", "C78_network_assigned", "C78_undisturbed"], "hit": ["C78"], "direct": ["C78"], "rounds": 3, "note": ""}
{"i": 1, "file": "Model/Threads.lean", "definition": "networkSteps", "old": "  if network ∈ networks then pure network\n", "new": "  if network ∈ networks then do\n    let network ← readNetwork i\n    pure network\n", "claims": ["C78"], "desc": "network read again after the test", "ok": false, "fails": ["alone_network", "finishes"], "files": {"Verif/Lemmas/Threads.lean": ["alone_network", "finishes", "finishes"]}, "broken": [], "hit": [], "direct": [], "rounds": 3, "note": "loop finishes"}
{"i": 2, "file": "Model/Threads.lean", "definition": "chosenSteps", "old": "if n = \"\" then readNetwork i else pure n", "new": "readNetwork i", "claims": ["C78"], "desc": "network argument ignored", "ok": false, "fails": ["alone_network", "finishes"], "files": {"Verif/Lemmas/Threads.lean": ["alone_network", "finishes", "finishes"]}, "broken": [], "hit": [], "direct": [], "rounds": 3, "note": "loop finishes"}
{"i": 3, "file": "Model/Threads.lean", "definition": "chosenSteps", "old": "  | none => readNetwork i", "new": "  | none => do\n    let n ← readNetwork i\n    if n = \"\" then readNetwork i else pure n", "claims": ["C78"], "desc": "network read twice", "ok": false, "fails": ["alone_network", "finishes"], "files": {"Verif/Lemmas/Threads.lean": ["alone_network", "finishes", "finishes"]}, "broken": [], "hit": [], "direct": [], "rounds": 3, "note": "loop finishes"}
{"i": 4, "file": "Model/Threads.lean", "definition": "coinSteps", "old": "  let k ← readClass i\n  readTable k", "new": "  let k ← readClass 0\n  readTable k", "claims": ["C78"], "desc": "class of another object", "ok": false, "fails": ["alone_coin", "coin_bound"], "files": {"Verif/Lemmas/Threads.lean": ["alone_coin"], "Verif/Props/Threads.lean": ["coin_bound"]}, "broken": ["C78_class_changed", "C78_network_assigned", "C78_undisturbed"], "hit": ["C78"], "direct": [], "rounds": 3, "note": ""}
{"i": 5, "file": "Model/Threads.lean", "definition": "encryptSteps", "old": "  let net ← lookupNet (← coinSteps i) network\n  let address ← p2pkhEncode P (.key privateKey.publicKey) net.addressPrefix publicKeyType\n  let addressHash", "new": "  let net ← lookupNet (← coinSteps i) (← readNetwork i)\n  let address ← p2pkhEncode P (.key privateKey.publicKey) net.addressPrefix publicKeyType\n  let addressHash", "claims": ["C78"], "desc": "default network read again for the address", "ok": false, "fails": ["C78_encrypt_refuted", "alone_encrypt", "count_encrypt"], "files": {"Verif/Lemmas/Threads.lean": ["alone_encrypt", "count_encrypt"], "Verif/Props/Threads.lean": ["C78_encrypt_refuted"]}, "broken": ["C78_class_changed", "C78_encrypt_refuted", "C78_finishes", "C78_network_assigned", "C78_undisturbed"], "hit": ["C78"], "direct": ["C78"], "rounds": 3, "note": ""}
{"i": 6, "file": "Model/Threads.lean", "definition": "createSteps", "old": "  let net ← lookupNet (← coinSteps i) network\n  let address ← p2pkhEncode P (.key publicKey) net.addressPrefix publicKeyType\n  let addressHash ←", "new": "  let again ← coinSteps i\n  let net ← lookupNet (← coinSteps i) network\n  let address ← p2pkhEncode P (.key publicKey) (if again.networks = [] then 0 else net.addressPrefix) publicKeyType\n  let addressHash ←", "claims": ["C78"], "desc": "class read twice", "ok": false, "fails": ["alone_create", "count_create"], "files": {"Verif/Lemmas/Threads.lean": ["alone_create", "count_create"]}, "broken": ["C78_class_changed", "C78_finishes", "C78_network_assigned", "C78_undisturbed"], "hit": ["C78"], "direct": [], "rounds": 2, "note": ""}
{"i": 7, "file": "Model/Threads.lean", "definition": "confirmSteps", "old": "  let net ← lookupNet (← coinSteps i) network\n  let address ← p2pkhEncode P (.key publicKey) net.addressPrefix publicKeyType\n  let addressChecksum ← getChecksum P (.bytes (← getBytes (.str address) (unhexlify := false)))\n  if addressChecksum = addressHash then\n    if detail", "new": "  let net ← lookupNet (← coinSteps i) network\n  let net2 ← lookupNet (← coinSteps i) network\n  let address ← p2pkhEncode P (.key publicKey) (if net.addressPrefix = 0 then 0 else net2.addressPrefix) publicKeyType\n  let addressChecksum ← getChecksum P (.bytes (← getBytes (.str address) (unhexlify := false)))\n  if addressChecksum = addressHash then\n    if detail", "claims": ["C78"], "desc": "class read twice", "ok": false, "fails": ["alone_confirm", "count_confirm"], "files": {"Verif/Lemmas/Threads.lean": ["alone_confirm", "count_confirm"]}, "broken": ["C78_class_changed", "C78_finishes", "C78_network_assigned", "C78_undisturbed"], "hit": ["C78"], "direct": [], "rounds": 2, "note": ""}
{"i": 8, "file": "Model/Threads.lean", "definition": "decryptNoEcSteps", "old": "wifType (← coinSteps i) network\n  if detail then do\n    let privateKeyText ← bytesToString (.bytes privateKey)\n    let publicKeyText ← bytesToString (.bytes (publicKey.raw publicKeyType))\n    pure (.detail { wif, privateKey := privateKeyText, wifType, publicKey := publicKeyText, publicKeyType\n                    seed := none", "new": "wifType (← coinSteps (i + 1)) network\n  if detail then do\n    let privateKeyText ← bytesToString (.bytes privateKey)\n    let publicKeyText ← bytesToString (.bytes (publicKey.raw publicKeyType))\n    pure (.detail { wif, privateKey := privateKeyText, wifType, publicKey := publicKeyText, publicKeyType\n                    seed := none", "claims": ["C78"], "desc": "WIF with the class of another object", "ok": false, "fails": ["alone_decryptNoEc", "count_decryptNoEc"], "files": {"Verif/Lemmas/Threads.lean": ["alone_decryptNoEc", "count_decryptNoEc"]}, "broken": ["C78_class_changed", "C78_finishes", "C78_network_assigned", "C78_undisturbed"], "hit": ["C78"], "direct": [], "rounds": 2, "note": ""}
{"i": 9, "file": "Model/Threads.lean", "definition": "Call.steps", "old": "createSteps P i it type seed n u", "new": "createSteps P i it type seed none u", "claims": ["C78"], "desc": "network argument dropped", "ok": false, "fails": ["alone_steps", "count_steps", "finishes"], "files": {"Verif/Lemmas/Threads.lean": ["alone_steps", "count_steps", "finishes", "finishes"]}, "broken": [], "hit": [], "direct": [], "rounds": 3, "note": "loop finishes"}
{"i": 10, "file": "Model/Threads.lean", "definition": "Machine.step", "old": "m.threads.modify t (Prog.advance m.world)", "new": "m.threads.map (Prog.advance m.world)", "claims": ["C78"], "desc": "all threads advance (still each call is right)", "ok": false, "fails": ["step_other"], "files": {"Verif/Lemmas/Threads.lean": ["step_other"]}, "broken": ["C78_class_changed", "C78_finishes", "C78_network_assigned", "C78_undisturbed"], "hit": ["C78"], "direct": [], "rounds": 2, "note": ""}
{"i": 11, "file": "Model/Threads.lean", "definition": "Machine.step", "old": "| .start i c => { m with threads := m.threads ++ [c.steps P i] }", "new": "| .start i c => { m with threads := [c.steps P i] }", "claims": ["C78"], "desc": "a new call overwrites the running ones (shared temporary state)", "ok": false, "fails": ["example@390", "start_thread", "step_other"], "files": {"Verif/Lemmas/Threads.lean": ["step_other"], "Verif/Props/Threads.lean": ["start_thread", "example@390"]}, "broken": ["C78_class_changed", "C78_finishes", "C78_network_assigned", "C78_undisturbed"], "hit": ["C78"], "direct": [], "rounds": 3, "note": ""}
{"i": 12, "file": "Model/Threads.lean", "definition": "Prog.bind", "old": "  | .done (.error e), _ => .done (.error e)", "new": "  | .done (.error e), f => (.done (.error ⟨e.cls, \"\"⟩))", "claims": ["C78"], "desc": "texts of errors lost in threads", "ok": false, "fails": ["alone_bind"], "files": {"Verif/Lemmas/Threads.lean": ["alone_bind"]}, "broken": ["C78_class_changed", "C78_network_assigned", "C78_undisturbed"], "hit": ["C78"], "direct": [], "rounds": 2, "note": ""}
{"i": 13, "file": "Model/Threads.lean", "definition": "encryptSteps", "old": "  let wifType ← getWifType wif (← coinSteps i) network\n", "new": "  let _ ← readNetwork i\n  let _ ← readNetwork i\n  let _ ← readNetwork i\n  let wifType ← getWifType wif (← coinSteps i) network\n", "claims": ["C78"], "desc": "more reads than stated", "ok": false, "fails": ["C78_encrypt_refuted", "alone_encrypt", "count_encrypt", "example@390"], "files": {"Verif/Lemmas/Threads.lean": ["alone_encrypt", "count_encrypt"], "Verif/Props/Threads.lean": ["C78_encrypt_refuted", "example@390"]}, "broken": ["C78_class_changed", "C78_encrypt_refuted", "C78_finishes", "C78_network_assigned", "C78_undisturbed"], "hit": ["C78"], "direct": ["C78"], "rounds": 3, "note": ""}
{"i": 14, "file": "Model/Bip38Kind.lean", "definition": "getWifTypeKind", "old": "let (_, type, _) ← decodeWif wif net.wifPrefix\n  .ok type", "new": "let (_, type, _) ← decodeWif wif net.addressPrefix\n  .ok type", "claims": ["C76"], "desc": "address prefix used", "ok": false, "fails": ["C76_wif_text"], "files": {"Verif/Props/Kinds.lean": ["C76_wif_text"]}, "broken": ["C76_wif_text"], "hit": ["C76"], "direct": ["C76"], "rounds": 2, "note": ""}
{"i": 15, "file": "Model/Bip38Kind.lean", "definition": "getWifChecksumKind", "old": "let (_, _, checksum) ← decodeWif", "new": "let (checksum, _, _) ← decodeWif", "claims": ["C76"], "desc": "key returned as checksum", "ok": false, "fails": ["C76_wif_text"], "files": {"Verif/Props/Kinds.lean": ["C76_wif_text"]}, "broken": ["C76_wif_text"], "hit": ["C76"], "direct": ["C76"], "rounds": 2, "note": ""}
{"i": 16, "file": "Model/Bip38Num.lean", "definition": "NumArg.isNone", "old": "  | .value _ _ _ => false", "new": "  | .value t _ _ => !t", "claims": ["C74"], "desc": "false objects taken for None", "ok": false, "fails": ["C74_ignored", "C74_integers"], "files": {"Verif/Props/Numbers.lean": ["C74_integers", "C74_ignored"]}, "broken": ["C74_ignored", "C74_integers", "C74_one_missing", "C74_text"], "hit": ["C74"], "direct": ["C74"], "rounds": 2, "note": ""}
{"i": 17, "file": "Model/Const.lean", "definition": "MAGIC_LOT_AND_SEQUENCE_UNCOMPRESSED_FLAG", "old": "FLAG : Nat := 0x04 ", "new": "FLAG : Nat := 0x0c ", "claims": ["C34", "C65"], "desc": "other flag for lot, uncompressed", "ok": false, "fails": ["C34_create_flag", "C34_tables", "c_04", "lot_iff"], "files": {"Verif/Lemmas/Bip38.lean": ["c_04"], "Verif/Lemmas/Ec.lean": ["lot_iff"], "Verif/Props/Flags.lean": ["C34_tables", "C34_create_flag"]}, "broken": ["C11_create", "C20_C21_returned_key", "C22_refuted", "C29_decrypt_create", "C29_refuted", "C30_confirm_create", "C30_refuted", "C31_confirm_pair", "C31_lot_sequence", "C31_reported_pair", "C32_long_seed_lost", "C32_refuted_long", "C32_refuted_short", "C33_errors", "C33_factor_point", "C33_returns", "C34_confirm_flag", "C34_confirm_reading", "C34_create_flag", "C34_decrypt_flag", "C34_decrypt_reading", "C34_illegal_refuted", "C34_tables", "C34_unknown_flag", "C35_iff", "C35_sound", "C37_refuted", "C37_ripple_confirm", "C37_ripple_create", "C37_ripple_decrypt", "C40_confirm_errors", "C40_decrypt_errors", "C40_ec_iff", "C52_seed_injective", "C53_reencrypt", "C57_recreate", "C61_confirm_elsewhere", "C61_decrypt_elsewhere", "C63_confirmation_injective", "C64_confirm_standard", "C64_decrypt_standard_ec", "C65_created_standard", "C66_ec", "C67_confirm", "C68_create", "C68_refused_point", "C70_confirm", "C70_create", "C70_decrypt", "C71_canonical", "C71_encrypted", "C71_path_independent", "C71_reencrypt", "C71_rekeyed", "C71_returned_large"], "hit": ["C34", "C65"], "direct": ["C34"], "rounds": 4, "note": ""}
{"i": 18, "file": "Model/Const.lean", "definition": "MAGIC_NO_LOT_AND_SEQUENCE_UNCOMPRESSED_FLAG", "old": "FLAG : Nat := 0x00 ", "new": "FLAG : Nat := 0x08 ", "claims": ["C34", "C65"], "desc": "other flag for no lot, uncompressed", "ok": false, "fails": ["c_00"], "files": {"Verif/Lemmas/Bip38.lean": ["c_00"]}, "broken": ["C11_create", "C29_decrypt_create", "C29_refuted", "C30_confirm_create", "C30_refuted", "C31_lot_sequence", "C32_long_seed_lost", "C32_refuted_long", "C32_refuted_short", "C33_errors", "C33_factor_point", "C33_returns", "C34_create_flag", "C34_illegal_refuted", "C37_ripple_create", "C52_seed_injective", "C57_recreate", "C63_confirmation_injective", "C65_created_standard", "C68_create", "C68_refused_point", "C70_create"], "hit": ["C34", "C65"], "direct": [], "rounds": 2, "note": ""}
{"i": 19, "file": "Model/Const.lean", "definition": "COORDINATE_POINT_LENGTH", "old": "LENGTH : Nat := 32                          -- bip38/const.py:30", "new": "LENGTH : Nat := 33                          -- bip38/const.py:30", "claims": ["C45"], "desc": "coordinate length 33", "ok": false, "fails": ["C45_old_compressed_refuted", "C45_old_from_bytes", "C45_old_raw"], "files": {"Verif/Props/PointOps.lean": ["C45_old_raw", "C45_old_from_bytes", "C45_old_compressed_refuted"]}, "broken": ["C45_old_compressed_refuted", "C45_old_from_bytes", "C45_old_raw"], "hit": ["C45"], "direct": ["C45"], "rounds": 2, "note": ""}
{"i": 20, "file": "Model/Const.lean", "definition": "COMPRESSED_PUBLIC_KEY_LENGTH", "old": "COMPRESSED_PUBLIC_KEY_LENGTH : Nat := 33", "new": "COMPRESSED_PUBLIC_KEY_LENGTH : Nat := 32", "claims": ["C44", "C15"], "desc": "length 32", "ok": false, "fails": ["C44_lengths"], "files": {"Verif/Props/PointOps.lean": ["C44_lengths"]}, "broken": ["C44_lengths"], "hit": ["C44"], "direct": ["C44"], "rounds": 2, "note": ""}
{"i": 21, "file": "Model/Point.lean", "definition": "Point.x", "old": "  | .aff x _ => some x", "new": "  | .aff x _ => some (x % 2 ^ 255)", "claims": ["C44"], "desc": "top bit of x lost", "ok": false, "fails": ["C44_roundtrip"], "files": {"Verif/Props/PointOps.lean": ["C44_roundtrip"]}, "broken": ["C44_roundtrip"], "hit": ["C44"], "direct": ["C44"], "rounds": 2, "note": ""}
{"i": 22, "file": "Model/Point.lean", "definition": "PublicKey.uncompressedLength", "old": "uncompressedLength : Nat := UNCOMPRESSED_PUBLIC_KEY_LENGTH", "new": "uncompressedLength : Nat := COMPRESSED_PUBLIC_KEY_LENGTH", "claims": ["C44", "C15"], "desc": "lengths confused", "ok": false, "fails": ["C44_lengths"], "files": {"Verif/Props/PointOps.lean": ["C44_lengths"]}, "broken": ["C44_lengths"], "hit": ["C44"], "direct": ["C44"], "rounds": 2, "note": ""}
{"i": 23, "file": "Model/Secp256k1.lean", "definition": "powModAux", "old": "(if e % 2 = 1 then acc * b % m else acc)", "new": "(if e % 2 = 1 then acc * b else acc)", "claims": ["C43"], "desc": "result not reduced (larger intermediate numbers)", "ok": false, "fails": ["example@474", "powModAux_eq", "powModAux_lt", "prime_107361793816595537", "prime_107590001", "prime_115792089237316195423570985008687907852837564279074904382605163141518161494337", "prime_115792089237316195423570985008687907853269984665640564039457584007908834671663", "prime_1206781", "prime_132896956044521568488119", "prime_13331831", "prime_1627771", "prime_173378833005251801", "prime_174723607534414371449", "prime_205115282021455665897114700593932402728804164701536103180137503955397371", "prime_22149492674086928081353", "prime_255515944373312847190720520512484175977", "prime_29047611873442575647497758179", "prime_297159362677", "prime_341948486974166000522343609283189", "prime_44706919", "prime_4681609", "prime_545358713", "prime_7240687"], "files": {"Verif/Lemmas/PowMod.lean": ["powModAux_eq", "powModAux_lt"], "Verif/Lemmas/Primes.lean": ["prime_1206781", "prime_1627771", "prime_4681609", "prime_7240687", "prime_13331831", "prime_44706919", "prime_107590001", "prime_545358713", "prime_297159362677", "prime_107361793816595537", "prime_173378833005251801", "prime_174723607534414371449", "prime_22149492674086928081353", "prime_132896956044521568488119", "prime_29047611873442575647497758179", "prime_341948486974166000522343609283189", "prime_255515944373312847190720520512484175977", "prime_205115282021455665897114700593932402728804164701536103180137503955397371", "prime_115792089237316195423570985008687907852837564279074904382605163141518161494337", "prime_115792089237316195423570985008687907853269984665640564039457584007908834671663"], "Verif/Props/Outcome2.lean": ["example@474"]}, "broken": ["C11_create", "C11_encrypt", "C11_intermediate", "C14_private_key_iff", "C14_private_key_ok", "C15_denotes_unique", "C15_private_key_point", "C15_public_key_error", "C15_public_key_iff", "C15_public_key_roundtrip", "C16_api", "C16_curve", "C16_group", "C16_injective", "C16_mul_is_repeated_addition", "C16_order", "C16_scalar_mul", "C16_surjective", "C17_decrypt_encrypt", "C17_refuted", "C17_roundtrip_iff", "C18_encrypt_returns_iff", "C18_refuted", "C19_record", "C20_C21_returned_key", "C22_refuted", "C26_refuted", "C26_validation", "C27_unusable_code", "C28_layout", "C29_decrypt_create", "C29_refuted", "C30_confirm_create", "C30_refuted", "C31_confirm_pair", "C31_lot_sequence", "C31_reported_pair", "C32_long_seed_lost", "C32_refuted_long", "C32_refuted_short", "C33_errors", "C33_factor_point", "C33_returns", "C34_confirm_flag", "C34_confirm_reading", "C34_create_flag", "C34_decrypt_flag", "C34_decrypt_reading", "C34_encrypt_flag", "C34_illegal_refuted", "C34_unknown_flag", "C35_iff", "C35_sound", "C37_refuted", "C37_ripple_confirm", "C37_ripple_create", "C37_ripple_decrypt", "C40_confirm_errors", "C40_decrypt_errors", "C40_ec_iff", "C40_noEc_iff", "C41_other_network", "C42_point_roundtrip", "C43_add_group", "C43_mul_eq_iff", "C43_mul_is_repeated_addition", "C43_mul_laws", "C51_injective", "C52_seed_injective", "C53_reencrypt", "C54_serialisation_injective", "C57_recreate", "C60_encrypt", "C61_confirm_elsewhere", "C61_decrypt_elsewhere", "C62_determines", "C63_confirmation_injective", "C64_confirm_standard", "C64_decrypt_standard", "C64_decrypt_standard_ec", "C65_created_standard", "C66_ec", "C66_noEc", "C67_confirm", "C68_create", "C68_refused_point", "C69_intermediate", "C70_confirm", "C70_create", "C70_decrypt", "C70_encrypt", "C70_intermediate", "C71_canonical", "C71_encrypted", "C71_history", "C71_path_independent", "C71_reencrypt", "C71_rekeyed", "C71_returned_large", "C71_step", "C71_wif", "C73_encrypt_passphrase", "C73_never", "C74_text_zero", "C74_used"], "hit": ["C43"], "direct": [], "rounds": 4, "note": ""}
{"i": 24, "file": "Model/Secp256k1.lean", "definition": "gen", "old": "def gen : Pt := .aff genX genY", "new": "def gen : Pt := .aff genX (fieldP - genY)", "claims": ["C16", "C43"], "desc": "generator negated", "ok": false, "fails": ["example@263", "example@474", "example@80", "genKey_unit", "key153_unit"], "files": {"Verif/Props/Curve.lean": ["example@80"], "Verif/Props/PointOps.lean": ["example@263"], "Verif/Props/EcExamples.lean": ["genKey_unit"], "Verif/Props/ConfirmExamples.lean": ["key153_unit"], "Verif/Props/Outcome2.lean": ["example@474"]}, "broken": ["C29_refuted", "C30_refuted", "C32_refuted_long", "C32_refuted_short", "C34_illegal_refuted"], "hit": [], "direct": [], "rounds": 5, "note": ""}
{"i": 25, "file": "Model/Utils.lean", "definition": "fromBE", "old": "acc * 256 + c.toNat", "new": "acc * 256 ||| c.toNat", "claims": ["C05"], "desc": "or instead of plus (same value)", "ok": false, "fails": ["foldl_be", "fromBE_append", "fromBE_cons"], "files": {"Verif/Lemmas/Bytes.lean": ["foldl_be", "fromBE_cons", "fromBE_append"]}, "broken": ["C01_decode_encode", "C01_decode_encode_bitcoin", "C01_decode_encode_ripple", "C01_encode_injective", "C01_encode_text", "C01_encode_wellFormed", "C02_decode_injective", "C02_encode_decode", "C03_check_roundtrip", "C04_decode_ascii", "C05_minimal", "C05_read_injective", "C05_value", "C05_with_length", "C07_wif_roundtrip", "C07_wif_text", "C08_injective", "C08_library", "C08_longer_prefix", "C08_one_byte", "C08_other_network", "C09_any_checksum_accepted", "C09_decode_wif_iff", "C09_wrong_checksum_refuted", "C10_any_marker_accepted", "C10_wrong_marker_refuted", "C11_address", "C11_create", "C11_encrypt", "C11_intermediate", "C11_wif", "C12_address_roundtrip", "C12_address_text", "C12_key_forms", "C13_bad_checksum", "C13_bad_payload", "C13_decode_iff", "C13_texts", "C14_private_key_error", "C14_private_key_iff", "C14_private_key_ok", "C15_denotes_unique", "C15_public_key_error", "C15_public_key_iff", "C15_public_key_roundtrip", "C16_api", "C16_injective", "C16_surjective", "C17_decrypt_encrypt", "C17_refuted", "C17_roundtrip_iff", "C18_encrypt_returns_iff", "C18_refuted", "C19_record", "C20_C21_returned_key", "C22_refuted", "C26_refuted", "C26_validation", "C27_unusable_code", "C28_layout", "C29_condition", "C29_decrypt_create", "C29_refuted", "C30_confirm_create", "C30_refuted", "C31_confirm_pair", "C31_lot_sequence", "C31_reported_pair", "C32_long_seed", "C32_long_seed_lost", "C32_refuted_long", "C32_refuted_short", "C33_errors", "C33_factor_point", "C33_returns", "C34_confirm_flag", "C34_confirm_reading", "C34_create_flag", "C34_decrypt_flag", "C34_decrypt_reading", "C34_encrypt_flag", "C34_illegal_refuted", "C34_unknown_flag", "C35_iff", "C35_sound", "C37_refuted", "C37_ripple_confirm", "C37_ripple_create", "C37_ripple_decrypt", "C38_fallback", "C38_length", "C38_ripemd160", "C40_confirm_errors", "C40_decrypt_errors", "C40_ec_iff", "C40_noEc_iff", "C41_other_network", "C42_point_from_bytes_unchecked", "C42_point_on_curve_refuted", "C42_point_roundtrip", "C45_old_compressed_refuted", "C45_old_from_bytes", "C47_signed_auto", "C49_any_prefix", "C49_decode_errors", "C49_key_argument", "C49_readers_agree", "C51_injective", "C52_seed_injective", "C53_reencrypt", "C54_address_injective", "C54_serialisation_injective", "C57_recreate", "C58_address_networks", "C58_wif_networks", "C59_address", "C59_wif", "C60_encrypt", "C61_confirm_elsewhere", "C61_decrypt_elsewhere", "C62_determines", "C63_confirmation_injective", "C64_confirm_standard", "C64_decrypt_standard", "C64_decrypt_standard_ec", "C65_created_standard", "C66_ec", "C66_noEc", "C67_confirm", "C68_create", "C68_refused_point", "C69_intermediate", "C70_confirm", "C70_create", "C70_decrypt", "C70_encrypt", "C70_intermediate", "C71_canonical", "C71_encrypted", "C71_history", "C71_path_independent", "C71_reencrypt", "C71_rekeyed", "C71_returned_large", "C71_step", "C71_wif", "C72_encode", "C73_decode", "C73_encrypt_passphrase", "C73_never", "C74_text_zero", "C74_used", "C77_address", "C77_wif"], "hit": ["C05"], "direct": [], "rounds": 2, "note": ""}
{"i": 26, "file": "Model/Utils.lean", "definition": "toBE", "old": "def toBE (k n : Nat) : Bytes := (toLE k n).reverse", "new": "def toBE (k n : Nat) : Bytes := toLE k n", "claims": ["C05"], "desc": "little endian", "ok": false, "fails": ["C05_digits", "C30_refuted", "C32_refuted_long", "C78_decrypt_refuted", "C78_encrypt_refuted", "c_conf", "c_ec", "c_magicLot", "c_magicNo", "c_noEc", "example@172", "example@173", "example@178", "example@317", "example@39", "example@390", "example@408", "example@437", "example@474", "example@516", "example@81", "fromBE_toBE", "genKey_unit", "key153_unit", "shared_unit", "toBE_fromBE", "unit_decrypt"], "files": {"Verif/Lemmas/Bytes.lean": ["fromBE_toBE", "toBE_fromBE"], "Verif/Props/Curve.lean": ["example@39", "example@81"], "Verif/Props/Encoding.lean": ["example@317", "C05_digits"], "Verif/Lemmas/Bip38.lean": ["c_noEc", "c_ec", "c_magicLot", "c_magicNo", "c_conf"], "Verif/Props/EcExamples.lean": ["genKey_unit", "unit_decrypt", "C32_refuted_long", "example@173"], "Verif/Props/ConfirmExamples.lean": ["key153_unit", "C30_refuted"], "Verif/Props/Threads.lean": ["C78_encrypt_refuted", "C78_decrypt_refuted", "example@390"], "Verif/Props/Interop.lean": ["shared_unit", "example@172"], "Verif/Props/Outcome2.lean": ["example@408", "example@437", "example@474", "example@516"], "Verif/Props/Numbers.lean": ["example@178"]}, "broken": ["C02_decode_injective", "C02_encode_decode", "C04_decode_ascii", "C05_digits", "C05_minimal", "C05_read_injective", "C05_with_length", "C07_wif_roundtrip", "C07_wif_text", "C08_injective", "C08_library", "C08_longer_prefix", "C08_one_byte", "C08_other_network", "C09_any_checksum_accepted", "C09_decode_wif_iff", "C09_wrong_checksum_refuted", "C10_any_marker_accepted", "C10_wrong_marker_refuted", "C11_create", "C11_encrypt", "C11_intermediate", "C11_wif", "C12_address_roundtrip", "C12_address_text", "C12_key_forms", "C13_bad_checksum", "C13_bad_payload", "C13_decode_iff", "C13_texts", "C14_private_key_iff", "C14_private_key_ok", "C15_public_key_roundtrip", "C16_api", "C16_injective", "C16_surjective", "C17_decrypt_encrypt", "C17_refuted", "C17_roundtrip_iff", "C18_encrypt_returns_iff", "C18_refuted", "C19_record", "C20_C21_returned_key", "C22_checksum_ignored", "C22_refuted", "C23_flag", "C23_prefix", "C26_refuted", "C26_validation", "C27_unusable_code", "C28_layout", "C29_decrypt_create", "C29_refuted", "C30_confirm_create", "C30_refuted", "C31_confirm_pair", "C31_lot_sequence", "C31_reported_pair", "C32_long_seed_lost", "C32_refuted_long", "C32_refuted_short", "C33_errors", "C33_factor_point", "C33_magic", "C33_returns", "C34_confirm_flag", "C34_confirm_reading", "C34_create_flag", "C34_decrypt_flag", "C34_decrypt_reading", "C34_encrypt_flag", "C34_illegal_refuted", "C34_unknown_flag", "C35_iff", "C35_prefix", "C35_sound", "C37_refuted", "C37_ripple_confirm", "C37_ripple_create", "C37_ripple_decrypt", "C40_confirm_errors", "C40_decrypt_errors", "C40_ec_iff", "C40_noEc_iff", "C41_other_network", "C42_point_roundtrip", "C45_old_compressed_refuted", "C47_signed_auto", "C49_any_prefix", "C49_decode_errors", "C49_key_argument", "C49_readers_agree", "C51_injective", "C52_seed_injective", "C53_reencrypt", "C54_address_injective", "C54_serialisation_injective", "C57_recreate", "C58_address_networks", "C58_wif_networks", "C59_address", "C59_wif", "C60_encrypt", "C61_confirm_elsewhere", "C61_decrypt_elsewhere", "C62_determines", "C63_confirmation_injective", "C64_confirm_standard", "C64_decrypt_standard", "C64_decrypt_standard_ec", "C65_created_standard", "C66_ec", "C66_malformed", "C66_noEc", "C67_confirm", "C67_malformed", "C68_create", "C68_refused", "C68_refused_point", "C69_intermediate", "C70_confirm", "C70_create", "C70_decrypt", "C70_encrypt", "C70_intermediate", "C71_canonical", "C71_encrypted", "C71_history", "C71_path_independent", "C71_reencrypt", "C71_rekeyed", "C71_returned_large", "C71_step", "C71_wif", "C73_confirm_passphrase", "C73_decode", "C73_decrypt_passphrase", "C73_encrypt_passphrase", "C73_never", "C74_text_zero", "C74_used", "C77_address", "C77_wif", "C78_decrypt_refuted", "C78_encrypt_refuted"], "hit": ["C05"], "direct": ["C05"], "rounds": 8, "note": ""}
{"i": 27, "file": "Model/Wif.lean", "definition": "Data.len", "old": "  | .str s => s.length\n", "new": "  | .str s => (utf8 s).length\n", "claims": ["C07", "C67"], "desc": "length of the encoding shown", "ok": false, "fails": ["C07_wrong_length", "C49_key_argument"], "files": {"Verif/Props/Wif.lean": ["C07_wrong_length"], "Verif/Props/WifMore.lean": ["C49_key_argument"]}, "broken": ["C07_wrong_length", "C49_key_argument", "C77_wif"], "hit": ["C07"], "direct": ["C07"], "rounds": 3, "note": ""}
{"i": 28, "file": "Model/Base58Any.lean", "definition": "utf8DecodeGo", "old": "  | 0, _ :: _ => none\n", "new": "  | 0, _ :: _ => some []\n", "claims": ["C72"], "desc": "fuel exhausted returns a prefix (never happens)", "ok": true, "fails": [], "files": {}, "broken": [], "hit": [], "direct": [], "rounds": 1, "note": ""}
{"i": 29, "file": "Model/Base58Any.lean", "definition": "b58encodeAny", "old": "  | .bytes b => some (.ok (b58encode b alphabet))", "new": "  | .bytes b => some (.ok (b58encode b))", "claims": ["C72"], "desc": "alphabet ignored", "ok": false, "fails": ["C72_encode"], "files": {"Verif/Props/AnyKind.lean": ["C72_encode"]}, "broken": ["C72_encode"], "hit": ["C72"], "direct": ["C72"], "rounds": 2, "note": ""}
{"i": 30, "file": "Model/World.lean", "definition": "World.ask", "old": "c.run P obj", "new": "c.run P { obj with network := \"mainnet\" }", "claims": ["C75"], "desc": "network of the object ignored", "ok": false, "fails": ["C75_class_changed", "C75_constructed", "C75_network_assigned", "ask_of"], "files": {"Verif/Props/World.lean": ["C75_constructed", "C75_class_changed", "C75_network_assigned"], "Verif/Props/Threads.lean": ["ask_of"]}, "broken": ["C75_class_changed", "C75_constructed", "C75_network_assigned", "C78_class_changed", "C78_network_assigned", "C78_undisturbed"], "hit": ["C75"], "direct": ["C75"], "rounds": 3, "note": ""}
