{"i": 0, "file": "Model/World.lean", "definition": "Call.run", "old": "intermediateCode P pass lot sequence salt u", "new": "intermediateCode P pass sequence lot salt u", "claims": ["C75", "C26"], "desc": "lot and sequence swapped (5/11 again)", "ok": false, "fails": ["C75_answers", "alone_steps"], "files": {"Verif/Lemmas/Threads.lean": ["alone_steps"], "Verif/Props/World.lean": ["C75_answers"]}, "broken": ["C75_answers", "C78_class_changed", "C78_network_assigned", "C78_undisturbed"], "hit": ["C75"], "direct": ["C75"], "rounds": 2, "note": ""}
{"i": 1, "file": "Model/World.lean", "definition": "World.step", "old": ".assignAlphabet i alphabet => w.modify i fun o => { o with alphabet }", "new": ".assignAlphabet i alphabet => w.modify i fun o => { o with alphabet, network := \"mainnet\" }", "claims": ["C75"], "desc": "assignment of the alphabet resets the network (5/13 again)", "ok": false, "fails": ["C75_assigned"], "files": {"Verif/Props/World.lean": ["C75_assigned"]}, "broken": ["C75_assigned"], "hit": ["C75"], "direct": ["C75"], "rounds": 2, "note": ""}
{"i": 2, "file": "Model/Bip38Kind.lean", "definition": "ObjArg.truthy", "old": "| .other t _ _ _ => t", "new": "| .other _ _ _ _ => true", "claims": ["C76"], "desc": "every other object counts as a network (5/15 again)", "ok": false, "fails": ["C76_text_or_false"], "files": {"Verif/Props/Kinds.lean": ["C76_text_or_false"]}, "broken": ["C76_text_or_false"], "hit": ["C76"], "direct": ["C76"], "rounds": 2, "note": ""}
{"i": 3, "file": "Model/Bip38Kind.lean", "definition": "ObjArg.truthy", "old": "| .other t _ _ _ => t", "new": "| .other _ _ _ _ => false", "claims": ["C76"], "desc": "only texts are looked at; other objects mean the default (5/16 again)", "ok": false, "fails": ["C76_refused"], "files": {"Verif/Props/Kinds.lean": ["C76_refused"]}, "broken": ["C76_refused"], "hit": ["C76"], "direct": ["C76"], "rounds": 2, "note": ""}
{"i": 4, "file": "Model/Bip38Kind.lean", "definition": "ObjArg.typeText", "old": "\"<class 'NoneType'>\"", "new": "\"None\"", "claims": ["C76"], "desc": "None shown instead of its type (5/17 again)", "ok": false, "fails": ["TypeShown.eq"], "files": {"Verif/Props/Kinds.lean": ["TypeShown.eq"]}, "broken": ["C76_constructor"], "hit": ["C76"], "direct": [], "rounds": 2, "note": ""}
{"i": 5, "file": "Model/Bip38Kind.lean", "definition": "ObjArg.text", "old": "| .none => \"None\"", "new": "| .none => \"\"", "claims": ["C76"], "desc": "None shown as nothing (5/18 again)", "ok": false, "fails": ["Shown.eq"], "files": {"Verif/Props/Kinds.lean": ["Shown.eq"]}, "broken": ["C76_create_type", "C76_wif_type"], "hit": ["C76"], "direct": [], "rounds": 2, "note": ""}
{"i": 6, "file": "Model/Bip38.lean", "definition": "BIP38.new", "old": "  raiseIf (network ∉ networks) .networkError (wrongNetwork networks)\n", "new": "  raiseIf (network ∉ network :: networks) .networkError (wrongNetwork networks)\n", "claims": ["C24"], "desc": "constructor accepts unknown networks (7/0 corrected)", "ok": false, "fails": ["C24_constructor_errors", "C24_constructor_iff", "C37_stored", "init_src", "new_ok_iff"], "files": {"Verif/Lemmas/Bip38.lean": ["new_ok_iff"], "Verif/Src/EqInit.lean": ["init_src"], "Verif/Props/Select.lean": ["C24_constructor_iff", "C24_constructor_errors"], "Verif/Props/Alphabet.lean": ["C37_stored"]}, "broken": ["C11_create", "C11_encrypt", "C17_decrypt_encrypt", "C17_refuted", "C17_roundtrip_iff", "C18_encrypt_returns_iff", "C18_refuted", "C19_record", "C20_C21_returned_key", "C22_refuted", "C23_flag", "C23_length", "C23_non_ascii", "C23_prefix", "C24_constructor_errors", "C24_constructor_iff", "C24_unknown_network", "C27_unusable_code", "C29_decrypt_create", "C29_refuted", "C30_confirm_create", "C30_refuted", "C31_confirm_pair", "C31_lot_sequence", "C31_reported_pair", "C32_long_seed_lost", "C32_refuted_long", "C32_refuted_short", "C33_checksum", "C33_errors", "C33_factor_point", "C33_length", "C33_magic", "C33_returns", "C33_seed", "C33_type", "C34_confirm_flag", "C34_confirm_reading", "C34_create_flag", "C34_decrypt_flag", "C34_decrypt_reading", "C34_encrypt_flag", "C34_illegal_refuted", "C34_unknown_flag", "C35_checksum", "C35_iff", "C35_length", "C35_prefix", "C35_sound", "C37_refuted", "C37_ripple_confirm", "C37_ripple_create", "C37_ripple_decrypt", "C37_stored", "C40_confirm_errors", "C40_decrypt_errors", "C40_ec_iff", "C40_noEc_iff", "C41_other_network", "C51_injective", "C51_same_key", "C52_seed_injective", "C53_reencrypt", "C56_same_address_prefix", "C56_same_prefixes", "C57_recreate", "C60_encrypt", "C61_confirm_elsewhere", "C61_decrypt_elsewhere", "C63_confirmation_injective", "C64_confirm_standard", "C64_decrypt_standard", "C64_decrypt_standard_ec", "C65_created_standard", "C66_ec", "C66_malformed", "C66_noEc", "C67_confirm", "C67_malformed", "C68_create", "C68_refused", "C68_refused_point", "C70_confirm", "C70_create", "C70_decrypt", "C70_encrypt", "C71_canonical", "C71_encrypted", "C71_history", "C71_path_independent", "C71_reencrypt", "C71_rekeyed", "C71_returned_large", "C71_step", "C71_wif", "C73_confirm_passphrase", "C73_create", "C73_decrypt_passphrase", "C73_encrypt_passphrase", "C73_never", "C73_no_text", "C75_answers", "C75_assigned", "C75_class_changed", "C75_constructed", "C75_network_assigned", "C76_refused", "C77_constructor", "C79_ripemd160_refused", "C80_encrypt_bad", "C80_guess_confirm", "C80_guess_ec", "C80_guess_noEc", "C86_constructor", "C88_constructor", "C88_methods", "C89_ec", "C89_roundtrip", "C90_create", "C90_encrypt", "C90_roundtrip", "C91_create_type", "C91_network", "C91_passphrase", "C91_texts"], "hit": ["C24"], "direct": ["C24"], "rounds": 4, "note": ""}
{"i": 7, "file": "Model/Threads.lean", "definition": "readNetworks", "old": ".read (.networks i) fun v => .done (.ok v)", "new": ".read (.networks i) fun v => .done (.ok v.reverse)", "claims": ["C78"], "desc": "names in another order", "ok": false, "fails": ["alone_readNetworks"], "files": {"Verif/Lemmas/Threads.lean": ["alone_readNetworks"]}, "broken": ["C78_class_changed", "C78_network_assigned", "C78_undisturbed"], "hit": ["C78"], "direct": [], "rounds": 2, "note": ""}
{"i": 8, "file": "Model/Threads.lean", "definition": "readClass", "old": ".read (.cls i) fun v => .done (.ok v)", "new": ".read (.cls i) fun v => .read (.cls i) fun w => .done (.ok (min v w))", "claims": ["C78"], "desc": "class looked up twice", "ok": false, "fails": ["C78_decrypt_refuted", "C78_encrypt_refuted", "C78_finishes", "alone_readClass", "coin_bound", "example@390"], "files": {"Verif/Lemmas/Threads.lean": ["alone_readClass"], "Verif/Props/Threads.lean": ["coin_bound", "C78_finishes", "C78_encrypt_refuted", "C78_decrypt_refuted", "example@390"]}, "broken": ["C78_class_changed", "C78_decrypt_refuted", "C78_encrypt_refuted", "C78_finishes", "C78_network_assigned", "C78_undisturbed"], "hit": ["C78"], "direct": ["C78"], "rounds": 3, "note": ""}
{"i": 9, "file": "Model/Threads.lean", "definition": "decryptSteps", "old": "  if pre = noEcPrefix then decryptNoEcSteps P i decoded passphrase network detail\n", "new": "  if pre = noEcPrefix then decryptNoEcSteps P i decoded passphrase (← readNetwork i) detail\n", "claims": ["C78"], "desc": "default network used after the test", "ok": false, "fails": ["C78_decrypt_refuted", "alone_decrypt", "count_decrypt"], "files": {"Verif/Lemmas/Threads.lean": ["alone_decrypt", "count_decrypt"], "Verif/Props/Threads.lean": ["C78_decrypt_refuted"]}, "broken": ["C78_class_changed", "C78_decrypt_refuted", "C78_finishes", "C78_network_assigned", "C78_undisturbed"], "hit": ["C78"], "direct": ["C78"], "rounds": 3, "note": ""}
{"i": 10, "file": "Model/Threads.lean", "definition": "decryptEcSteps", "old": "let wif ← privateKeyToWif P (.bytes privateKey) wifType (← coinSteps i) network\n    if detail then do\n      let (lot", "new": "let wif ← privateKeyToWif P (.bytes privateKey) \"wif\" (← coinSteps i) network\n    if detail then do\n      let (lot", "claims": ["C78"], "desc": "wrong form in threads", "ok": false, "fails": ["alone_decryptEc"], "files": {"Verif/Lemmas/Threads.lean": ["alone_decryptEc"]}, "broken": ["C78_class_changed", "C78_network_assigned", "C78_undisturbed"], "hit": ["C78"], "direct": [], "rounds": 2, "note": ""}
{"i": 11, "file": "Model/Threads.lean", "definition": "Prog.advance", "old": "| .done r => .done r", "new": "| .done _ => .done (raise .error \"finished\")", "claims": ["C78"], "desc": "a finished call loses its answer when it is scheduled again", "ok": false, "fails": ["example@390", "one_moment"], "files": {"Verif/Lemmas/Threads.lean": ["one_moment"], "Verif/Props/Threads.lean": ["example@390"]}, "broken": ["C78_class_changed", "C78_network_assigned", "C78_undisturbed"], "hit": ["C78"], "direct": [], "rounds": 3, "note": ""}
{"i": 12, "file": "Model/Threads.lean", "definition": "Machine.answer", "old": "| some (.done r) => some r", "new": "| some (.done (.ok r)) => some (.ok r)", "claims": ["C78"], "desc": "exceptions are not answers", "ok": false, "fails": ["finishes"], "files": {"Verif/Lemmas/Threads.lean": ["finishes"]}, "broken": ["C78_finishes"], "hit": ["C78"], "direct": [], "rounds": 2, "note": ""}
{"i": 13, "file": "Model/Threads.lean", "definition": "turns", "old": "| .run s => s = t", "new": "| .run s => s ≤ t", "claims": ["C78"], "desc": "turns of other threads counted", "ok": false, "fails": ["finishes"], "files": {"Verif/Lemmas/Threads.lean": ["finishes"]}, "broken": ["C78_finishes"], "hit": ["C78"], "direct": [], "rounds": 2, "note": ""}
{"i": 14, "file": "Model/World.lean", "definition": "World.run", "old": "acts.foldl World.step w", "new": "acts.reverse.foldl World.step w", "claims": ["C75"], "desc": "actions in reverse order", "ok": false, "fails": ["run_isolated"], "files": {"Verif/Props/World.lean": ["run_isolated"]}, "broken": ["C75_answers", "C75_assigned", "C75_class_changed", "C75_constructed", "C75_isolated", "C75_network_assigned"], "hit": ["C75"], "direct": [], "rounds": 2, "note": ""}
{"i": 15, "file": "Model/Crypto.lean", "definition": "AES.new", "old": "key.length ≠ 16 ∧ key.length ≠ 24 ∧ key.length ≠ 32", "new": "key.length ≠ 16", "claims": ["C18", "C33"], "desc": "only 128-bit keys", "ok": false, "fails": ["AES.new_ok", "C78_decrypt_refuted", "C78_encrypt_refuted", "example@390", "example@430", "vector_confirm", "vector_create", "vector_decrypt", "vector_decrypt_noEc", "vector_encrypt", "vector_encrypt_testnet"], "files": {"Verif/Lemmas/Bip38.lean": ["AES.new_ok"], "Verif/Props/Vectors.lean": ["vector_encrypt", "vector_encrypt_testnet"], "Verif/Props/Threads.lean": ["C78_encrypt_refuted", "C78_decrypt_refuted", "example@390"], "Verif/Props/External.lean": ["example@430"], "Verif/Props/VectorsCreate.lean": ["vector_create"], "Verif/Props/VectorsNoEc.lean": ["vector_decrypt_noEc"], "Verif/Props/VectorsConfirm.lean": ["vector_confirm"], "Verif/Props/VectorsRead.lean": ["vector_decrypt"]}, "broken": ["C11_create", "C11_encrypt", "C17_decrypt_encrypt", "C17_refuted", "C17_roundtrip_iff", "C18_encrypt_returns_iff", "C18_refuted", "C19_record", "C20_C21_returned_key", "C22_refuted", "C29_decrypt_create", "C29_refuted", "C30_confirm_create", "C30_refuted", "C31_confirm_pair", "C31_lot_sequence", "C31_reported_pair", "C32_long_seed_lost", "C32_refuted_long", "C32_refuted_short", "C33_errors", "C33_returns", "C34_confirm_flag", "C34_confirm_reading", "C34_create_flag", "C34_decrypt_flag", "C34_decrypt_reading", "C34_encrypt_flag", "C34_illegal_refuted", "C34_unknown_flag", "C35_iff", "C35_sound", "C37_refuted", "C37_ripple_confirm", "C37_ripple_create", "C37_ripple_decrypt", "C40_confirm_errors", "C40_decrypt_errors", "C40_ec_iff", "C40_noEc_iff", "C41_other_network", "C51_injective", "C52_seed_injective", "C53_reencrypt", "C57_recreate", "C60_encrypt", "C61_confirm_elsewhere", "C61_decrypt_elsewhere", "C63_confirmation_injective", "C64_confirm_standard", "C64_decrypt_standard", "C64_decrypt_standard_ec", "C65_created_standard", "C66_ec", "C66_noEc", "C67_confirm", "C68_create", "C70_confirm", "C70_create", "C70_decrypt", "C70_encrypt", "C71_canonical", "C71_encrypted", "C71_history", "C71_path_independent", "C71_reencrypt", "C71_rekeyed", "C71_returned_large", "C71_step", "C71_wif", "C73_never", "C78_decrypt_refuted", "C78_encrypt_refuted", "C88_methods", "C89_ec", "C89_roundtrip", "C90_create", "C90_encrypt", "C90_roundtrip", "C91_passphrase"], "hit": ["C18", "C33"], "direct": [], "rounds": 7, "note": ""}
