{"i": 0, "file": "Model/World.lean", "definition": "World.object", "old": "networks := o.networks, network", "new": "networks := c.networkNames, network", "claims": ["C75"], "desc": "object sees the present names of its class instead of its copy", "ok": false, "fails": ["C75_class_changed", "C75_constructed", "C75_network_assigned"], "files": {"Verif/Props/World.lean": ["C75_constructed", "C75_class_changed", "C75_network_assigned"]}, "broken": ["C75_class_changed", "C75_constructed", "C75_network_assigned"], "hit": ["C75"], "direct": ["C75"], "rounds": 2, "note": ""}
{"i": 1, "file": "Model/World.lean", "definition": "World.object", "old": "alphabet := o.alphabet }", "new": "alphabet := c.alphabet.getD o.alphabet }", "claims": ["C75"], "desc": "object sees the present alphabet of its class", "ok": false, "fails": ["C75_class_changed", "C75_constructed", "C75_network_assigned"], "files": {"Verif/Props/World.lean": ["C75_constructed", "C75_class_changed", "C75_network_assigned"]}, "broken": ["C75_class_changed", "C75_constructed", "C75_network_assigned"], "hit": ["C75"], "direct": ["C75"], "rounds": 2, "note": ""}
{"i": 2, "file": "Model/World.lean", "definition": "World.step", "old": "[⟨cls, obj.networks, obj.network, obj.alphabet⟩]", "new": "[⟨cls, obj.networks, obj.networks.headD obj.network, obj.alphabet⟩]", "claims": ["C75"], "desc": "constructor stores the first network", "ok": false, "fails": ["C75_class_changed", "C75_constructed", "C75_network_assigned"], "files": {"Verif/Props/World.lean": ["C75_constructed", "C75_class_changed", "C75_network_assigned"]}, "broken": ["C75_class_changed", "C75_constructed", "C75_network_assigned"], "hit": ["C75"], "direct": ["C75"], "rounds": 2, "note": ""}
{"i": 3, "file": "Model/World.lean", "definition": "World.step", "old": "[⟨cls, obj.networks, obj.network, obj.alphabet⟩]", "new": "[⟨0, obj.networks, obj.network, obj.alphabet⟩]", "claims": ["C75"], "desc": "constructor keeps the wrong class", "ok": false, "fails": ["C75_class_changed", "C75_constructed", "C75_network_assigned"], "files": {"Verif/Props/World.lean": ["C75_constructed", "C75_class_changed", "C75_network_assigned"]}, "broken": ["C75_class_changed", "C75_constructed", "C75_network_assigned"], "hit": ["C75"], "direct": ["C75"], "rounds": 2, "note": ""}
{"i": 4, "file": "Model/World.lean", "definition": "World.step", "old": "{ w with objects := w.objects ++ [", "new": "{ w with objects := [", "claims": ["C75"], "desc": "construction forgets the earlier objects", "ok": false, "fails": ["C75_class_changed", "C75_constructed", "C75_network_assigned", "step_isolated"], "files": {"Verif/Props/World.lean": ["step_isolated", "C75_constructed", "C75_class_changed", "C75_network_assigned"]}, "broken": ["C75_class_changed", "C75_constructed", "C75_isolated", "C75_network_assigned"], "hit": ["C75"], "direct": ["C75"], "rounds": 2, "note": ""}
{"i": 5, "file": "Model/World.lean", "definition": "World.modify", "old": "w.objects.modify i f", "new": "w.objects.map f", "claims": ["C75"], "desc": "assignment to one object changes all (class attribute)", "ok": false, "fails": ["step_isolated"], "files": {"Verif/Props/World.lean": ["step_isolated"]}, "broken": ["C75_class_changed", "C75_constructed", "C75_isolated", "C75_network_assigned"], "hit": ["C75"], "direct": [], "rounds": 2, "note": ""}
{"i": 6, "file": "Model/World.lean", "definition": "World.step", "old": "| .setClass cls coin => { w with classes := w.classes.set cls coin }", "new": "| .setClass cls coin => { w with classes := w.classes.map fun _ => coin }", "claims": ["C75"], "desc": "change of one class changes all (shared dictionary)", "ok": false, "fails": ["step_isolated"], "files": {"Verif/Props/World.lean": ["step_isolated"]}, "broken": ["C75_class_changed", "C75_constructed", "C75_isolated", "C75_network_assigned"], "hit": ["C75"], "direct": [], "rounds": 2, "note": ""}
{"i": 7, "file": "Model/World.lean", "definition": "World.step", "old": "| .setClass cls coin => { w with classes := w.classes.set cls coin }", "new": "| .setClass cls coin => { classes := w.classes.set cls coin, objects := w.objects.map fun o => { o with networks := coin.networkNames } }", "claims": ["C75"], "desc": "names are a view of the class dictionary (no copy)", "ok": false, "fails": ["C75_class_changed", "step_isolated"], "files": {"Verif/Props/World.lean": ["step_isolated", "C75_class_changed"]}, "broken": ["C75_class_changed", "C75_constructed", "C75_isolated", "C75_network_assigned"], "hit": ["C75"], "direct": ["C75"], "rounds": 2, "note": ""}
{"i": 8, "file": "Model/World.lean", "definition": "World.step", "old": "  | .call _ _ => w", "new": "  | .call i (.encrypt _ _ (some n)) => w.modify i fun o => { o with network := n }\n  | .call _ _ => w", "claims": ["C75"], "desc": "a call with a network changes the default network", "ok": false, "fails": ["step_isolated"], "files": {"Verif/Props/World.lean": ["step_isolated"]}, "broken": ["C75_class_changed", "C75_constructed", "C75_isolated", "C75_network_assigned"], "hit": ["C75"], "direct": [], "rounds": 2, "note": ""}
{"i": 9, "file": "Model/World.lean", "definition": "World.step", "old": "  | .call _ _ => w", "new": "  | .call i (.create _ _ _ (some n) _) => w.modify i fun o => { o with networks := [n] }\n  | .call _ _ => w", "claims": ["C75"], "desc": "a call narrows the list of networks", "ok": false, "fails": ["step_isolated"], "files": {"Verif/Props/World.lean": ["step_isolated"]}, "broken": ["C75_class_changed", "C75_constructed", "C75_isolated", "C75_network_assigned"], "hit": ["C75"], "direct": [], "rounds": 2, "note": ""}
{"i": 10, "file": "Model/World.lean", "definition": "Call.run", "old": "obj.decrypt P e pass n detail", "new": "obj.decrypt P e pass none detail", "claims": ["C75"], "desc": "network of the call ignored", "ok": false, "fails": ["C75_attributes", "C75_not_listed", "C75_removed"], "files": {"Verif/Props/World.lean": ["C75_attributes", "C75_not_listed", "C75_removed"]}, "broken": ["C75_attributes", "C75_class_changed", "C75_network_assigned", "C75_not_listed", "C75_removed"], "hit": ["C75"], "direct": ["C75"], "rounds": 2, "note": ""}
{"i": 11, "file": "Model/World.lean", "definition": "Call.run", "old": "intermediateCode P pass lot sequence salt u", "new": "intermediateCode P pass sequence lot salt u", "claims": ["C75", "C26"], "desc": "lot and sequence swapped", "ok": true, "fails": [], "files": {}, "broken": [], "hit": [], "direct": [], "rounds": 1, "note": ""}
{"i": 12, "file": "Model/World.lean", "definition": "World.step", "old": ".assignNetwork i network => w.modify i fun o => { o with network }", "new": ".assignNetwork i network => w.modify i fun o => if network ∈ o.networks then { o with network } else o", "claims": ["C75"], "desc": "assignment of an unknown network ignored", "ok": false, "fails": ["C75_network_assigned"], "files": {"Verif/Props/World.lean": ["C75_network_assigned"]}, "broken": ["C75_network_assigned"], "hit": ["C75"], "direct": ["C75"], "rounds": 2, "note": ""}
{"i": 13, "file": "Model/World.lean", "definition": "World.step", "old": ".assignAlphabet i alphabet => w.modify i fun o => { o with alphabet }", "new": ".assignAlphabet i alphabet => w.modify i fun o => { o with alphabet, network := \"mainnet\" }", "claims": ["C75"], "desc": "assignment of the alphabet resets the network", "ok": true, "fails": [], "files": {}, "broken": [], "hit": [], "direct": [], "rounds": 1, "note": ""}
{"i": 14, "file": "Model/Bip38Kind.lean", "definition": "ObjArg.truthy", "old": "| .str s => s ≠ \"\"", "new": "| .str _ => true", "claims": ["C76"], "desc": "the empty text counts as a network", "ok": false, "fails": ["networkKind_select"], "files": {"Verif/Props/Kinds.lean": ["networkKind_select"]}, "broken": ["C76_text_or_false"], "hit": ["C76"], "direct": [], "rounds": 2, "note": ""}
{"i": 15, "file": "Model/Bip38Kind.lean", "definition": "ObjArg.truthy", "old": "| .other t _ _ _ => t", "new": "| .other _ _ _ _ => true", "claims": ["C76"], "desc": "every other object counts as a network", "ok": false, "fails": ["example@259"], "files": {"Verif/Props/Kinds.lean": ["example@259"]}, "broken": [], "hit": [], "direct": [], "rounds": 2, "note": ""}
{"i": 16, "file": "Model/Bip38Kind.lean", "definition": "ObjArg.truthy", "old": "| .other t _ _ _ => t", "new": "| .other _ _ _ _ => false", "claims": ["C76"], "desc": "only texts are looked at; other objects mean the default", "ok": false, "fails": ["example@259"], "files": {"Verif/Props/Kinds.lean": ["example@259"]}, "broken": [], "hit": [], "direct": [], "rounds": 2, "note": ""}
{"i": 17, "file": "Model/Bip38Kind.lean", "definition": "ObjArg.typeText", "old": "\"<class 'NoneType'>\"", "new": "\"None\"", "claims": ["C76"], "desc": "None shown instead of its type", "ok": true, "fails": [], "files": {}, "broken": [], "hit": [], "direct": [], "rounds": 1, "note": ""}
{"i": 18, "file": "Model/Bip38Kind.lean", "definition": "ObjArg.text", "old": "| .none => \"None\"", "new": "| .none => \"\"", "claims": ["C76"], "desc": "None shown as nothing", "ok": true, "fails": [], "files": {}, "broken": [], "hit": [], "direct": [], "rounds": 1, "note": ""}
{"i": 19, "file": "Model/Bip38Kind.lean", "definition": "ObjArg.isIn", "old": "x = .str t", "new": "x.text = t", "claims": ["C76"], "desc": "membership compares the text of the object", "ok": false, "fails": ["isIn_iff"], "files": {"Verif/Props/Kinds.lean": ["isIn_iff"]}, "broken": ["C76_constructor", "C76_lookup", "C76_refused", "C76_text_or_false", "C76_wif_text", "C76_wif_type"], "hit": ["C76"], "direct": [], "rounds": 2, "note": ""}
{"i": 20, "file": "Model/Bip38Kind.lean", "definition": "BIP38.networkKind", "old": "network.typeText)\n  match network", "new": "network.text)\n  match network", "claims": ["C76"], "desc": "value instead of type shown", "ok": false, "fails": ["C76_refused", "networkKind_select"], "files": {"Verif/Props/Kinds.lean": ["networkKind_select", "C76_refused"]}, "broken": ["C76_refused", "C76_text_or_false"], "hit": ["C76"], "direct": ["C76"], "rounds": 2, "note": ""}
{"i": 21, "file": "Model/Bip38Kind.lean", "definition": "BIP38.networkKind", "old": "if network.truthy then network else .str self.network", "new": "if network = .none then .str self.network else network", "claims": ["C76"], "desc": "only None means the default network", "ok": false, "fails": ["C76_refused", "networkKind_select"], "files": {"Verif/Props/Kinds.lean": ["networkKind_select", "C76_refused"]}, "broken": ["C76_refused", "C76_text_or_false"], "hit": ["C76"], "direct": ["C76"], "rounds": 2, "note": ""}
{"i": 22, "file": "Model/Bip38Kind.lean", "definition": "BIP38.encryptKind", "old": "self.encrypt P wif passphrase (some network)", "new": "self.encrypt P wif passphrase none", "claims": ["C76"], "desc": "checked network not used", "ok": false, "fails": ["C76_text_or_false"], "files": {"Verif/Props/Kinds.lean": ["C76_text_or_false"]}, "broken": ["C76_text_or_false"], "hit": ["C76"], "direct": ["C76"], "rounds": 2, "note": ""}
{"i": 23, "file": "Model/Bip38Kind.lean", "definition": "BIP38.decryptKind", "old": "self.decrypt P encryptedWif passphrase (some network) detail", "new": "self.decrypt P encryptedWif passphrase (some network) true", "claims": ["C76"], "desc": "detail always on", "ok": false, "fails": ["C76_text_or_false"], "files": {"Verif/Props/Kinds.lean": ["C76_text_or_false"]}, "broken": ["C76_text_or_false"], "hit": ["C76"], "direct": ["C76"], "rounds": 2, "note": ""}
{"i": 24, "file": "Model/Bip38Kind.lean", "definition": "BIP38.confirmKind", "old": "self.confirmCode P passphrase confirmationCode (some network) detail", "new": "self.confirmCode P confirmationCode passphrase (some network) detail", "claims": ["C76"], "desc": "arguments swapped", "ok": false, "fails": ["C76_text_or_false"], "files": {"Verif/Props/Kinds.lean": ["C76_text_or_false"]}, "broken": ["C76_text_or_false"], "hit": ["C76"], "direct": ["C76"], "rounds": 2, "note": ""}
{"i": 25, "file": "Model/Bip38Kind.lean", "definition": "BIP38.createKind", "old": "    let _ ← bytesOrRandom seed urandom24\n", "new": "", "claims": ["C76"], "desc": "seed looked at after the type", "ok": false, "fails": ["C76_create_type"], "files": {"Verif/Props/Kinds.lean": ["C76_create_type"]}, "broken": ["C76_create_type"], "hit": ["C76"], "direct": ["C76"], "rounds": 2, "note": ""}
{"i": 26, "file": "Model/Bip38Kind.lean", "definition": "BIP38.createKind", "old": "raise .wifError (errText \"Invalid wif type\" (.list (WIF_TYPES.map String.toList)) t.text)", "new": "self.createNewEncryptedWif P intermediatePassphrase \"wif-compressed\" seed (some network) urandom24", "claims": ["C76"], "desc": "unknown type taken for the default", "ok": false, "fails": ["C76_create_type"], "files": {"Verif/Props/Kinds.lean": ["C76_create_type"]}, "broken": ["C76_create_type"], "hit": ["C76"], "direct": ["C76"], "rounds": 2, "note": ""}
{"i": 27, "file": "Model/Bip38Kind.lean", "definition": "lookupKind", "old": "| .none => raise .keyError \"None\"", "new": "| .none => lookupNet c \"mainnet\"", "claims": ["C76"], "desc": "None means mainnet", "ok": false, "fails": ["C76_lookup"], "files": {"Verif/Props/Kinds.lean": ["C76_lookup"]}, "broken": ["C76_lookup"], "hit": ["C76"], "direct": ["C76"], "rounds": 2, "note": ""}
{"i": 28, "file": "Model/Bip38Kind.lean", "definition": "lookupKind", "old": "if hashable then raise .keyError text else raise .typeError \"unhashable type\"", "new": "raise .keyError text", "claims": ["C76"], "desc": "unhashable keys raise KeyError", "ok": false, "fails": ["C76_lookup"], "files": {"Verif/Props/Kinds.lean": ["C76_lookup"]}, "broken": ["C76_lookup"], "hit": ["C76"], "direct": ["C76"], "rounds": 2, "note": ""}
{"i": 29, "file": "Model/Bip38Kind.lean", "definition": "privateKeyToWifKind", "old": "  raiseIf (¬ wifType.isIn WIF_TYPES) .wifError (errText \"Wrong WIF type\" (.list (WIF_TYPES.map String.toList)) wifType.text)\n", "new": "", "claims": ["C76"], "desc": "type unchecked", "ok": false, "fails": ["C76_lookup", "C76_wif_text", "C76_wif_type"], "files": {"Verif/Props/Kinds.lean": ["C76_wif_text", "C76_wif_type", "C76_lookup"]}, "broken": ["C76_lookup", "C76_wif_text", "C76_wif_type"], "hit": ["C76"], "direct": ["C76"], "rounds": 2, "note": ""}
{"i": 30, "file": "Model/Bip38Kind.lean", "definition": "privateKeyToWifKind", "old": "if wifType = .str \"wif\" then wif else wifCompressed", "new": "if wifType = .str \"wif\" then wifCompressed else wif", "claims": ["C76"], "desc": "forms swapped", "ok": false, "fails": ["C76_wif_text"], "files": {"Verif/Props/Kinds.lean": ["C76_wif_text"]}, "broken": ["C76_wif_text"], "hit": ["C76"], "direct": ["C76"], "rounds": 2, "note": ""}
{"i": 31, "file": "Model/Bip38Kind.lean", "definition": "wifToPrivateKeyKind", "old": "let (key, _, _) ← decodeWif", "new": "let (_, _, key) ← decodeWif", "claims": ["C76"], "desc": "checksum returned for the key", "ok": false, "fails": ["C76_wif_text"], "files": {"Verif/Props/Kinds.lean": ["C76_wif_text"]}, "broken": ["C76_wif_text"], "hit": ["C76"], "direct": ["C76"], "rounds": 2, "note": ""}
{"i": 32, "file": "Model/Bip38Kind.lean", "definition": "p2pkhEncodeKind", "old": "= .str \"compressed\" then pk.rawCompressed", "new": "≠ .str \"uncompressed\" then pk.rawCompressed", "claims": ["C76"], "desc": "everything but uncompressed counts as compressed", "ok": false, "fails": ["C76_public_key_type"], "files": {"Verif/Props/Kinds.lean": ["C76_public_key_type"]}, "broken": ["C76_public_key_type"], "hit": ["C76"], "direct": ["C76"], "rounds": 2, "note": ""}
{"i": 33, "file": "Model/Bip38Kind.lean", "definition": "p2pkhEncodeKind", "old": "publicKeyType.getD (.str \"compressed\")", "new": "publicKeyType.getD (.str \"uncompressed\")", "claims": ["C76", "C77"], "desc": "default public key type uncompressed", "ok": false, "fails": ["C76_public_key_type"], "files": {"Verif/Props/Kinds.lean": ["C76_public_key_type"]}, "broken": ["C76_public_key_type"], "hit": ["C76"], "direct": ["C76"], "rounds": 2, "note": ""}
{"i": 34, "file": "Model/Bip38Kind.lean", "definition": "p2pkhEncodeKind", "old": "publicKeyType.getD (.str \"compressed\")", "new": "publicKeyType.getD .none", "claims": ["C76", "C77"], "desc": "default public key type None", "ok": false, "fails": ["C76_public_key_type"], "files": {"Verif/Props/Kinds.lean": ["C76_public_key_type"]}, "broken": ["C76_public_key_type"], "hit": ["C76"], "direct": ["C76"], "rounds": 2, "note": ""}
{"i": 35, "file": "Model/Bip38Kind.lean", "definition": "BIP38.newKind", "old": "x.typeText)\n    raise", "new": "x.text)\n    raise", "claims": ["C76"], "desc": "value instead of type shown", "ok": false, "fails": ["C76_constructor"], "files": {"Verif/Props/Kinds.lean": ["C76_constructor"]}, "broken": ["C76_constructor"], "hit": ["C76"], "direct": ["C76"], "rounds": 2, "note": ""}
{"i": 36, "file": "Model/Bip38.lean", "definition": "BIP38.new", "old": "(network : String := \"mainnet\")", "new": "(network : String := \"testnet\")", "claims": ["C77"], "desc": "default network testnet", "ok": false, "fails": ["C36_constructs", "C77_constructor", "example@45"], "files": {"Verif/Props/Coins.lean": ["C36_constructs"], "Verif/Props/Alphabet.lean": ["example@45"], "Verif/Props/Defaults.lean": ["C77_constructor"]}, "broken": ["C36_constructs", "C77_constructor"], "hit": ["C77"], "direct": ["C77"], "rounds": 3, "note": ""}
{"i": 37, "file": "Model/Bip38.lean", "definition": "BIP38.createNewEncryptedWif", "old": "(wifType : String := \"wif\")", "new": "(wifType : String := \"wif-compressed\")", "claims": ["C77"], "desc": "default WIF type compressed", "ok": false, "fails": ["C77_methods"], "files": {"Verif/Props/Defaults.lean": ["C77_methods"]}, "broken": ["C77_methods"], "hit": ["C77"], "direct": ["C77"], "rounds": 2, "note": ""}
{"i": 38, "file": "Model/Bip38.lean", "definition": "BIP38.confirmCode", "old": "    (detail : Bool := false) : Py ConfirmOut", "new": "    (detail : Bool := true) : Py ConfirmOut", "claims": ["C77"], "desc": "details by default", "ok": false, "fails": ["C77_methods", "example@159", "example@474"], "files": {"Verif/Props/Interop.lean": ["example@159"], "Verif/Props/Outcome2.lean": ["example@474"], "Verif/Props/Defaults.lean": ["C77_methods"]}, "broken": ["C77_methods"], "hit": ["C77"], "direct": ["C77"], "rounds": 4, "note": ""}
{"i": 39, "file": "Model/Bip38.lean", "definition": "BIP38.decrypt", "old": "    (detail : Bool := false) : Py DecryptOut", "new": "    (detail : Bool := true) : Py DecryptOut", "claims": ["C77"], "desc": "details by default", "ok": false, "fails": ["C17_decrypt_encrypt", "C17_refuted", "example@202", "example@284"], "files": {"Verif/Props/NoEc.lean": ["C17_decrypt_encrypt", "example@202", "C17_refuted", "example@284", "C17_decrypt_encrypt"]}, "broken": ["C17_decrypt_encrypt", "C17_refuted"], "hit": [], "direct": [], "rounds": 2, "note": "loop C17_decrypt_encrypt"}
{"i": 40, "file": "Model/Wif.lean", "definition": "encodeWif", "old": "(wifPrefix : Int := 0x80) : Py (Str", "new": "(wifPrefix : Int := 0xef) : Py (Str", "claims": ["C77"], "desc": "default prefix of testnet", "ok": false, "fails": ["C77_wif"], "files": {"Verif/Props/Defaults.lean": ["C77_wif"]}, "broken": ["C77_wif"], "hit": ["C77"], "direct": ["C77"], "rounds": 2, "note": ""}
{"i": 41, "file": "Model/Wif.lean", "definition": "privateKeyToWif", "old": "(wifType : String := \"wif-compressed\")", "new": "(wifType : String := \"wif\")", "claims": ["C77"], "desc": "default WIF type uncompressed", "ok": false, "fails": ["C77_wif"], "files": {"Verif/Props/Defaults.lean": ["C77_wif"]}, "broken": ["C77_wif"], "hit": ["C77"], "direct": ["C77"], "rounds": 2, "note": ""}
{"i": 42, "file": "Model/Wif.lean", "definition": "privateKeyToWif", "old": "    (network : String := \"mainnet\") : Py Str := do\n  raiseIf", "new": "    (network : String := \"testnet\") : Py Str := do\n  raiseIf", "claims": ["C77"], "desc": "default network testnet", "ok": false, "fails": ["C77_wif"], "files": {"Verif/Props/Defaults.lean": ["C77_wif"]}, "broken": ["C77_wif"], "hit": ["C77"], "direct": ["C77"], "rounds": 2, "note": ""}
{"i": 43, "file": "Model/Wif.lean", "definition": "getWifType", "old": "def getWifType (wif : Str) (coin : Coin := Coins.Bitcoin)", "new": "def getWifType (wif : Str) (coin : Coin := Coins.Litecoin)", "claims": ["C77"], "desc": "default coin Litecoin", "ok": false, "fails": ["C10_wrong_marker_refuted", "C77_wif"], "files": {"Verif/Props/Wif.lean": ["C10_wrong_marker_refuted"], "Verif/Props/Defaults.lean": ["C77_wif"]}, "broken": ["C10_wrong_marker_refuted", "C77_wif"], "hit": ["C77"], "direct": ["C77"], "rounds": 3, "note": ""}
{"i": 44, "file": "Model/P2pkh.lean", "definition": "p2pkhDecode", "old": "def p2pkhDecode (address : Str) (addressPrefix : Int := 0x00)", "new": "def p2pkhDecode (address : Str) (addressPrefix : Int := 0x6f)", "claims": ["C77"], "desc": "default prefix of testnet", "ok": false, "fails": ["C77_address"], "files": {"Verif/Props/Defaults.lean": ["C77_address"]}, "broken": ["C77_address"], "hit": ["C77"], "direct": ["C77"], "rounds": 2, "note": ""}
{"i": 45, "file": "Model/P2pkh.lean", "definition": "p2pkhEncode", "old": "(publicKeyType : String := \"compressed\")", "new": "(publicKeyType : String := \"uncompressed\")", "claims": ["C77"], "desc": "default type uncompressed", "ok": false, "fails": ["C77_address"], "files": {"Verif/Props/Defaults.lean": ["C77_address"]}, "broken": ["C77_address"], "hit": ["C77"], "direct": ["C77"], "rounds": 2, "note": ""}
