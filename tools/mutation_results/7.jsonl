{"i": 0, "file": "Model/Bip38.lean", "definition": "BIP38.new", "old": "  raiseIf (network ∉ networks) .networkError (wrongNetwork networks)\n", "new": "", "claims": ["C24"], "desc": "constructor accepts unknown networks (3/2 corrected)", "ok": false, "fails": ["BIP38.new"], "files": {"Verif/Model/Bip38.lean": ["BIP38.new"]}, "broken": [], "hit": [], "direct": [], "rounds": 1, "note": "model does not compile Verif/Model/Bip38.lean"}
{"i": 1, "file": "Model/Wif.lean", "definition": "encodeWif", "old": "  raiseIf (key.length ≠ 32 ∧ privateKey = .none) .typeError \"object of type 'NoneType' has no len()\"\n", "new": "", "claims": ["C49"], "desc": "None reported as a wrong length (3/31 corrected)", "ok": false, "fails": ["C49_key_argument", "follows_encodeWif"], "files": {"Verif/Props/WifMore.lean": ["C49_key_argument"], "Verif/Lemmas/External.lean": ["follows_encodeWif"]}, "broken": ["C49_key_argument", "C77_wif", "C79_decrypt", "C80_decrypt", "C80_guess_ec", "C80_guess_noEc"], "hit": ["C49"], "direct": ["C49"], "rounds": 2, "note": ""}
{"i": 2, "file": "Model/Wif.lean", "definition": "privateKeyToWif", "old": "  raiseIf (wifType ∉ WIF_TYPES) .wifError (errText \"Wrong WIF type\" (.list (WIF_TYPES.map String.toList)) wifType)\n", "new": "", "claims": ["C07"], "desc": "unknown types treated as compressed (3/33 corrected)", "ok": false, "fails": ["C07_wrong_type", "C49_key_argument", "C76_wif_text", "follows_toWif"], "files": {"Verif/Props/Wif.lean": ["C07_wrong_type"], "Verif/Props/WifMore.lean": ["C49_key_argument"], "Verif/Lemmas/External.lean": ["follows_toWif"], "Verif/Props/Kinds.lean": ["C76_wif_text"]}, "broken": ["C07_wrong_type", "C49_key_argument", "C76_wif_text", "C77_wif", "C79_decrypt", "C80_decrypt", "C80_guess_ec", "C80_guess_noEc"], "hit": ["C07"], "direct": ["C07"], "rounds": 4, "note": ""}
{"i": 3, "file": "Model/Exceptions.lean", "definition": "bytesRepr", "old": "let q := if 39 ∈ b ∧ 34 ∉ b then '\"' else '\\''", "new": "let q := '\\''", "claims": ["C39"], "desc": "always single quotes (3/37 again)", "ok": false, "fails": ["C39_bytes_printable", "C39_bytes_shown", "example@132"], "files": {"Verif/Props/Address.lean": ["example@132"], "Verif/Props/BytesRepr.lean": ["C39_bytes_shown", "C39_bytes_printable"]}, "broken": ["C39_bytes_printable", "C39_bytes_shown"], "hit": ["C39"], "direct": ["C39"], "rounds": 2, "note": ""}
{"i": 4, "file": "Model/Exceptions.lean", "definition": "byteRepr", "old": "if b = 92 ∨ b.toNat = q.toNat then", "new": "if b.toNat = q.toNat then", "claims": ["C39"], "desc": "backslash not escaped (3/38 again)", "ok": false, "fails": ["example@132", "shows_byte"], "files": {"Verif/Props/Address.lean": ["example@132"], "Verif/Props/BytesRepr.lean": ["shows_byte"]}, "broken": ["C39_bytes_shown"], "hit": ["C39"], "direct": [], "rounds": 2, "note": ""}
{"i": 5, "file": "Model/Exceptions.lean", "definition": "byteRepr", "old": "b.toNat < 32 ∨ 127 ≤ b.toNat", "new": "b.toNat < 32 ∨ 128 ≤ b.toNat", "claims": ["C39"], "desc": "DEL printed raw (3/39 again)", "ok": false, "fails": ["C39_bytes_printable", "shows_byte"], "files": {"Verif/Props/BytesRepr.lean": ["shows_byte", "C39_bytes_printable"]}, "broken": ["C39_bytes_printable", "C39_bytes_shown"], "hit": ["C39"], "direct": ["C39"], "rounds": 2, "note": ""}
{"i": 6, "file": "Model/External.lean", "definition": "checkDecodeOrX", "old": "(if e.cls.isValueError then raise cls msg else .error e, log')", "new": "(raise cls msg, log')", "claims": ["C79"], "desc": "the try block catches every exception", "ok": false, "fails": ["followsAt_try"], "files": {"Verif/Lemmas/External.lean": ["followsAt_try"]}, "broken": ["C79_confirm", "C79_create", "C80_confirm", "C80_confirm_bad", "C80_create", "C80_create_bad", "C80_guess_confirm"], "hit": ["C79"], "direct": [], "rounds": 2, "note": ""}
{"i": 7, "file": "Model/External.lean", "definition": "checkDecodeOrX", "old": "(if e.cls.isValueError then raise cls msg else .error e, log')", "new": "(.error e, log')", "claims": ["C79", "C24"], "desc": "the try block catches nothing", "ok": false, "fails": ["example@441", "followsAt_try"], "files": {"Verif/Lemmas/External.lean": ["followsAt_try"], "Verif/Props/External.lean": ["example@441"]}, "broken": ["C79_confirm", "C79_create", "C80_confirm", "C80_confirm_bad", "C80_create", "C80_create_bad", "C80_guess_confirm"], "hit": ["C79"], "direct": [], "rounds": 3, "note": ""}
{"i": 8, "file": "Model/External.lean", "definition": "bytesOrRandomX", "old": "if x.truthy then liftM (getBytes x) else ask (.urandom k) u", "new": "do\n  let r ← ask (.urandom k) u\n  if x.truthy then liftM (getBytes x) else pure r", "claims": ["C80"], "desc": "random bytes are read even when salt or seed are given", "ok": false, "fails": ["C80_intermediate_bad", "followsAt_seed", "follows_random"], "files": {"Verif/Lemmas/External.lean": ["follows_random", "followsAt_seed"], "Verif/Props/External.lean": ["C80_intermediate_bad"]}, "broken": ["C79_create", "C79_intermediate", "C80_create", "C80_create_bad", "C80_intermediate", "C80_intermediate_bad"], "hit": ["C80"], "direct": ["C80"], "rounds": 3, "note": ""}
{"i": 9, "file": "Model/External.lean", "definition": "bytesOrRandomX", "old": "else ask (.urandom k) u", "new": "else ask (.urandom 8) u", "claims": ["C80"], "desc": "8 random bytes also for the seed", "ok": false, "fails": ["followsAt_seed", "follows_random"], "files": {"Verif/Lemmas/External.lean": ["follows_random", "followsAt_seed"]}, "broken": ["C79_create", "C79_intermediate", "C80_create", "C80_create_bad", "C80_intermediate", "C80_intermediate_bad"], "hit": ["C80"], "direct": [], "rounds": 2, "note": ""}
{"i": 10, "file": "Model/External.lean", "definition": "scryptPassphraseX", "old": "  let normalized ← ask (.normalize passphrase) (P.nfc passphrase)\n  scryptX P (utf8 normalized) salt 16384 8 8 buflen", "new": "  let _ ← scryptX P (utf8 passphrase) salt 16384 8 8 buflen\n  let normalized ← ask (.normalize passphrase) (P.nfc passphrase)\n  scryptX P (utf8 normalized) salt 16384 8 8 buflen", "claims": ["C80"], "desc": "passphrase stretched twice", "ok": false, "fails": ["example@430", "example@441", "follows_passphrase", "x_passphrase"], "files": {"Verif/Lemmas/External.lean": ["follows_passphrase", "x_passphrase"], "Verif/Props/External.lean": ["example@430", "example@441"]}, "broken": ["C79_confirm", "C79_decrypt", "C79_encrypt", "C79_intermediate", "C80_confirm", "C80_decrypt", "C80_encrypt", "C80_guess_confirm", "C80_guess_ec", "C80_guess_noEc", "C80_intermediate"], "hit": ["C80"], "direct": [], "rounds": 3, "note": ""}
{"i": 11, "file": "Model/External.lean", "definition": "scryptPassphraseX", "old": "scryptX P (utf8 normalized) salt 16384 8 8 buflen", "new": "scryptX P (utf8 normalized) salt 1024 8 8 buflen", "claims": ["C79", "C80"], "desc": "cheaper cost parameter", "ok": false, "fails": ["example@430", "example@441", "follows_passphrase", "x_passphrase"], "files": {"Verif/Lemmas/External.lean": ["follows_passphrase", "x_passphrase"], "Verif/Props/External.lean": ["example@430", "example@441"]}, "broken": ["C79_confirm", "C79_decrypt", "C79_encrypt", "C79_intermediate", "C80_confirm", "C80_decrypt", "C80_encrypt", "C80_guess_confirm", "C80_guess_ec", "C80_guess_noEc", "C80_intermediate"], "hit": ["C79", "C80"], "direct": [], "rounds": 3, "note": ""}
{"i": 12, "file": "Model/External.lean", "definition": "scryptPassphraseX", "old": "let normalized ← ask (.normalize passphrase) (P.nfc passphrase)", "new": "let normalized := P.nfc passphrase", "claims": ["C80"], "desc": "normalization not an external call (request lost)", "ok": false, "fails": ["example@430", "follows_passphrase", "x_passphrase"], "files": {"Verif/Lemmas/External.lean": ["follows_passphrase", "x_passphrase"], "Verif/Props/External.lean": ["example@430"]}, "broken": ["C79_confirm", "C79_decrypt", "C79_encrypt", "C79_intermediate", "C80_confirm", "C80_decrypt", "C80_encrypt", "C80_guess_confirm", "C80_guess_ec", "C80_guess_noEc", "C80_intermediate"], "hit": ["C80"], "direct": [], "rounds": 3, "note": ""}
{"i": 13, "file": "Model/External.lean", "definition": "scryptPassphraseX", "old": "scryptX P (utf8 normalized) salt 16384 8 8 buflen", "new": "scryptX P (utf8 passphrase) salt 16384 8 8 buflen", "claims": ["C79", "C80"], "desc": "passphrase not normalized", "ok": false, "fails": ["follows_passphrase", "x_passphrase"], "files": {"Verif/Lemmas/External.lean": ["follows_passphrase", "x_passphrase"]}, "broken": ["C79_confirm", "C79_decrypt", "C79_encrypt", "C79_intermediate", "C80_confirm", "C80_decrypt", "C80_encrypt", "C80_guess_confirm", "C80_guess_ec", "C80_guess_noEc", "C80_intermediate"], "hit": ["C79", "C80"], "direct": [], "rounds": 2, "note": ""}
{"i": 14, "file": "Model/External.lean", "definition": "BIP38.encryptX", "old": "  let network := self.selectNetwork network\n  raiseIf (network ∉ self.networks) .networkError (wrongNetwork self.networks)\n  let wifType ← getWifType wif self.cryptocurrency network\n", "new": "  let network := self.selectNetwork network\n  let _ ← ask (.normalize passphrase) (P.nfc passphrase)\n  raiseIf (network ∉ self.networks) .networkError (wrongNetwork self.networks)\n  let wifType ← getWifType wif self.cryptocurrency network\n", "claims": ["C80"], "desc": "passphrase normalized before the network is checked", "ok": false, "fails": ["C79_ripemd160_refused", "C80_encrypt_bad", "C80_unknown_network", "example@430", "follows_encrypt"], "files": {"Verif/Lemmas/External.lean": ["follows_encrypt"], "Verif/Props/External.lean": ["C79_ripemd160_refused", "C80_unknown_network", "C80_encrypt_bad", "example@430"]}, "broken": ["C79_encrypt", "C79_ripemd160_refused", "C80_encrypt", "C80_encrypt_bad", "C80_unknown_network"], "hit": ["C80"], "direct": ["C80"], "rounds": 3, "note": ""}
{"i": 15, "file": "Model/External.lean", "definition": "BIP38.decryptX", "old": "  let decoded ← b58decode encryptedWif\n", "new": "  let _ ← scryptPassphraseX P passphrase [] \n  let decoded ← b58decode encryptedWif\n", "claims": ["C80"], "desc": "passphrase stretched before the text is read", "ok": false, "fails": ["followsAt_confirm", "followsAt_create", "follows_decrypt", "grows_checkDecodeOr", "x_assoc", "x_passFactor", "x_passphrase", "x_quiet"], "files": {"Verif/Lemmas/External.lean": ["follows_decrypt", "followsAt_confirm", "followsAt_create", "grows_checkDecodeOr", "x_passphrase", "x_assoc", "x_passFactor", "x_quiet", "x_quiet"]}, "broken": [], "hit": [], "direct": [], "rounds": 3, "note": "loop x_quiet"}
{"i": 16, "file": "Model/External.lean", "definition": "BIP38.createX", "old": "  let seedB ← bytesOrRandomX seed urandom24 24\n  let intermediateDecode ← checkDecodeOrX P intermediatePassphrase .passphraseError \"Invalid intermediate passphrase\"\n", "new": "  let intermediateDecode ← checkDecodeOrX P intermediatePassphrase .passphraseError \"Invalid intermediate passphrase\"\n  let seedB ← bytesOrRandomX seed urandom24 24\n", "claims": ["C79"], "desc": "seed drawn after the code is read", "ok": false, "fails": ["C80_create_bad", "followsAt_create"], "files": {"Verif/Lemmas/External.lean": ["followsAt_create"], "Verif/Props/External.lean": ["C80_create_bad"]}, "broken": ["C79_create", "C80_create", "C80_create_bad"], "hit": ["C79"], "direct": [], "rounds": 3, "note": ""}
{"i": 17, "file": "Model/External.lean", "definition": "BIP38.createX", "old": "  let scryptHash ← scryptX P passPoint salt 1024 1 1 64\n  let derivedHalf1 := scryptHash.take 16\n", "new": "  let scryptHash ← scryptX P passPoint salt 16384 8 8 64\n  let derivedHalf1 := scryptHash.take 16\n", "claims": ["C79", "C80"], "desc": "expensive parameters for the point", "ok": false, "fails": ["followsAt_create"], "files": {"Verif/Lemmas/External.lean": ["followsAt_create"]}, "broken": ["C79_create", "C80_create"], "hit": ["C79", "C80"], "direct": [], "rounds": 2, "note": ""}
{"i": 18, "file": "Model/External.lean", "definition": "BIP38.confirmX", "old": "  let scryptHash ← scryptX P passPoint salt 1024 1 1 64\n  let derivedHalf1 := slice 1 17", "new": "  let scryptHash := P.scrypt passPoint salt 1024 1 1 64\n  let derivedHalf1 := slice 1 17", "claims": ["C80"], "desc": "the second scrypt call is lost", "ok": false, "fails": ["followsAt_confirm"], "files": {"Verif/Lemmas/External.lean": ["followsAt_confirm"]}, "broken": ["C79_confirm", "C80_confirm"], "hit": ["C80"], "direct": [], "rounds": 2, "note": ""}
{"i": 19, "file": "Model/External.lean", "definition": "BIP38.decryptEcX", "old": "  let encryptedHalf2 := dropLastN 4 decoded |>.drop 23\n  let (ownerSalt, lotAndSequence) := splitEntropy flag ownerEntropy\n", "new": "  let encryptedHalf2 := dropLastN 4 decoded |>.drop 23\n  let (_, lotAndSequence) := splitEntropy flag ownerEntropy\n  let ownerSalt := addressHash\n", "claims": ["C79", "C80"], "desc": "wrong salt", "ok": false, "fails": ["C80_guess_ec", "follows_decryptEc"], "files": {"Verif/Lemmas/External.lean": ["follows_decryptEc"], "Verif/Props/External.lean": ["C80_guess_ec"]}, "broken": ["C79_decrypt", "C80_decrypt", "C80_guess_ec", "C80_guess_noEc"], "hit": ["C79", "C80"], "direct": ["C80"], "rounds": 3, "note": ""}
{"i": 20, "file": "Model/External.lean", "definition": "BIP38.decryptNoEcX", "old": "  let key ← scryptPassphraseX P passphrase addressHash\n  let derivedHalf1 := slice 0 32 key\n  let derivedHalf2 := slice 32 64 key\n  let encryptedHalf1", "new": "  let key ← scryptPassphraseX P passphrase addressHash 32\n  let derivedHalf1 := slice 0 32 key\n  let derivedHalf2 := slice 32 64 key\n  let encryptedHalf1", "claims": ["C79", "C80"], "desc": "only 32 bytes derived", "ok": false, "fails": ["C80_guess_noEc", "follows_decryptNoEc"], "files": {"Verif/Lemmas/External.lean": ["follows_decryptNoEc"], "Verif/Props/External.lean": ["C80_guess_noEc"]}, "broken": ["C79_decrypt", "C80_decrypt", "C80_guess_noEc"], "hit": ["C79", "C80"], "direct": ["C80"], "rounds": 3, "note": ""}
{"i": 21, "file": "Model/External.lean", "definition": "BIP38.confirmX", "old": "let decoded ← checkDecodeOrX P confirmationCode .error \"Invalid confirmation code\"", "new": "let decoded ← checkDecodeX P confirmationCode", "claims": ["C79"], "desc": "ValueError not translated", "ok": false, "fails": ["C80_confirm_bad", "C80_guess_confirm", "example@441", "followsAt_confirm"], "files": {"Verif/Lemmas/External.lean": ["followsAt_confirm"], "Verif/Props/External.lean": ["C80_confirm_bad", "C80_guess_confirm", "example@441"]}, "broken": ["C79_confirm", "C80_confirm", "C80_confirm_bad", "C80_guess_confirm"], "hit": ["C79"], "direct": [], "rounds": 3, "note": ""}
{"i": 22, "file": "Model/External.lean", "definition": "ask", "old": "  | some e => (.error e, log ++ [q])\n", "new": "  | some e => (.error e, log)\n", "claims": ["C79"], "desc": "a failed request is not recorded", "ok": false, "fails": ["C79_ripemd160_refused", "Follows.ask", "example@430", "example@441", "followsAt_seed", "followsAt_try", "x_passphrase"], "files": {"Verif/Lemmas/External.lean": ["Follows.ask", "followsAt_try", "followsAt_seed", "x_passphrase"], "Verif/Props/External.lean": ["C79_ripemd160_refused", "example@430", "example@441"]}, "broken": ["C79_confirm", "C79_create", "C79_decrypt", "C79_encrypt", "C79_intermediate", "C79_ripemd160_refused", "C80_confirm", "C80_confirm_bad", "C80_create", "C80_create_bad", "C80_decrypt", "C80_encrypt", "C80_guess_confirm", "C80_guess_ec", "C80_guess_noEc", "C80_intermediate", "C80_intermediate_bad"], "hit": ["C79"], "direct": ["C79"], "rounds": 3, "note": ""}
{"i": 23, "file": "Model/External.lean", "definition": "ask", "old": "  | some e => (.error e, log ++ [q])\n", "new": "  | some _ => (.ok answer, log ++ [q])\n", "claims": ["C79"], "desc": "faults are swallowed", "ok": false, "fails": ["C79_ripemd160_refused", "Follows.ask", "example@430", "example@441", "followsAt_seed", "followsAt_try", "x_passphrase"], "files": {"Verif/Lemmas/External.lean": ["Follows.ask", "followsAt_try", "followsAt_seed", "x_passphrase"], "Verif/Props/External.lean": ["C79_ripemd160_refused", "example@430", "example@441"]}, "broken": ["C79_confirm", "C79_create", "C79_decrypt", "C79_encrypt", "C79_intermediate", "C79_ripemd160_refused", "C80_confirm", "C80_confirm_bad", "C80_create", "C80_create_bad", "C80_decrypt", "C80_encrypt", "C80_guess_confirm", "C80_guess_ec", "C80_guess_noEc", "C80_intermediate", "C80_intermediate_bad"], "hit": ["C79"], "direct": ["C79"], "rounds": 3, "note": ""}
{"i": 24, "file": "Model/External.lean", "definition": "BIP38.decryptNoEcX", "old": "  raiseIf (addressChecksum ≠ addressHash) .passphraseError \"Incorrect passphrase\"\n  let wif ← privateKeyToWifX P privateKey", "new": "  raiseIf (addressChecksum ≠ addressHash) .passphraseError \"Incorrect passphrase\"\n  let wif ← privateKeyToWif P (.bytes privateKey)", "claims": ["C79"], "desc": "the hashes of the WIF are not requests", "ok": false, "fails": ["follows_decryptNoEc"], "files": {"Verif/Lemmas/External.lean": ["follows_decryptNoEc"]}, "broken": ["C79_decrypt", "C80_decrypt", "C80_guess_noEc"], "hit": ["C79"], "direct": [], "rounds": 2, "note": ""}
{"i": 25, "file": "Model/External.lean", "definition": "ripemd160X", "old": "| some f => ask (.ripemd160 b) (f b)", "new": "| some _ => pure (Ripemd.ripemd160 b)", "claims": ["C79"], "desc": "the bundled implementation is used always", "ok": false, "fails": ["C79_ripemd160_refused", "example@430", "follows_hash160"], "files": {"Verif/Lemmas/External.lean": ["follows_hash160"], "Verif/Props/External.lean": ["C79_ripemd160_refused", "example@430"]}, "broken": ["C79_confirm", "C79_create", "C79_decrypt", "C79_encrypt", "C79_ripemd160_refused", "C80_confirm", "C80_create", "C80_decrypt", "C80_encrypt", "C80_guess_confirm", "C80_guess_ec", "C80_guess_noEc"], "hit": ["C79"], "direct": ["C79"], "rounds": 3, "note": ""}
{"i": 26, "file": "Model/External.lean", "definition": "BIP38.createX", "old": "  let flag ← newFlag magic publicKeyType\n  let factorB ← doubleSha256X P seedB\n", "new": "  let factorB ← doubleSha256X P seedB\n  let flag ← newFlag magic publicKeyType\n", "claims": ["C79"], "desc": "hashes of the seed before the magic is checked", "ok": false, "fails": ["C80_create_bad", "followsAt_create"], "files": {"Verif/Lemmas/External.lean": ["followsAt_create"], "Verif/Props/External.lean": ["C80_create_bad"]}, "broken": ["C79_create", "C80_create", "C80_create_bad"], "hit": ["C79"], "direct": [], "rounds": 3, "note": ""}
{"i": 27, "file": "Model/External.lean", "definition": "lotFactorX", "old": "  let preFactor ← scryptPassphraseX P passphrase (ownerSalt.take 4) 32\n  let lotSequence ← integerToBytes (lot * 4096 + sequence) (some 4)\n", "new": "  let lotSequence ← integerToBytes (lot * 4096 + sequence) (some 4)\n  let preFactor ← scryptPassphraseX P passphrase (ownerSalt.take 4) 32\n", "claims": ["C79"], "desc": "no visible change for valid lots (expected equivalent)", "ok": false, "fails": ["follows_lotFactor"], "files": {"Verif/Lemmas/External.lean": ["follows_lotFactor"]}, "broken": ["C79_intermediate", "C80_intermediate"], "hit": ["C79"], "direct": [], "rounds": 2, "note": ""}
{"i": 28, "file": "Model/External.lean", "definition": "intermediateCodeX", "old": "  let ownerSalt ← bytesOrRandomX ownerSalt urandom8 8\n", "new": "  let ownerSalt ← bytesOrRandomX ownerSalt urandom8 8\n  let _ ← scryptPassphraseX P passphrase ownerSalt 32\n", "claims": ["C80"], "desc": "passphrase stretched before the checks", "ok": false, "fails": ["C80_intermediate_bad", "follows_intermediate"], "files": {"Verif/Lemmas/External.lean": ["follows_intermediate"], "Verif/Props/External.lean": ["C80_intermediate_bad"]}, "broken": ["C79_intermediate", "C80_intermediate", "C80_intermediate_bad"], "hit": ["C80"], "direct": ["C80"], "rounds": 3, "note": ""}
