{"i": 0, "file": "bip38.py", "old": "scrypt.hash(unicodedata.normalize(\"NFC\", passphrase), address_hash, 16384, 8, 8)", "new": "scrypt.hash(unicodedata.normalize(\"NFC\", passphrase), address_hash, 1024, 8, 8)", "desc": "encrypt stretches the passphrase with N = 1024", "claims": ["C94", "C95"], "nth": 0, "status": "killed", "fails": ["C94_bip38"]}
{"i": 1, "file": "bip38.py", "old": "passphrase), address_hash, 16384, 8, 8\n", "new": "passphrase), address_hash, 1024, 8, 8\n", "desc": "decrypt (no EC) stretches the passphrase with N = 1024", "claims": ["C94", "C95"], "nth": 0, "status": "killed", "fails": ["C94_bip38"]}
{"i": 2, "file": "bip38.py", "old": "scrypt.hash(unicodedata.normalize(\"NFC\", passphrase), address_hash, 16384, 8, 8)", "new": "scrypt.hash(unicodedata.normalize(\"NFKC\", passphrase), address_hash, 16384, 8, 8)", "desc": "encrypt normalises with NFKC", "claims": ["C94"], "nth": 0, "status": "killed", "fails": ["sim_BIP38_encrypt"]}
{"i": 3, "file": "bip38.py", "old": "os.urandom(8)", "new": "os.urandom(4)", "desc": "intermediate_code asks for four random bytes", "claims": ["C94"], "nth": 0, "status": "killed", "fails": [":", "C94_bip38"]}
{"i": 4, "file": "bip38.py", "old": "os.urandom(24)", "new": "os.urandom(16)", "desc": "create_new_encrypted_wif asks for sixteen random bytes", "claims": ["C94"], "nth": 0, "status": "killed", "fails": ["C94_bip38"]}
{"i": 5, "file": "bip38.py", "old": "scrypt.hash(unicodedata.normalize(\"NFC\", passphrase), address_hash, 16384, 8, 8)", "new": "scrypt.hash(unicodedata.normalize(\"NFC\", passphrase), address_hash, 16384, 8, 8) if passphrase else bytes([0])", "desc": "encrypt does not stretch an empty passphrase", "claims": ["C95"], "nth": 0, "status": "killed", "fails": ["C95_bip38"]}
{"i": 6, "file": "bip38.py", "old": "scrypt.hash(unicodedata.normalize(\"NFC\", passphrase), address_hash, 16384, 8, 8)", "new": "scrypt.hash(unicodedata.normalize(\"NFC\", unicodedata.normalize(\"NFC\", passphrase)), address_hash, 16384, 8, 8)", "desc": "encrypt normalises twice", "claims": ["C93", "C95"], "nth": 0, "status": "killed", "fails": ["C93_bip38"]}
{"i": 7, "file": "bip38.py", "old": "        encrypted_wif_decode: bytes = decode(encrypted_wif)\n", "new": "        if passphrase == \"\":\n            return encrypted_wif\n        encrypted_wif_decode: bytes = decode(encrypted_wif)\n", "desc": "decrypt returns early for an empty passphrase", "claims": ["C95"], "nth": 0, "status": "killed", "fails": ["C95_bip38"]}
{"i": 8, "file": "bip38.py", "old": "        key: bytes = scrypt.hash(unicodedata.normalize(\"NFC\", passphrase), address_hash, 16384, 8, 8)\n        derived_half_1", "new": "        try:\n            key: bytes = scrypt.hash(unicodedata.normalize(\"NFC\", passphrase), address_hash, 16384, 8, 8)\n        except ValueError:\n            key: bytes = scrypt.hash(unicodedata.normalize(\"NFC\", passphrase), address_hash, 1024, 8, 8)\n        derived_half_1", "desc": "encrypt falls back to a weaker scrypt when scrypt raises", "claims": ["C92", "C94", "C95"], "nth": 0, "status": "gen_sim", "note": "ceback (most recent call last):\n  File \"/verif/tools/gen_sim.py\", line 601, in <module>\n    bt_,hs_=re.match(r'\\s*sTry \\[.*?\\] (\\[.*?\\]) (\\[.*\\]) env',txt).groups()\n            ^^^^^^^^^^^^^^^^^^^^^^^^^^^^^^^^^^^^^^^^^^^^^^^^^^^^^^^^^^^^^^\nAttributeError: 'NoneType' object has no attribute 'groups'\n"}
{"i": 9, "file": "crypto.py", "old": "return double_sha256(data)[:CHECKSUM_BYTE_LENGTH]", "new": "return sha256(data)[:CHECKSUM_BYTE_LENGTH]", "desc": "checksum of a single SHA-256", "claims": ["C95"], "nth": 0, "status": "killed", "fails": ["C93_bip38", "C93_crypto", "C93_wif"]}
{"i": 10, "file": "crypto.py", "old": "return sha256(sha256(data))", "new": "return sha256(sha256(sha256(data)))", "desc": "three rounds of SHA-256", "claims": ["C93", "C95"], "nth": 0, "status": "killed", "fails": ["C93_bip38", "C93_crypto", "C93_wif"]}
{"i": 11, "file": "crypto.py", "old": "hashlib.new(\"ripemd160\", get_bytes(data))", "new": "hashlib.new(\"sha1\", get_bytes(data))", "desc": "another hash in place of RIPEMD-160", "claims": ["C94"], "nth": 0, "status": "killed", "fails": ["sim_crypto_ripemd160"]}
{"i": 12, "file": "bip38.py", "old": "        except Secp256k1Error:", "new": "        except ValueError:", "desc": "confirm_code catches another class of exceptions", "claims": ["C92"], "nth": 0, "status": "killed", "fails": ["sim_BIP38_confirm_code"]}
{"i": 13, "file": "bip38.py", "old": "            pass_factor: bytes = scrypt.hash(unicodedata.normalize(\"NFC\", passphrase), owner_salt, 16384, 8, 8, 32)", "new": "            pass_factor: bytes = scrypt.hash(passphrase, owner_salt, 16384, 8, 8, 32)", "desc": "the passphrase is not normalised", "claims": ["C95"], "nth": 1, "status": "killed", "fails": ["C95_bip38"]}
{"i": 14, "file": "bip38.py", "old": "bytes_to_integer(aes.decrypt(encrypted_half_2)) ^", "new": "bytes_to_integer(encrypted_half_2) ^", "desc": "decrypt (EC) leaves out one AES decryption", "claims": ["C95"], "nth": 0, "status": "killed", "fails": ["C95_bip38"]}
{"i": 15, "file": "bip38.py", "old": "scrypt.hash(pass_point, salt, 1024, 1, 1, 64)", "new": "scrypt.hash(pass_point, salt, 1, 1, 1, 64)", "desc": "create_new_encrypted_wif with N = 1", "claims": ["C94", "C95"], "nth": 0, "status": "killed", "fails": ["C94_bip38"]}
{"i": 16, "file": "bip38.py", "old": "scrypt.hash(pre_public_key.raw_compressed(), salt, 1024, 1, 1, 64)", "new": "scrypt.hash(pre_public_key.raw_compressed(), salt, 16384, 8, 8, 64)", "desc": "decrypt (EC) with other parameters for the point", "claims": ["C94"], "nth": 0, "status": "killed", "fails": ["C94_bip38"]}
{"i": 17, "file": "secp256k1/private_key.py", "old": "        except keys.MalformedPointError as ex:", "new": "        except ValueError as ex:", "desc": "PrivateKey.from_bytes turns every ValueError into its own error", "claims": ["C92"], "nth": 0, "status": "killed", "fails": ["sim_PrivateKey_from_bytes"]}
