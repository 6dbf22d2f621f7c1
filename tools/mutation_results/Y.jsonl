{"i": 0, "file": "secp256k1/private_key.py", "old": "\"Invalid private key bytes\"", "new": "\"Invalid public key bytes\"", "desc": "the message of a malformed private key is that of a public key", "claims": ["C98"], "nth": 0, "status": "killed", "fails": ["st_PrivateKey_from_bytes_L44"]}
{"i": 1, "file": "secp256k1/public_key.py", "old": "raise Secp256k1Error(\"Invalid public key point\") from ex", "new": "raise ex", "desc": "from_point passes the exception of ecdsa on", "claims": ["C98"], "nth": 0, "status": "untranslatable", "note": "gen_src: use of the exception at line 77: ExceptHandler(type=Attribute(value=Name(id='keys', ctx=Load()), attr='MalformedPointError', ctx=Load()), name='ex', body=[Raise(exc=Name(id='ex', ctx=Load()))])\n"}
{"i": 2, "file": "secp256k1/public_key.py", "old": "except keys.MalformedPointError as ex:\n            raise Secp256k1Error(\"Invalid public key bytes\") from ex", "new": "except ValueError as ex:\n            raise Secp256k1Error(\"Invalid public key bytes\") from ex", "desc": "from_bytes reports every ValueError as a bad key", "claims": ["C98"], "nth": 0, "status": "killed", "fails": ["sim_PublicKey_from_bytes"]}
{"i": 3, "file": "secp256k1/point.py", "old": "except keys.MalformedPointError as ex:\n            raise Secp256k1Error(\"Invalid point key bytes\") from ex\n        except AttributeError", "new": "except AttributeError", "desc": "Point.from_bytes lost its handler", "claims": ["C98"], "nth": 0, "status": "killed", "fails": ["st_Point_from_bytes_L46", "st_Point_raw_decoded", "st_Point_raw_encoded"]}
{"i": 4, "file": "bip38.py", "old": "except ValueError:\n            raise PassphraseError(\"Invalid intermediate passphrase\")", "new": "except ValueError:\n            intermediate_decode = decode(intermediate_passphrase)", "desc": "create goes on with the unchecked text when the checksum fails", "claims": ["C98"], "nth": 0, "status": "killed", "fails": ["C99_text_create", "st_BIP38_create_new_encrypted_wif_L264"]}
{"i": 5, "file": "bip38.py", "old": "except ValueError:\n            raise Error(\"Invalid confirmation code\")", "new": "except Secp256k1Error:\n            raise Error(\"Invalid confirmation code\")", "desc": "confirm_code catches the wrong class", "claims": ["C98"], "nth": 0, "status": "killed", "fails": ["st_BIP38_confirm_code_L391"]}
{"i": 6, "file": "bip38.py", "old": "except Secp256k1Error:\n            raise PassphraseError(\"Incorrect passphrase\")", "new": "except Secp256k1Error:\n            return None", "desc": "confirm_code returns None for a bad point", "claims": ["C98"], "nth": 0, "status": "killed", "fails": ["C99_text_confirm", "st_BIP38_confirm_code_L440"]}
{"i": 7, "file": "bip38.py", "old": "except Secp256k1Error:\n            raise PassphraseError(\"Incorrect passphrase\")", "new": "except ValueError:\n            raise PassphraseError(\"Incorrect passphrase\")", "desc": "confirm_code reports every ValueError as a wrong passphrase", "claims": ["C98"], "nth": 0, "status": "killed", "fails": ["sim_BIP38_confirm_code"]}
{"i": 8, "file": "bip38.py", "old": "raise Error(\"Invalid confirmation code\")", "new": "raise PassphraseError(\"Incorrect passphrase\")", "desc": "confirm_code calls an invalid code a wrong passphrase", "claims": ["C98"], "nth": 0, "status": "killed", "fails": ["st_BIP38_confirm_code_L391"]}
{"i": 9, "file": "bip38.py", "old": "            public_key: PublicKey = PrivateKey.from_bytes(private_key).public_key()\n            address: str", "new": "            try:\n                public_key: PublicKey = PrivateKey.from_bytes(private_key).public_key()\n            except Secp256k1Error:\n                raise PassphraseError(\"Incorrect passphrase\")\n            address: str", "desc": "decrypt reports a refused key as a wrong passphrase", "claims": ["C98"], "nth": 0, "status": "killed", "fails": ["sim_BIP38_decrypt"]}
{"i": 10, "file": "crypto.py", "old": "    return hashlib.sha256(get_bytes(data)).digest()", "new": "    try:\n        return hashlib.sha256(get_bytes(data)).digest()\n    except ValueError:\n        return b\"0\"", "desc": "a refused hash gives a constant", "claims": ["C98"], "nth": 0, "status": "killed", "fails": ["sim_crypto_sha256"]}
{"i": 11, "file": "bip38.py", "old": "address_hash: bytes = get_checksum(get_bytes(address, unhexlify=False))\n        key", "new": "address_hash: bytes = get_checksum(get_bytes(address, unhexlify=False)) if passphrase else bytes([0, 0, 0, 0])\n        key", "desc": "encrypt does not hash the address for an empty passphrase", "claims": ["C99"], "nth": 0, "status": "killed", "fails": ["C99_text_encrypt"]}
{"i": 12, "file": "bip38.py", "old": "        key: bytes = scrypt.hash(unicodedata.normalize(\"NFC\", passphrase), address_hash, 16384, 8, 8)", "new": "        key: bytes = scrypt.hash(unicodedata.normalize(\"NFC\", passphrase), address_hash, 16384, 8, 4)", "desc": "encrypt uses other scrypt parameters", "claims": ["C99"], "nth": 0, "status": "killed", "fails": ["C99_text_encrypt"]}
{"i": 13, "file": "bip38.py", "old": "        key: bytes = scrypt.hash(unicodedata.normalize(\"NFC\", passphrase), address_hash, 16384, 8, 8)", "new": "        key: bytes = scrypt.hash(passphrase, address_hash, 16384, 8, 8)", "desc": "encrypt does not normalise", "claims": ["C99"], "nth": 0, "status": "killed", "fails": ["C99_text_encrypt"]}
