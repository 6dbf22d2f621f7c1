#!/usr/bin/env python3
"""Writes /verif/properties.jsonl (the list is maintained here)."""
import json, os
P = []
def p(title, statement, quantifier, why, anchors):
    P.append(dict(id="C%02d" % (len(P) + 1), title=title, statement=statement,
                  quantifier=quantifier, why_tests_cant=why, anchors=anchors))

B58 = "bip38/libs/base58.py"
BIP = "bip38/bip38.py:BIP38"
p("Base58 decode inverts encode",
  "For every byte string b (any length, any number of leading zero bytes, empty included) decode(encode(b)) returns exactly b, with the Bitcoin alphabet and with any other alphabet of distinct ASCII characters such as Ripple's.",
  "all byte strings; all alphabets of at least two distinct ASCII characters",
  "Unbounded input length; leading-zero handling and carry behaviour cannot be exhausted by samples.",
  [B58 + ":encode", B58 + ":decode"])
p("Base58 encode inverts decode on well-formed text",
  "For every string s made only of alphabet characters, encode(decode(s)) returns s, so two different well-formed strings never decode to the same bytes.",
  "all strings over the alphabet, any length",
  "Injectivity over an infinite set of strings.",
  [B58 + ":encode", B58 + ":decode"])
p("Base58Check round trip and soundness",
  "check_decode(check_encode(b)) returns b for every byte string b; and whenever check_decode(s) returns raw, decode(s) is exactly raw followed by the first four bytes of SHA256(SHA256(raw)); otherwise ValueError is raised.",
  "all byte strings b; all ASCII strings s",
  "Quantifies over all payloads and all corrupted texts.",
  [B58 + ":check_encode", B58 + ":check_decode"])
p("Base58 decode and characters outside the alphabet",
  "decode raises UnicodeEncodeError (a ValueError) exactly for non-ASCII text; every ASCII text is accepted, and a character outside the alphabet acts as a digit of value -1, so that it never causes an error. Finding: the claim users expect, that decode never returns a value for a text with a foreign character, is false of the code; its negation and a collision of such a text with a well-formed one are proved.",
  "all strings with at least one foreign character",
  "Needs a statement about every malformed string; a test shows one of them at most.",
  [B58 + ":decode"])
p("Integer/bytes conversion is lossless",
  "For every integer n >= 0, bytes_to_integer(integer_to_bytes(n)) = n and the result is the shortest big-endian encoding (one zero byte for 0); with an explicit byte count k the result has exactly k bytes and reads back as n, or OverflowError is raised exactly when n does not fit; the same holds for little-endian and for signed=True within the signed range.",
  "all integers, all byte counts, both endiannesses, signed and unsigned",
  "Unbounded integers.",
  ["bip38/utils.py:integer_to_bytes", "bip38/utils.py:bytes_to_integer"])
p("Hex text round trip",
  "get_bytes(bytes_to_string(b)) = b for every byte string b; bytes_to_string(b) is lower-case hex of twice the length; get_bytes of a string returns bytes exactly for hex text with optional ASCII white space between bytes and raises ValueError otherwise.",
  "all byte strings; all strings",
  "Infinite domain, including odd lengths and white space.",
  ["bip38/utils.py:get_bytes", "bip38/utils.py:bytes_to_string"])
p("WIF round trip",
  "For every 32-byte private key, every coin, every network of that coin and both WIF types, wif_to_private_key(private_key_to_wif(key)) returns the hex of key, get_wif_type returns the type asked for, and get_wif_checksum returns the hex of the double-SHA256 checksum.",
  "all 32-byte keys; all WIF prefixes (hence every coin/network in the table); both types",
  "2^256 keys.",
  ["bip38/wif.py:encode_wif", "bip38/wif.py:decode_wif", "bip38/wif.py:private_key_to_wif", "bip38/wif.py:wif_to_private_key", "bip38/wif.py:get_wif_type", "bip38/wif.py:get_wif_checksum"])
p("WIF of one network is refused on a network with another prefix",
  "For every key and every two networks with different WIF prefixes, neither of which is the other with one byte appended, decoding the WIF of the first under the second raises WIFError; this covers all pairs of networks of the library, whose prefixes are single bytes. private_key_to_wif is injective in (key, type) on one network. Finding, for classes a user adds: if one prefix is the other with a byte appended, every uncompressed WIF of the longer prefix is read under the shorter one, as a compressed WIF of another key.",
  "all keys; all pairs of networks of any coin classes, with prefixes of any size",
  "All keys times all pairs of networks.",
  ["bip38/wif.py:decode_wif", "bip38/cryptocurrencies.py"])
p("The checksum of a WIF is not verified",
  "decode_wif (hence wif_to_private_key, get_wif_type and encrypt) accepts a text exactly when its Base58 payload is the network prefix, 32 or 33 key bytes and any 4 bytes. Finding: the claim users expect, that a WIF with a wrong checksum is rejected, is false of the code; for every key and every wrong checksum the corrupted WIF is accepted and yields the key.",
  "all keys, all 4-byte checksum fields",
  "Statement over every corrupted WIF.",
  ["bip38/wif.py:decode_wif", BIP + ".encrypt"])
p("The compression marker of a WIF is not verified",
  "A WIF payload with 33 key bytes is read as a compressed key, the 33rd byte being dropped whatever its value. Finding: the claim users expect, that the last byte must be 0x01, is false of the code; the violation is proved for every key and every marker byte.",
  "all keys, all marker bytes",
  "Statement over every marker byte and key.",
  ["bip38/wif.py:decode_wif"])
p("Recognisable text shape of every produced code",
  "Every string returned by encrypt has 58 characters and starts with 6PR (uncompressed) or 6PY (compressed); every encrypted_wif from create_new_encrypted_wif has 58 characters and starts with 6Pf, 6Pg, 6Pn or 6Po according to (compression, lot/sequence); every confirmation code has 75 characters and starts with cfrm38V; every intermediate code built with an 8-byte owner entropy has 72 characters and starts with passphrase; mainnet Bitcoin WIFs have 51 characters starting with 5, or 52 starting with K or L.",
  "all keys, passphrases, salts, seeds, coins, networks for which the call returns",
  "Range argument over 2^300 payloads.",
  [BIP + ".encrypt", BIP + ".create_new_encrypted_wif", BIP + ".intermediate_code", "bip38/wif.py:encode_wif"])
p("P2PKH address round trip",
  "P2PKHAddress.decode(P2PKHAddress.encode(pk, prefix, type, alphabet), prefix, alphabet) returns the hex HASH160 of the selected serialisation of pk, for every public key, every address prefix (one or two bytes or longer) and every alphabet of distinct ASCII characters.",
  "all public keys, prefixes, types, alphabets",
  "All keys and prefixes.",
  ["bip38/p2pkh_address.py:P2PKHAddress.encode", "bip38/p2pkh_address.py:P2PKHAddress.decode"])
p("P2PKH address decode is sound",
  "P2PKHAddress.decode returns a hash only for a text whose Base58 payload is prefix + 20-byte hash + matching checksum, and returns that hash; a bad checksum raises ValueError, a wrong length or prefix raises AddressError.",
  "all strings, all prefixes",
  "All strings.",
  ["bip38/p2pkh_address.py:P2PKHAddress.decode"])
p("Private keys: exactly the scalars 1..N-1 in 32 bytes are accepted",
  "PrivateKey.from_bytes(b) succeeds if and only if b has 32 bytes and 1 <= int(b) < N; raw() then returns b; otherwise Secp256k1Error is raised.",
  "all byte strings",
  "All byte strings of every length.",
  ["bip38/secp256k1/private_key.py:PrivateKey"])
p("Public key serialisations round trip",
  "For every point on secp256k1, PublicKey.from_bytes accepts its compressed (33-byte) and uncompressed (65-byte) serialisation and gives back the same key; from_bytes never accepts bytes that do not denote a point of the curve and then raises Secp256k1Error.",
  "all curve points; all byte strings",
  "Square roots and parity for ~2^256 points.",
  ["bip38/secp256k1/public_key.py:PublicKey", "bip38/secp256k1/point.py:Point"])
p("Scalar multiplication laws used by EC-multiply",
  "For all scalars a, b: multiplying the public key of a by b gives the public key of a*b mod N; N times the generator is the point at infinity, N is prime, and distinct private keys have distinct public keys.",
  "all pairs of scalars",
  "Group theory over 2^256 elements.",
  ["bip38/secp256k1/point.py:Point.__mul__", "bip38/const.py:N", "bip38/secp256k1/private_key.py:PrivateKey.public_key"])
p("When decrypt inverts encrypt (no EC multiply)",
  "For every valid WIF, coin, network and passphrase for which encrypt returns e, decrypt(e) with the same passphrase and network returns that WIF if and only if the private key does not start with a zero byte; for every key below 2^248 decrypt raises Secp256k1Error. Finding: the unconditional round trip users expect is false of the code (negation proved).",
  "all keys, WIF types, coins, networks, passphrases",
  "Fails for 1/256 of the keys: a sample of test vectors never shows it and never shows that the rest works.",
  [BIP + ".encrypt", BIP + ".decrypt", "bip38/utils.py:integer_to_bytes"])
p("When encrypt returns a value",
  "For a WIF of the selected network holding a valid private key, encrypt returns a value if and only if neither of the two 16-byte halves of the key masked with the derived bytes starts with a zero byte; otherwise it raises ValueError. Finding: the claim users expect, that encrypt succeeds for every valid WIF and passphrase, is false of the code (negation proved).",
  "all keys, passphrases, networks",
  "Failure depends on a key-derivation output; happens for about 1 in 128 inputs.",
  [BIP + ".encrypt", "bip38/utils.py:integer_to_bytes"])
p("encrypt writes the BIP38 record of the key",
  "When encrypt returns, the Base58 payload is 0x0142, the flag (0xc0 uncompressed, 0xe0 compressed), the 4-byte hash of the address of that key on that network, two AES blocks which decrypt, under scrypt(NFC passphrase, hash, 16384, 8, 8), to the key masked with the first half, and a correct checksum.",
  "all keys, passphrases, networks",
  "Format statement over all inputs.",
  [BIP + ".encrypt"])
p("decrypt never returns a key that does not match the record",
  "Whenever decrypt returns, the returned WIF is the WIF, on the selected network and with the compression announced by the flag, of a private key in 1..N-1 whose P2PKH address hashes to the 4-byte address hash in the encrypted WIF; a passphrase that does not produce such a key never gets a result.",
  "all texts, passphrases, coins, networks",
  "Soundness over all inputs including forged ones.",
  [BIP + ".decrypt"])
p("decrypt details are mutually consistent",
  "With detail=True the returned wif, private_key, wif_type, public_key, public_key_type and address all describe one key: wif decodes to private_key and wif_type, public_key is the serialisation of private_key times the generator of public_key_type, address is its P2PKH address on the network; with detail=False the same call returns exactly the wif field.",
  "all inputs for which decrypt returns",
  "All inputs.",
  [BIP + ".decrypt"])
p("The checksum of an encrypted WIF is not verified",
  "The outcome of decrypt never depends on the last four bytes of the 43-byte payload. Finding: the claim users and the BIP expect, that a corrupted checksum is rejected, is false of the code (negation proved).",
  "all 43-byte payloads and all replacements of the last four bytes",
  "Statement over every corruption.",
  [BIP + ".decrypt"])
p("decrypt refuses malformed records before using the passphrase",
  "On a known network, a text whose payload is not 43 bytes raises WIFError, a prefix other than 0x0142/0x0143 raises Error, a 0x0142 record with a flag other than 0xc0/0xe0 raises Error - whatever the passphrase; non-ASCII text raises ValueError.",
  "all texts, all passphrases",
  "All malformed texts.",
  [BIP + ".decrypt"])
p("Network selection",
  "In encrypt, decrypt, confirm_code and create_new_encrypted_wif an unknown network raises NetworkError whatever the other arguments; None and the empty string select the network given to the constructor; the constructor raises NetworkError exactly for networks the coin does not have, and CryptocurrencyError for a class that is not a cryptocurrency.",
  "all arguments of all four methods",
  "All arguments: error priority.",
  [BIP + ".__init__", BIP + ".encrypt", BIP + ".decrypt", BIP + ".confirm_code", BIP + ".create_new_encrypted_wif"])
p("Only the NFC form of a passphrase matters",
  "Two passphrases with the same Unicode NFC normal form give identical results in intermediate_code, encrypt, confirm_code and decrypt.",
  "all pairs of passphrases, all other arguments",
  "All pairs of strings.",
  [BIP])
p("intermediate_code input validation",
  "The exact set of accepted (owner salt, lot, sequence) is proved, for all integers, present or absent: outside it intermediate_code raises Error, inside it only the pass factor can be refused. When neither number is 0 the set is the documented one: salt of 4 or 8 bytes, 4 bytes only with lot and sequence, both or none of lot and sequence, 100000 <= lot <= 999999, 0 <= sequence <= 4095. Finding: the documented rule is false for the value 0: lot=0 or sequence=0 counts as absent (negation proved).",
  "all integers for lot and sequence, present or absent, all owner salts",
  "Unbounded integers and all combinations.",
  [BIP + ".intermediate_code"])
p("lot 0 and sequence 0 are silently dropped",
  "For every lot, intermediate_code(lot, sequence=0) returns exactly what it returns without lot and sequence for an 8-byte salt, and for a 4-byte salt a code that create_new_encrypted_wif always refuses; likewise lot=0. Finding: the documented range 0..4095 of the sequence suggests the opposite.",
  "all lots, salts, passphrases",
  "Statement over all lots and all uses of the produced code.",
  [BIP + ".intermediate_code", BIP + ".create_new_encrypted_wif"])
p("Intermediate code layout",
  "When intermediate_code returns, check_decode of the result is the 8-byte magic (…51 with lot/sequence, …53 without), the owner entropy (salt, or 4 salt bytes followed by lot*4096+sequence big-endian) and the compressed public key of the pass factor computed from the passphrase.",
  "all inputs for which it returns",
  "All inputs.",
  [BIP + ".intermediate_code"])
p("When decrypt inverts create_new_encrypted_wif",
  "For every intermediate code made from a passphrase and every seed for which create_new_encrypted_wif returns, there is one private key with the announced public key and address; decrypt of the encrypted WIF with that passphrase returns it, with the announced seed, whenever the seed and key are recoverable, and otherwise never reports that seed; for a 24-byte seed recoverable means: byte 8 of the first encrypted block, the first byte of the seed and the first byte of the private key are not 0. Finding: the unconditional claim users expect is false of the code (negation proved).",
  "all passphrases, salts, lots, sequences, seeds, WIF types, networks",
  "Fails for about 1% of random seeds; the rest needs algebra over all keys.",
  [BIP + ".create_new_encrypted_wif", BIP + ".decrypt", BIP + ".intermediate_code"])
p("When confirm_code confirms what create_new_encrypted_wif produced",
  "For every intermediate code made from a passphrase and every seed, confirm_code of the confirmation code with that passphrase returns the announced address and public key if and only if the bytes 0 and 16 of the x coordinate of the seed's point are not 0; otherwise it raises PassphraseError. Finding: the unconditional claim users expect is false of the code (negation proved).",
  "all passphrases, salts, lots, sequences, seeds, WIF types, networks",
  "Same as above.",
  [BIP + ".confirm_code", BIP + ".create_new_encrypted_wif"])
p("lot and sequence survive the trip",
  "If intermediate_code was given lot L and sequence S (non-zero), then decrypt and confirm_code with detail=True report lot=L and sequence=S for every key created from that code; without lot/sequence they report None. In general the reported pair satisfies 0 <= sequence < 4096 and is the only pair encoding the stored 4 bytes.",
  "all lots, sequences, seeds",
  "9*10^5 * 4095 combinations times all seeds.",
  [BIP + ".intermediate_code", BIP + ".decrypt", BIP + ".confirm_code"])
p("The seed length is not checked",
  "create_new_encrypted_wif accepts seeds of other lengths than 24 bytes; if a record is produced from a seed of more than 24 bytes, decrypt with the right passphrase never reports that seed. Finding: the claim users expect, that only 24-byte seeds are accepted, is false of the code: a 1-byte seed and a 25-byte seed are accepted (negations proved).",
  "all seeds of any length",
  "All seed lengths and contents.",
  [BIP + ".create_new_encrypted_wif", BIP + ".decrypt"])
p("create_new_encrypted_wif input validation",
  "An intermediate code with a wrong checksum or with non-ASCII text, or whose payload is not 49 bytes, raises PassphraseError; a WIF type other than wif / wif-compressed raises WIFError; an unknown magic raises Error; a pass point that is not on the curve raises Secp256k1Error; nothing else than these, ValueError (non-hex seed, short AES block) and TypeError (seed neither text nor bytes) is raised, and no record is produced.",
  "all arguments",
  "All arguments.",
  [BIP + ".create_new_encrypted_wif"])
p("Flag byte semantics",
  "For every flag byte, EC decryption and confirmation treat the key as compressed exactly when the flag is listed under compression and as carrying lot/sequence exactly when listed under lot_and_sequence; for the EC flags these are bits 0x20 and 0x04; the flags written by create_new_encrypted_wif and encrypt are read back as what was asked for; no illegal flag is ever written. Finding: flags in no table, the illegal ones included, are accepted on EC records and read as flag 0 (proved).",
  "all 256 flag bytes; all created records",
  "Connects writer and reader for all inputs.",
  ["bip38/const.py:FLAGS", BIP])
p("confirm_code is sound",
  "Whenever confirm_code returns, the returned address is the P2PKH address, on the selected network and with the compression announced by the flag, of a public key equal to passfactor times a curve point, and it hashes to the address hash stored in the code; malformed codes (checksum, length, prefix) raise Error.",
  "all texts, passphrases, networks",
  "Soundness over all inputs.",
  [BIP + ".confirm_code"])
p("Every class of the coin table is usable",
  "Every listed cryptocurrency has a mainnet, all its network names are distinct, every WIF prefix fits one byte and every address prefix two, so BIP38(coin) with the default network always constructs and the WIF theorems apply to all of them.",
  "all 155 coins and 180 networks of the table",
  "Finite, but covers the whole table and is used by the other theorems.",
  ["bip38/cryptocurrencies.py"])
p("A coin's own Base58 alphabet is not used",
  "The constructor stores the alphabet of the coin, but no result of encrypt, decrypt, confirm_code and create_new_encrypted_wif depends on it: every address reported for Ripple is written in the Bitcoin alphabet. Finding: the claim users expect, that addresses are written in the coin's alphabet, is false of the code (negation proved).",
  "all coins, all arguments",
  "Statement about all calls.",
  [BIP + ".__init__", "bip38/p2pkh_address.py:P2PKHAddress.encode"])
p("Pure-Python RIPEMD-160 equals the standard function",
  "The bundled RIPEMD-160 returns, for every byte string (below 2^61 bytes), the value of the standard 32-bit-word algorithm, although it computes with unbounded and negative integers; it always returns 20 bytes and never fails.",
  "all byte strings below 2^61 bytes",
  "All messages of all lengths, padding boundaries included.",
  ["bip38/libs/ripemd160.py:ripemd160", "bip38/libs/ripemd160.py:compress", "bip38/libs/ripemd160.py:rol", "bip38/libs/ripemd160.py:fi"])
p("Error text always carries the message",
  "str(e) of every bip38 exception starts with its message, shows the detail if one was given, and shows expected and got values exactly when an expected value was given; all library exceptions are caught by except Error. Bytes interpolated into a message are shown as Python repr shows them: the quote is \" exactly when the bytes contain ' and no \", each byte is shown as itself, as \\t \\n \\r \\\\ or the escaped quote, or as \\xhh, and every character of the result is printable ASCII.",
  "all messages, details, expected lists, got values, byte strings",
  "All strings.",
  ["bip38/exceptions.py:Error"])
p("A wrong passphrase cannot decrypt",
  "If decrypt or confirm_code returns a value for a passphrase, then the key derived from that passphrase re-creates the stored 4-byte address hash; hence with a passphrase for which no 32-bit hash coincidence occurs the call raises. Every failure of decrypt and confirm_code on a well-formed record is PassphraseError, Secp256k1Error, Error or ValueError.",
  "all passphrases, all records",
  "All passphrases.",
  [BIP + ".decrypt", BIP + ".confirm_code"])
p("Encrypted keys are bound to their network",
  "If decrypt of e = encrypt(w) on network n1 is called for network n2 whose address for the key has a different 4-byte hash, it raises PassphraseError (Secp256k1Error for a key whose first byte is 0, the finding of C17); it never returns.",
  "all keys, all pairs of networks",
  "All keys and pairs.",
  [BIP + ".encrypt", BIP + ".decrypt"])
p("Points built from bytes are not checked",
  "Point.from_bytes accepts any 64 bytes (and any 65 bytes starting with 04) as a point, on the curve or not; Point.from_coordinates accepts exactly the solutions of the curve equation modulo p; both serialisations of a point of the curve are read back as that point. Finding: the claim users expect, that from_bytes only returns points of the curve, is false (negation proved).",
  "all byte strings, all coordinates",
  "All coordinates.",
  ["bip38/secp256k1/point.py:Point.from_bytes", "bip38/secp256k1/point.py:Point.from_coordinates"])
p("Points form the secp256k1 group",
  "Addition of Point objects is commutative and associative, has infinity as neutral element and p * -1 as inverse; multiplication by any Python integer (negative and larger than the order included) satisfies p*0 = infinity, p*1 = p, p*(j+k) = p*j + p*k, p*(j*k) = (p*j)*k, (p+q)*k = p*k + q*k, equals repeated addition, and two multiples of a point other than infinity are equal exactly when the factors are congruent modulo the group order; the left and right versions of the operators agree.",
  "all points of the curve, all integers",
  "Group laws over about 2^256 points and all integers.",
  ["bip38/secp256k1/point.py:Point.__add__", "bip38/secp256k1/point.py:Point.__radd__", "bip38/secp256k1/point.py:Point.__mul__", "bip38/secp256k1/point.py:Point.__rmul__"])
p("Public keys and points correspond",
  "PublicKey.from_point returns a key exactly for the points of the curve with reduced coordinates, and the point of that key is the given one; infinity raises TypeError, a point off the curve AssertionError, unreduced coordinates Secp256k1Error; serialised keys have the lengths reported by the length functions.",
  "all points, all keys",
  "All coordinates.",
  ["bip38/secp256k1/public_key.py:PublicKey.from_point", "bip38/secp256k1/public_key.py:PublicKey.point", "bip38/secp256k1/point.py:Point.x", "bip38/secp256k1/point.py:Point.y"])
p("Fallback code for old ecdsa releases",
  "Where the ecdsa package has no point encodings, raw_encoded and raw_decoded return the same bytes as with a current release, and Point.from_bytes reads 64 bytes as the same point after checking that it is on the curve. Finding: the fallback of from_bytes never reads back a compressed point written by raw_encoded (negation proved).",
  "all points of the curve, all byte strings of 64 bytes",
  "All coordinates; the branch never runs in a test environment with a current ecdsa.",
  ["bip38/secp256k1/point.py:Point.from_bytes", "bip38/secp256k1/point.py:Point.raw_encoded", "bip38/secp256k1/point.py:Point.raw_decoded"])
p("Random bytes are used only where an argument is missing",
  "create_new_encrypted_wif without a seed behaves as if the 24 random bytes had been passed as seed, intermediate_code without a salt as if the 8 random bytes had been passed as salt; with a seed or salt the result does not depend on random bytes; hexadecimal text for either stands for its bytes.",
  "all arguments, all outcomes of os.urandom",
  "All random outcomes.",
  ["bip38/bip38.py:create_new_encrypted_wif", "bip38/bip38.py:intermediate_code"])
p("Byte counts chosen by integer_to_bytes",
  "Without a byte count (or with 0) integer_to_bytes uses the least number of bytes that holds a positive integer and one byte otherwise; a negative integer with signed=False raises OverflowError, a negative count ValueError. Finding: with signed=True and no count, every n with 128*256^j <= n < 256*256^j and every n < -128 raises OverflowError; all other integers round-trip (exact characterisation proved).",
  "all integers, counts, endiannesses",
  "Unbounded integers.",
  ["bip38/utils.py:integer_to_bytes", "bip38/utils.py:bytes_to_integer"])
p("Arguments given as bytes, text or nothing",
  "get_bytes returns bytes unchanged, no bytes for a missing or empty argument, the UTF-8 bytes of any text when unhexlify is off, and raises TypeError for other types; bytes_to_string returns hexadecimal text unchanged and the hexadecimal form of the UTF-8 bytes of any other text, and is idempotent; bytes_reverse is an involution.",
  "all byte strings, all texts",
  "Infinite domain.",
  ["bip38/utils.py:get_bytes", "bip38/utils.py:bytes_to_string", "bip38/utils.py:bytes_reverse"])
p("WIF functions on any prefix and any network name",
  "encode_wif and decode_wif with any natural number as prefix write it as its big-endian bytes and invert each other for both types; a negative prefix raises OverflowError; an unknown network raises KeyError in private_key_to_wif, wif_to_private_key, get_wif_type and get_wif_checksum; the three readers accept the same texts and raise the same errors; decode_wif raises only UnicodeEncodeError (exactly for text outside ASCII) and WIFError. private_key_to_wif: bytes or hexadecimal text of 32 bytes give a WIF, of any other length Secp256k1Error, other text ValueError, a missing argument or another type TypeError.",
  "all prefixes, 32-byte keys, texts, networks",
  "All prefixes, keys and texts.",
  ["bip38/wif.py:encode_wif", "bip38/wif.py:decode_wif", "bip38/wif.py:private_key_to_wif", "bip38/wif.py:wif_to_private_key", "bip38/wif.py:get_wif_type", "bip38/wif.py:get_wif_checksum"])
p("Hash functions of the API",
  "sha256, double_sha256, get_checksum, ripemd160 and hash160 return the hash of the bytes the argument stands for (bytes themselves, hexadecimal text its bytes, a missing or empty argument no bytes), with lengths 32, 32, 4, 20, 20; text that is not hexadecimal raises ValueError and other objects TypeError; whether hashlib offers RIPEMD-160 or not.",
  "all byte strings, texts and argument types",
  "Infinite domain.",
  ["bip38/utils.py:get_bytes", "bip38/crypto.py:sha256", "bip38/crypto.py:double_sha256", "bip38/crypto.py:get_checksum", "bip38/crypto.py:ripemd160", "bip38/crypto.py:hash160"])
p("An encrypted key determines the private key",
  "encrypt depends on the WIF text only through its private key and type; two calls of encrypt with one passphrase, on any networks, that return the same text were given the same private key and type.",
  "all pairs of WIF texts, all passphrases and networks",
  "All pairs of keys.",
  [BIP + ".encrypt"])
p("A created record determines its seed",
  "Two encrypted WIFs created from one intermediate code that are equal were created from the same 24-byte seed and for the same type.",
  "all intermediate codes, all pairs of 24-byte seeds and types, all networks",
  "All pairs of seeds.",
  [BIP + ".create_new_encrypted_wif"])
p("Encrypting a decrypted key reproduces the text",
  "If decrypt returns a WIF for a Base58Check text of a record without EC multiplication, encrypt of that WIF with the same passphrase and network returns the very same text, or raises ValueError (the finding of C18).",
  "all texts, passphrases, networks",
  "All texts and passphrases.",
  [BIP + ".decrypt", BIP + ".encrypt"])
p("An address determines prefix and key hash",
  "Two addresses are equal exactly when their prefixes (of any size) and the HASH160 of the serialised keys are equal; the serialisations of two public keys are equal exactly when the keys and the types are.",
  "all prefixes, public keys, types and alphabets",
  "All pairs of keys.",
  ["bip38/p2pkh_address.py:P2PKHAddress.encode", "bip38/secp256k1/public_key.py:PublicKey.raw_compressed", "bip38/secp256k1/public_key.py:PublicKey.raw_uncompressed"])
p("detail=True only adds information",
  "decrypt and confirm_code raise the same error with and without detail=True; otherwise the text returned without it is the wif (address) entry of the dictionary returned with it.",
  "all objects, texts, passphrases, networks (also unknown ones)",
  "All inputs, the failing ones included.",
  [BIP + ".decrypt", BIP + ".confirm_code"])
p("Networks act only through their prefixes",
  "encrypt and decrypt give the same result, errors included, for any two networks (of the same or different coins) with the same WIF and address prefixes; create_new_encrypted_wif and confirm_code already if the address prefixes are equal. In particular a Ripple object behaves as a Bitcoin object.",
  "all coins and networks, all arguments",
  "All pairs of networks times all arguments.",
  [BIP + ".encrypt", BIP + ".decrypt", BIP + ".create_new_encrypted_wif", BIP + ".confirm_code"])
p("Creating a decrypted EC record again reproduces it",
  "If decrypt reports a 24-byte seed for a Base58Check text of an EC record with a flag that create_new_encrypted_wif writes, then create_new_encrypted_wif with an intermediate code of the same passphrase and owner entropy, that seed and the reported type returns the very same text, address and public key, or raises ValueError (the finding of C33).",
  "all texts, passphrases, owner entropies, networks",
  "All records.",
  [BIP + ".decrypt", BIP + ".create_new_encrypted_wif", BIP + ".intermediate_code"])
p("Which networks of a coin can read each other's WIFs and addresses",
  "A WIF made for one network of a listed cryptocurrency is refused with WIFError on every other network of it, except for five pairs of networks that share the WIF prefix (Bitcoin testnet/regtest, and mainnet/testnet of Divi, Dogecoin, Ravencoin and Stratis), for which it is read as the same key; likewise for addresses with AddressError and two exceptions (Bitcoin testnet/regtest, Divi).",
  "all listed coins, all pairs of their networks, all 32-byte keys, both types",
  "All keys; the exceptions are exact.",
  ["bip38/cryptocurrencies.py", "bip38/wif.py:private_key_to_wif", "bip38/wif.py:wif_to_private_key", "bip38/p2pkh_address.py:P2PKHAddress.decode"])
p("Well-known first characters",
  "For every network of every listed cryptocurrency, addresses, WIFs and compressed WIFs have the length and the first character (one of at most ten) of a fixed table, as in 'Litecoin addresses start with L, Dash addresses with X, Zcash addresses have 35 characters and start with t'; addresses of the prefix 0 start with 1 and have 25 to 34 characters.",
  "all listed coins and networks, all public keys, all 32-byte private keys",
  "All keys and all hash values.",
  ["bip38/cryptocurrencies.py", "bip38/wif.py:private_key_to_wif", "bip38/p2pkh_address.py:P2PKHAddress.encode"])
p("Every outcome of encrypt",
  "On a known network encrypt raises UnicodeEncodeError for a text with a character outside ASCII, WIFError for a text that does not decode to network byte, 32 key bytes, optionally one more byte, and 4 bytes, Secp256k1Error if the 32 bytes are no private key, ValueError if byte 0 or 16 of the key equals the derived byte at that place (finding of C18), and returns a text in every other case.",
  "all texts, passphrases, coins, networks",
  "All texts; the classification is complete and its cases are disjoint.",
  [BIP + ".encrypt", "bip38/wif.py:decode_wif"])
p("Decrypting or confirming on another network",
  "If decrypt (confirm_code) returns on one network then on any other network of any coin, with the same passphrase, it either reports the same private key (public key), described for that network, when the address there has the stored hash, or raises PassphraseError.",
  "all texts and passphrases, all pairs of networks",
  "All pairs of networks times all records.",
  [BIP + ".decrypt", BIP + ".confirm_code"])
p("What an intermediate code determines",
  "Two calls of intermediate_code with the same result used lot and sequence numbers both or neither, the same ones, salts with the same first 4 bytes (the same salts without numbers), and passphrases with the same pass factor. With lot and sequence numbers only the first 4 bytes of the salt matter.",
  "all passphrases, salts, lot and sequence numbers",
  "All pairs of arguments.",
  [BIP + ".intermediate_code"])
p("A confirmation code confirms one key",
  "Two keys created from one intermediate code (on whatever networks) with equal confirmation codes have the same WIF type, the same double SHA-256 of their seeds, the same public key and the same address hash.",
  "all intermediate codes, seeds, types, networks",
  "All pairs of seeds.",
  [BIP + ".create_new_encrypted_wif", BIP + ".confirm_code"])
p("Encrypted keys and confirmation codes written by other BIP38 programs",
  "decrypt of the text the BIP38 standard prescribes for a private key, passphrase and network (every block kept at 16 bytes, 24-byte seeds) returns that key exactly if its first byte is not 0, and raises Secp256k1Error otherwise; with EC multiplication also the first byte of the seed and the byte 8 of the first encrypted block must not be 0, otherwise decrypt never reports that seed. confirm_code of the confirmation code of the standard returns the address exactly if the bytes 0 and 16 of the x coordinate of the seed point are not 0, and raises PassphraseError otherwise (finding).",
  "all private keys, seeds, entropies, passphrases, coins, networks",
  "All keys and seeds; one key in 256 is affected, one EC key in about 85.",
  [BIP + ".decrypt", BIP + ".confirm_code", "bip38/utils.py:integer_to_bytes"])
p("What create_new_encrypted_wif writes is the standard",
  "If create_new_encrypted_wif returns for an intermediate code made by intermediate_code and a 24-byte seed, then its encrypted key and its confirmation code are, byte for byte, the ones the BIP38 standard prescribes for that passphrase, entropy, seed, WIF type and network.",
  "all passphrases, salts, lot and sequence numbers, 24-byte seeds, types, coins, networks",
  "All inputs.",
  [BIP + ".intermediate_code", BIP + ".create_new_encrypted_wif"])
p("Every outcome of decrypt",
  "decrypt on a known network: UnicodeEncodeError for a character outside ASCII; WIFError 'Invalid encrypted WIF length' unless the text decodes to 43 bytes; Error 'Invalid prefix' unless they start with 0142 or 0143; Error 'Invalid flag' for an unknown flag after 0142; then, by what the passphrase gives, Error 'Invalid Non-EC encrypted WIF ...' / 'Invalid EC encrypted WIF ...' (numbers out of range), ValueError (unreadable second block), Secp256k1Error 'Invalid private key bytes' (key with a leading zero byte), PassphraseError 'Incorrect passphrase' (other address hash), or the result. The cases are complete and each has that exception and message.",
  "all texts, passphrases, coins, networks, both values of detail",
  "All texts times all passphrases.",
  [BIP + ".decrypt"])
p("Every outcome of confirm_code",
  "confirm_code on a known network: Error 'Invalid confirmation code' unless the text is Base58Check; Error '... length' unless the payload has 51 bytes; Error '... prefix' unless it starts with 643bf6a89a; then, by what the passphrase gives, Error 'Invalid EC encrypted WIF ...' (pass factor out of range), PassphraseError 'Incorrect passphrase' (no curve point, or another address hash), or the result.",
  "all texts, passphrases, coins, networks, both values of detail",
  "All texts times all passphrases.",
  [BIP + ".confirm_code"])
p("Every outcome of create_new_encrypted_wif",
  "create_new_encrypted_wif on a known network with a readable seed: PassphraseError 'Invalid intermediate passphrase' unless Base58Check, PassphraseError '... length' unless 49 bytes, WIFError 'Invalid wif type', Error 'Invalid magic', Error 'Invalid EC encrypted WIF ...' (double hash of the seed out of range), Secp256k1Error 'Invalid public key bytes' (no curve point); then, for a 24-byte seed, the records of the standard if four named byte pairs differ, and ValueError if one of them coincides (finding of C33).",
  "all texts, seeds, types, coins, networks",
  "All texts times all seeds.",
  [BIP + ".create_new_encrypted_wif"])
p("Every outcome of intermediate_code",
  "With a readable salt intermediate_code raises, in this order: Error 'Invalid owner salt length, (expected: '8', '16' | got: ...)' unless the salt has 4 or 8 bytes; Error '... for non lot/sequence' for a 4-byte salt without lot or sequence; Error 'Both lot & sequence are required got: (lot ...) & (sequence ...)' if only one is given (and not 0); Error 'Invalid lot' / 'Invalid sequence' with the documented ranges and the given number; Secp256k1Error if the pass factor is no private key; otherwise it returns the code. The cases are complete.",
  "all passphrases, salts, lots and sequences (all integers or absent)",
  "All integers; the order of the checks.",
  [BIP + ".intermediate_code", "bip38/exceptions.py:Error"])
p("Texts of errors hold no secrets",
  "The text of an exception of encrypt, decrypt, confirm_code, create_new_encrypted_wif or intermediate_code is one of a few fixed texts or is the same for every passphrase (every seed): it never contains the passphrase, the private key, the seed or anything computed from them. (encrypt: except for a WIF with a character outside ASCII, where Python's own UnicodeEncodeError shows that character.)",
  "all calls that raise",
  "All inputs and all ways to fail.",
  [BIP + ".encrypt", BIP + ".decrypt", BIP + ".confirm_code", BIP + ".create_new_encrypted_wif", BIP + ".intermediate_code"])
p("A private key survives every history",
  "Start with a WIF, or with an encrypted text that decrypts, and do any number of steps in any order: encrypt with any passphrase, decrypt (with its passphrase) on any network of any coin, rewrite the WIF for another network. Every WIF held at the end reads as the private key and the type of the beginning; two histories that end on the same network end with the same WIF (apart from the WIF one started with) and give the same encrypted texts. After any number of passphrase changes on one network the last text decrypts with the last passphrase to the first WIF.",
  "all histories of any length over all coins and networks, all passphrases",
  "Histories are unbounded sequences of calls with arbitrary arguments.",
  [BIP + ".encrypt", BIP + ".decrypt", "bip38/wif.py:wif_to_private_key", "bip38/wif.py:private_key_to_wif"])
p("Base58 helpers on arguments of any kind",
  "ensure_string returns text unchanged, returns for bytes the text whose UTF-8 form they are (ValueError if there is none, for instance overlong forms and surrogates) and raises ValueError for anything else. decode and check_decode raise TypeError for everything that is not text; encode and string_to_int raise TypeError for text, even empty, and for None.",
  "all texts, all byte strings, None and other objects",
  "All byte strings.",
  ["bip38/libs/base58.py:ensure_string", "bip38/libs/base58.py:string_to_int", "bip38/libs/base58.py:decode", "bip38/libs/base58.py:encode"])
p("Texts and passphrases of any kind",
  "On a network of the object a WIF, encrypted WIF or confirmation code that is no text (bytes, None, another object) raises TypeError in encrypt, decrypt, confirm_code; so does an intermediate passphrase that is no text (unless the seed is unreadable: then the seed's own error), and decode_wif and P2PKHAddress.decode do the same. A passphrase that is no text is never accepted: TypeError wherever the passphrase is used, i.e. for a WIF of a private key, an encrypted key of known form, a code with right checksum, length and prefix, a valid salt/lot/sequence; for all other arguments the outcome is exactly the error every text passphrase gives. In particular a missing passphrase is never taken for the empty one, nor bytes for text.",
  "all texts, byte strings, None and other objects in every argument position, all networks of all coins",
  "All combinations of argument kinds and contents.",
  [BIP + ".encrypt", BIP + ".decrypt", BIP + ".confirm_code", BIP + ".create_new_encrypted_wif", BIP + ".intermediate_code", "bip38/wif.py:decode_wif", "bip38/p2pkh_address.py:P2PKHAddress.decode"])
p("Lot and sequence numbers of any kind",
  "intermediate_code converts lot and sequence with int(). Both given and both true in the sense of bool(): an exception of the conversion is passed on (the lot is converted first), then the ranges are checked on the converted numbers, and the code holds exactly these numbers, sequence 0 included. If one is false (0, empty text) both are ignored; if one is None, a true other one raises Error showing it as given, a false one is ignored. Texts of non-zero numbers are interchangeable with the numbers. Finding: sequence='0' is used while sequence=0 is dropped, and the two calls never return the same code.",
  "all objects with a truth value, an int() conversion (or failure) and a text, in both positions; all passphrases and salts",
  "All argument kinds, all conversions.",
  [BIP + ".intermediate_code"])
p("Objects in a program that changes classes and objects",
  "A BIP38 object answers every call the same way, whatever calls, constructions, assignments to other objects and changes of other classes come in between; an object constructed in a program behaves as BIP38(coin, network) described elsewhere. If its class is changed after construction: names known at construction and now work with the present prefixes, as on an object constructed now; names added later are refused with NetworkError; on names removed no call returns (encrypt raises KeyError at once, the others where they would return). Setting obj.network makes later calls without network argument answer as an object for that network (NetworkError if it is unknown) and changes no other call; obj.networks only serves to refuse names.",
  "all programs (sequences of actions of any length) over any number of classes and objects, all calls",
  "Histories are unbounded and interleave objects and classes arbitrarily.",
  [BIP + ".__init__", BIP + ".encrypt", BIP + ".decrypt", BIP + ".confirm_code", BIP + ".create_new_encrypted_wif"])
p("Network names, WIF types and public key types of any kind",
  "In the methods a false object (None, 0, b'', []) given as network counts as absent; any other object that is no text raises NetworkError showing the networks and the type of the object, whatever the other arguments. The constructor refuses everything that is no text, None too. A WIF type that is not one of the two texts is never accepted: WIFError showing it. The WIF functions raise KeyError for a network that is no text (TypeError if it is unhashable). Finding: P2PKHAddress.encode takes every public_key_type other than 'compressed' - also None, 'Compressed', 'wif-compressed' - for uncompressed and never refuses.",
  "all texts and all objects that are not equal to a text, in the arguments network, wif_type, public_key_type; all other arguments",
  "All kinds and contents of arguments.",
  [BIP + ".__init__", BIP + ".encrypt", BIP + ".decrypt", BIP + ".confirm_code", BIP + ".create_new_encrypted_wif", "bip38/wif.py:private_key_to_wif", "bip38/wif.py:get_wif_type", "bip38/p2pkh_address.py:P2PKHAddress.encode"])
p("Calls without optional arguments",
  "Left-out arguments have the documented meaning: BIP38(coin) is an object for mainnet (possible for every class of the library); methods without network work on the network of the object, without detail they return a WIF resp. an address, create_new_encrypted_wif without type and seed creates an uncompressed key from the random bytes; private_key_to_wif, wif_to_private_key, get_wif_type, get_wif_checksum, encode_wif, decode_wif write and read compressed Bitcoin mainnet WIFs (80 key 01 checksum, 52 characters, K or L); P2PKHAddress.encode/decode use the compressed key and Bitcoin mainnet; base58 functions use Bitcoin's alphabet.",
  "all private and public keys, all texts, all objects",
  "All keys and texts.",
  [BIP + ".__init__", BIP + ".encrypt", BIP + ".decrypt", "bip38/wif.py:private_key_to_wif", "bip38/wif.py:encode_wif", "bip38/p2pkh_address.py:P2PKHAddress", "bip38/libs/base58.py"])
p("Objects shared by threads",
  "A method call that runs while other threads start and run calls on the same or other objects, construct objects, and change other objects and other classes, in any interleaving of their steps, returns or raises what it would alone; it never waits for another thread. If another thread sets the object's network meanwhile, every call answers as at one moment of its run; the same holds of confirm_code, create_new_encrypted_wif and intermediate_code when the networks of the class are replaced meanwhile. Finding: encrypt and decrypt read the prefixes of the class several times and can then return a value they return at no moment (negation proved).",
  "all schedules of any number of threads, all calls and arguments, all actions of other threads",
  "Interleavings of threads are not controlled by a test.",
  [BIP + ".encrypt", BIP + ".decrypt", BIP + ".confirm_code", BIP + ".create_new_encrypted_wif", BIP + ".intermediate_code", "bip38/wif.py:get_wif_type", "bip38/wif.py:wif_to_private_key"])
p("External functions that raise",
  "Let the functions the library calls (os.urandom, hashlib, unicodedata, scrypt, pyaes) raise any exceptions at any of their calls. Then a call of encrypt, decrypt, intermediate_code, create_new_encrypted_wif or confirm_code either meets none of them and ends as described elsewhere, or it ends at the first one: no further external function is called, nothing is returned, and the caller sees this exception. The one exception to that: a ValueError of the two SHA-256 calls that verify an intermediate or confirmation code is reported as an invalid code (PassphraseError resp. Error). Finding: where hashlib lists RIPEMD-160 and refuses it when asked (OpenSSL 3), encrypt of every WIF raises that ValueError; the bundled implementation is not used.",
  "all fault schedules (any exception at any position and request), all arguments, all objects",
  "Every crash point of every call, with every exception.",
  [BIP + ".encrypt", BIP + ".decrypt", BIP + ".confirm_code", BIP + ".create_new_encrypted_wif", BIP + ".intermediate_code", "bip38/crypto.py"])
p("Work of a call",
  "A call that returns has computed: encrypt and decrypt of a record without EC multiplication one scrypt with N=16384, r=8, p=8; decrypt with EC multiplication and confirm_code that and one scrypt with N=1024, r=p=1; create_new_encrypted_wif one scrypt with N=1024 and, without seed, os.urandom(24) before; intermediate_code one scrypt with N=16384 and, without salt, os.urandom(8) before. A call that raises has done an initial part of this. Malformed input costs nothing: with an unknown network, a text that is no WIF of a private key, a text that is no encrypted key of a known form or a salt of a wrong length no external function is called at all, and a malformed confirmation code, intermediate code, WIF type, lot or sequence causes no scrypt. On the other hand every guess costs: decrypt of a well-formed encrypted key and confirm_code of a well-formed code start with normalising the given passphrase and stretching it with N=16384, whatever the passphrase and the outcome.",
  "all arguments, all objects, all fault schedules (for the last part: all without a fault)",
  "Work is not visible in results; all inputs and crash points.",
  [BIP + ".encrypt", BIP + ".decrypt", BIP + ".confirm_code", BIP + ".create_new_encrypted_wif", BIP + ".intermediate_code"])
p("The text of utils.py, crypto.py and exceptions.py",
  "Running the repository's own statements (as the characters of the files mean them) of get_bytes, bytes_reverse, bytes_to_string, bytes_to_integer, integer_to_bytes, sha256, double_sha256, ripemd160, hash160, get_checksum ends for every argument, with the value or exception (text included) that the other properties describe: hexadecimal text and bytes are inverse to each other, a number that fits the given width is written in it and read back, any other raises OverflowError; raising a library exception with message, detail, expected and got shows the composed text.",
  "all byte strings, texts, None and other objects, all integers, widths, byte orders, all exception classes and parts; any hash functions",
  "All inputs; it is about every path through the statements as written.",
  ["bip38/utils.py", "bip38/crypto.py", "bip38/exceptions.py"])
p("The text of libs/base58.py",
  "Running the repository's own statements (as the characters of the files mean them) of encode and check_encode (a while loop) ends for every byte string and every alphabet of at least two characters, and gives the leading-zero characters followed by the digits of the number; decode and check_decode end for every text and other object, with every alphabet; for a proper alphabet they are inverse to each other. Finding: with an alphabet of one character encode never ends unless all bytes are zero; with an empty one it raises ZeroDivisionError.",
  "all byte strings, texts, other objects, all alphabets",
  "Termination and value of unbounded loops.",
  ["bip38/libs/base58.py"])
p("The text of libs/ripemd160.py",
  "Running the repository's own statements (as the characters of the files mean them) of the bundled ripemd160 (padding, two lines of 80 rounds per block, any number of blocks) gives the RIPEMD-160 digest of the standard, and crypto.ripemd160 uses it where hashlib has none.",
  "all byte strings shorter than 2^61 bytes",
  "All lengths and contents.",
  ["bip38/libs/ripemd160.py", "bip38/crypto.py:ripemd160"])
p("The text of secp256k1/*.py",
  "Running the repository's own statements (as the characters of the files mean them): PrivateKey.from_bytes accepts exactly the 32-byte numbers from 1 to N-1 (Secp256k1Error otherwise), raw gives the bytes back and public_key the corresponding multiple of the generator; PublicKey.from_bytes accepts exactly the encodings of points of the curve; raw writes the SEC1 forms; Point's methods add, multiply, convert as described elsewhere, also with old releases of ecdsa.",
  "all byte strings, coordinates, points, scalars",
  "All inputs.",
  ["bip38/secp256k1/private_key.py", "bip38/secp256k1/public_key.py", "bip38/secp256k1/point.py"])
p("The text of wif.py and p2pkh_address.py",
  "Running the repository's own statements (as the characters of the files mean them) of encode_wif, decode_wif, private_key_to_wif, wif_to_private_key, get_wif_type, get_wif_checksum, P2PKHAddress.encode and decode ends for every argument with the value or exception described elsewhere; a key written as WIF comes back with its type and checksum, an address gives back its public key hash; the missing checks of checksum and marker (findings C09, C10) are in the text.",
  "all keys of every kind, texts, prefixes, classes, networks, keyword arguments",
  "All inputs.",
  ["bip38/wif.py", "bip38/p2pkh_address.py"])
p("The text of bip38.py",
  "Running the repository's own statements (as the characters of the files mean them) of BIP38.__init__, intermediate_code, encrypt, create_new_encrypted_wif, confirm_code and decrypt, with all the functions they call, ends for every argument with the very value or exception (text included) of the model all other properties are proved of: so those properties hold of the text.",
  "all classes, objects, texts, passphrases, networks, lots, sequences, salts, seeds, types, detail flags; all random bytes; any lawful primitives",
  "It covers every path of every method as written.",
  ["bip38/bip38.py"])
p("Positional, keyword and default arguments",
  "A call of a function or method, with any mixture of positional and keyword arguments, gives each parameter one value - positional, keyword of its name, or the documented default - and is then the same as the call with these values in order; a call that misses a parameter without default, names an unknown one, gives one twice or has too many arguments raises TypeError and does nothing else. P2PKHAddress.encode and decode take one named argument and any keyword arguments.",
  "all positional and keyword arguments with distinct names, of every function, method and constructor",
  "All mixtures of arguments.",
  ["bip38/bip38.py", "bip38/wif.py", "bip38/utils.py", "bip38/crypto.py", "bip38/libs/base58.py", "bip38/secp256k1", "bip38/p2pkh_address.py", "bip38/exceptions.py"])
p("Which exceptions a caller has to expect",
  "On an object that the constructor returned, every call of encrypt, decrypt, confirm_code, create_new_encrypted_wif (with texts) and intermediate_code ends, and raises at most: encrypt NetworkError, WIFError, Secp256k1Error, ValueError, UnicodeEncodeError; decrypt also PassphraseError and Error; confirm_code NetworkError, PassphraseError, Error; create_new_encrypted_wif NetworkError, PassphraseError, WIFError, Error, Secp256k1Error, ValueError, TypeError; intermediate_code Error, Secp256k1Error, ValueError, TypeError; the constructor NetworkError, CryptocurrencyError, TypeError, AttributeError. This is of the repository's own statements.",
  "all texts, passphrases, networks, types, seeds, salts; all classes with distinct network names",
  "All inputs; also that no call runs forever or leaves the statements in an undefined way.",
  [BIP + ".__init__", BIP + ".encrypt", BIP + ".decrypt", BIP + ".confirm_code", BIP + ".create_new_encrypted_wif", BIP + ".intermediate_code"])
p("Whole flows on the text",
  "With the repository's own statements: construct an object, write a private key as WIF, encrypt it, decrypt it with the same passphrase: the WIF comes back exactly if the key is at least 2^248 (otherwise Secp256k1Error, finding C17). And: an intermediate code, a key created from it, decrypt with the owner's passphrase: the WIF, key, address, seed, lot and sequence come back (under the exact condition of C29), and confirm_code confirms the address (under that of C30).",
  "all classes, networks, keys, passphrases, lots, sequences, salts, seeds, random bytes; any lawful primitives",
  "All inputs.",
  [BIP + ".encrypt", BIP + ".decrypt", BIP + ".confirm_code", BIP + ".create_new_encrypted_wif", BIP + ".intermediate_code", "bip38/wif.py:private_key_to_wif"])
p("How often encryption fails",
  "Take all 256^64 sequences of 64 bytes that scrypt could give. For a WIF of a private key, encrypt returns a text for exactly 255^2 * 256^62 of them and raises ValueError for exactly 511 * 256^62, that is 511 in 65536 (finding of C18); encrypt followed by decrypt gives the WIF back for exactly the same 255^2 * 256^62 if the key is at least 2^248 and for none if it is smaller (finding of C17). For a usable intermediate code and 24-byte seed create_new_encrypted_wif returns for at least 254^2 * 256^62 and at most 255^2 * 256^62 and raises ValueError for all others.",
  "all WIFs of private keys, passphrases, intermediate codes, seeds, coins, networks; all outputs of scrypt, counted",
  "A count over 2^512 outputs.",
  [BIP + ".encrypt", BIP + ".decrypt", BIP + ".create_new_encrypted_wif", "bip38/utils.py:integer_to_bytes"])
p("Arguments of any kind, on the text",
  "The repository's own statements with arguments of any kind: a text, passphrase or code that is no str ends in TypeError where it is first used and no method ever returns for a passphrase that is no str; detail may be any object and counts by its truth; a network that is no str counts as absent if false and raises NetworkError showing its type if true, before anything else is looked at, and the constructor refuses both; a wif_type that is no str raises WIFError showing it; the functions on WIFs raise KeyError or TypeError for a network that is no str; a public_key_type that is no str silently gives the uncompressed address; lot and sequence as texts, truth values, integers or None do what int() and their truth say.",
  "all objects of the kinds None, bool, int, str, bytes, bytearray, list, tuple, dict, type in each of these places, whatever the other arguments are",
  "All objects in all places.",
  ["bip38/bip38.py", "bip38/wif.py", "bip38/p2pkh_address.py", "bip38/libs/base58.py:decode"])
p("Faults of external functions, on the text",
  "Any call of an external function (os.urandom, hashlib, unicodedata, scrypt, pyaes, ecdsa) may raise any exception (out of memory, interrupted, unsupported algorithm, ...). For every function and method of the repository, run as written: if no such call raises, the outcome is the one described elsewhere; otherwise the first call that raises is the last one made and its exception itself is what the caller gets. So no fault ever changes a returned value. The only exceptions not passed on are those the repository catches: MalformedPointError and AttributeError of ecdsa, ValueError of hashlib in create_new_encrypted_wif and confirm_code, Secp256k1Error in confirm_code.",
  "every function and method; arguments of any number and kind; every assignment of exceptions to external calls",
  "All fault patterns at all calls, for all arguments.",
  ["bip38/bip38.py", "bip38/wif.py", "bip38/p2pkh_address.py", "bip38/crypto.py", "bip38/utils.py", "bip38/libs", "bip38/secp256k1"])
p("How often external functions are called, on the text",
  "For every function and method of the repository, run as written, whatever the arguments are and whichever external calls raise, a call makes at most a fixed number of calls of each external function, e.g. encrypt at most one scrypt, two AES encryptions and no os.urandom; decrypt and confirm_code at most two scrypt, two AES decryptions and no os.urandom; intermediate_code at most one scrypt and one os.urandom; create_new_encrypted_wif at most one scrypt, four AES encryptions, one os.urandom; the functions on WIFs, Base58, addresses and keys neither scrypt nor os.urandom.",
  "every function and method; arguments of any number and kind; every assignment of exceptions to external calls",
  "All arguments; an upper bound on work, and the absence of calls.",
  ["bip38/bip38.py", "bip38/wif.py", "bip38/p2pkh_address.py", "bip38/crypto.py", "bip38/utils.py", "bip38/libs", "bip38/secp256k1"])
p("What external functions are called with, on the text",
  "For every function and method of the repository, run as written, whatever the arguments are and whichever external calls raise: os.urandom is called only with 8 (intermediate_code) or 24 (create_new_encrypted_wif); unicodedata.normalize only with NFC; hashlib.new only with ripemd160; scrypt.hash on a passphrase only with N=16384, r=8, p=8 (64 bytes in encrypt and decrypt, 32 bytes with EC multiplication) and otherwise only with N=1024, r=1, p=1, 64 bytes. No argument can weaken these parameters.",
  "every function and method; arguments of any number and kind; every assignment of exceptions to external calls",
  "All arguments.",
  ["bip38/bip38.py", "bip38/crypto.py:ripemd160"])
p("No value without the work, on the text",
  "For every function and method of the repository, run as written, whatever the arguments are and whichever external calls raise: a value is returned only after a minimum of external calls that did not raise. encrypt, decrypt, confirm_code and intermediate_code return nothing without having stretched the normalised passphrase with scrypt N=16384, r=8, p=8; create_new_encrypted_wif and confirm_code return nothing without scrypt N=1024, r=1, p=1; encrypt makes exactly one normalisation, one scrypt, two AES encryptions and seven SHA-256 hashes; checksums take exactly two SHA-256 hashes. There is no argument and no failure of an external function that makes a method return a result by a shortcut.",
  "every function and method; arguments of any number and kind; every assignment of exceptions to external calls",
  "All arguments and all failures; a lower bound on work.",
  ["bip38/bip38.py", "bip38/wif.py", "bip38/p2pkh_address.py", "bip38/crypto.py", "bip38/libs/base58.py", "bip38/secp256k1"])

p("Importing the package, in every history of imports",
  "A program may try to import any modules of the package in any order, and any attempt may fail at any statement (an external module is missing, an interrupt, no memory), after which Python keeps the modules that were complete and forgets the others. Whatever happened before: an import at which nothing fails from outside succeeds and loads every module of the package; an import never fails because of the package itself (no circular import, no missing name); each class and function exists once, so an exception class named in an except clause is the class that is raised, whichever module it was imported from; what a program got from an import is what later imports give; no function of a loaded module meets an undefined global name; BIP38 and the texts of the package are what bip38 exports.",
  "every history of imports of modules of the package and every pattern of failures",
  "Tests import in one order in a process where everything is installed.",
  ["bip38/__init__.py", "bip38/bip38.py", "bip38/crypto.py", "bip38/wif.py", "bip38/p2pkh_address.py", "bip38/secp256k1/__init__.py", "bip38/libs"])
p("The text of cryptocurrencies.py",
  "For every class of the module the attributes NETWORKS and ALPHABET, found as Python finds them (the class body, else the base class), are those of the table of this model; each class is a subclass of ICryptocurrency, which has no networks itself. A class that a user derives from a class of the table has the attributes its body assigns, and all others (such as the alphabet) from its base; defining it changes no other class.",
  "every class of the module; every class derived from one of them",
  "All classes of the table, and all classes a user may derive.",
  ["bip38/cryptocurrencies.py"])

p("What becomes of a fault, also of one that is caught, on the text",
  "For every function and method of the repository, run as written, whichever call of an external function raises whatever, caught or not: the first call that raises is the last external call made, and no value is returned; the caller gets the exception of that call itself, or what one of seven except clauses makes of it: MalformedPointError of ecdsa becomes Secp256k1Error (PublicKey.from_bytes, PublicKey.from_point, PrivateKey.from_bytes, Point.from_bytes) and in confirm_code PassphraseError 'Incorrect passphrase'; a ValueError of hashlib while a code is verified becomes PassphraseError 'Invalid intermediate passphrase' (create_new_encrypted_wif) or Error 'Invalid confirmation code' (confirm_code), whatever the code is (finding). So no fault, even a caught one, ever turns into a returned value. The exception: in Point.from_bytes, raw, raw_encoded and raw_decoded an AttributeError of ecdsa, by which they recognise old releases (C45); the methods of BIP38 do not reach these.",
  "every function and method; arguments of any number and kind; every assignment of exceptions to external calls (for Point.from_bytes, raw, raw_encoded and raw_decoded: but AttributeErrors of ecdsa)",
  "All fault patterns at all calls, for all arguments.",
  ["bip38/bip38.py", "bip38/wif.py", "bip38/p2pkh_address.py", "bip38/crypto.py", "bip38/utils.py", "bip38/libs", "bip38/secp256k1"])

p("Which external functions are called does not depend on secrets",
  "Somebody who sees which external functions a call uses, in which order and with which cost parameters, but not the data, learns nothing about secrets but how far the call came. encrypt goes through one fixed sequence of steps, whatever the private key, the passphrase and the network; decrypt and confirm_code through one that the encrypted key or confirmation code alone determines (prefix, lot bit of the flag), whatever the passphrase; create_new_encrypted_wif and intermediate_code through one that depends only on whether seed or salt, lot and sequence are given. A call that returns has gone through the whole sequence, one that raises, for whatever reason, through an initial part of it. So for two calls with different secrets one sequence is an initial part of the other, and they are equal if both return. The same holds of the repository's own statements with arguments of any number and kind: encrypt follows that one sequence, decrypt one of three, confirm_code one of two, create_new_encrypted_wif one of two, intermediate_code one of four. And which of them is decided by public arguments alone: two calls of decrypt with the same encrypted text, of confirm_code with the same code, of create_new_encrypted_wif both with or both without seed, of intermediate_code alike in which of lot, sequence and salt are given, behave so, whatever and of whatever kind their other arguments are, and whatever the random bytes.",
  "all pairs of calls, all arguments, all objects, all fault schedules",
  "A statement about all pairs of executions with different secrets.",
  ["bip38/bip38.py: BIP38", "bip38/wif.py: private_key_to_wif", "bip38/p2pkh_address.py: P2PKHAddress.encode", "bip38/crypto.py", "bip38/libs/base58.py"])

out = os.path.join(os.path.dirname(os.path.abspath(__file__)), "..", "properties.jsonl")
with open(out, "w") as f:
    for x in P:
        f.write(json.dumps(x, ensure_ascii=False) + "\n")
print(len(P))
