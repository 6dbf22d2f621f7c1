import Verif.Model.Import
/-!
# The module level of `/repo/bip38` (generated by `tools/gen_import.py`, do not edit)
-/
namespace Bip38.Import

/-- The statements at module level of `bip38/__init__.py`, with their lines. -/
def text_bip38 : Text :=
  ⟨true, [
    .from 0 ["typing"] [("List", "List")],  -- 7
    .from 1 ["info"] [("__name__", "__name__"), ("__version__", "__version__"), ("__license__", "__license__"), ("__author__", "__author__"), ("__email__", "__email__"), ("__documentation__", "__documentation__"), ("__description__", "__description__"), ("__url__", "__url__"), ("__tracker__", "__tracker__"), ("__keywords__", "__keywords__")],  -- 9
    .from 1 ["bip38"] [("BIP38", "BIP38")],  -- 21
    .bind "__all__" ["List", "str"]  -- 23
  ]⟩

/-- The statements at module level of `bip38/bip38.py`, with their lines. -/
def text_bip38_bip38 : Text :=
  ⟨false, [
    .from 0 ["typing"] [("Type", "Type"), ("Union", "Union"), ("Optional", "Optional"), ("Literal", "Literal"), ("List", "List")],  -- 7
    .from 0 ["pyaes"] [("AESModeOfOperationECB", "AESModeOfOperationECB")],  -- 10
    .import "scrypt",  -- 12
    .import "unicodedata",  -- 13
    .import "os",  -- 14
    .from 1 ["cryptocurrencies"] [("ICryptocurrency", "ICryptocurrency"), ("Bitcoin", "Bitcoin")],  -- 16
    .from 1 ["libs", "base58"] [("encode", "encode"), ("check_encode", "check_encode"), ("decode", "decode"), ("check_decode", "check_decode"), ("ensure_string", "ensure_string")],  -- 19
    .from 1 ["secp256k1"] [("PublicKey", "PublicKey"), ("PrivateKey", "PrivateKey")],  -- 22
    .from 1 ["p2pkh_address"] [("P2PKHAddress", "P2PKHAddress")],  -- 25
    .from 1 ["crypto"] [("double_sha256", "double_sha256"), ("get_checksum", "get_checksum")],  -- 26
    .from 1 ["const"] [("N", "N"), ("MAGIC_LOT_AND_SEQUENCE", "MAGIC_LOT_AND_SEQUENCE"), ("MAGIC_NO_LOT_AND_SEQUENCE", "MAGIC_NO_LOT_AND_SEQUENCE"), ("NO_EC_MULTIPLIED_WIF_FLAG", "NO_EC_MULTIPLIED_WIF_FLAG"), ("NO_EC_MULTIPLIED_WIF_COMPRESSED_FLAG", "NO_EC_MULTIPLIED_WIF_COMPRESSED_FLAG"), ("NO_EC_MULTIPLIED_PRIVATE_KEY_PREFIX", "NO_EC_MULTIPLIED_PRIVATE_KEY_PREFIX"), ("MAGIC_LOT_AND_SEQUENCE_UNCOMPRESSED_FLAG", "MAGIC_LOT_AND_SEQUENCE_UNCOMPRESSED_FLAG"), ("MAGIC_LOT_AND_SEQUENCE_COMPRESSED_FLAG", "MAGIC_LOT_AND_SEQUENCE_COMPRESSED_FLAG"), ("MAGIC_NO_LOT_AND_SEQUENCE_UNCOMPRESSED_FLAG", "MAGIC_NO_LOT_AND_SEQUENCE_UNCOMPRESSED_FLAG"), ("MAGIC_NO_LOT_AND_SEQUENCE_COMPRESSED_FLAG", "MAGIC_NO_LOT_AND_SEQUENCE_COMPRESSED_FLAG"), ("EC_MULTIPLIED_PRIVATE_KEY_PREFIX", "EC_MULTIPLIED_PRIVATE_KEY_PREFIX"), ("CONFIRMATION_CODE_PREFIX", "CONFIRMATION_CODE_PREFIX"), ("WIF_TYPES", "WIF_TYPES"), ("FLAGS", "FLAGS")],  -- 29
    .from 1 ["exceptions"] [("Error", "Error"), ("CryptocurrencyError", "CryptocurrencyError"), ("NetworkError", "NetworkError"), ("Secp256k1Error", "Secp256k1Error"), ("WIFError", "WIFError"), ("PassphraseError", "PassphraseError")],  -- 45
    .from 1 ["utils"] [("integer_to_bytes", "integer_to_bytes"), ("bytes_to_integer", "bytes_to_integer"), ("bytes_to_string", "bytes_to_string"), ("get_bytes", "get_bytes")],  -- 48
    .from 1 ["wif"] [("private_key_to_wif", "private_key_to_wif"), ("wif_to_private_key", "wif_to_private_key"), ("get_wif_type", "get_wif_type")],  -- 51
    .bind "BIP38" ["Type", "ICryptocurrency", "List", "str", "classmethod", "Optional", "int", "Union", "bytes", "dict", "bool"]  -- 56
  ]⟩

/-- The statements at module level of `bip38/const.py`, with their lines. -/
def text_bip38_const : Text :=
  ⟨false, [
    .from 0 ["typing"] [("List", "List"), ("Dict", "Dict")],  -- 7
    .bind "NO_EC_MULTIPLIED_PRIVATE_KEY_PREFIX" ["int"],  -- 12
    .bind "EC_MULTIPLIED_PRIVATE_KEY_PREFIX" ["int"],  -- 13
    .bind "NO_EC_MULTIPLIED_WIF_FLAG" ["int"],  -- 15
    .bind "NO_EC_MULTIPLIED_WIF_COMPRESSED_FLAG" ["int"],  -- 16
    .bind "MAGIC_LOT_AND_SEQUENCE" ["int"],  -- 18
    .bind "MAGIC_NO_LOT_AND_SEQUENCE" ["int"],  -- 19
    .bind "MAGIC_LOT_AND_SEQUENCE_UNCOMPRESSED_FLAG" ["int"],  -- 21
    .bind "MAGIC_LOT_AND_SEQUENCE_COMPRESSED_FLAG" ["int"],  -- 22
    .bind "MAGIC_NO_LOT_AND_SEQUENCE_UNCOMPRESSED_FLAG" ["int"],  -- 23
    .bind "MAGIC_NO_LOT_AND_SEQUENCE_COMPRESSED_FLAG" ["int"],  -- 24
    .bind "CONFIRMATION_CODE_PREFIX" ["int"],  -- 26
    .bind "N" ["int"],  -- 28
    .bind "COORDINATE_POINT_LENGTH" ["int"],  -- 30
    .bind "PRIVATE_KEY_LENGTH" ["int"],  -- 32
    .bind "UNCOMPRESSED_PRIVATE_KEY_PREFIX" ["int"],  -- 33
    .bind "COMPRESSED_PRIVATE_KEY_PREFIX" ["int"],  -- 34
    .bind "COMPRESSED_PUBLIC_KEY_LENGTH" ["int"],  -- 36
    .bind "UNCOMPRESSED_PUBLIC_KEY_LENGTH" ["int"],  -- 37
    .bind "EVEN_COMPRESSED_PUBLIC_KEY_PREFIX" ["int"],  -- 38
    .bind "ODD_COMPRESSED_PUBLIC_KEY_PREFIX" ["int"],  -- 39
    .bind "UNCOMPRESSED_PUBLIC_KEY_PREFIX" ["int"],  -- 40
    .bind "CHECKSUM_BYTE_LENGTH" ["int"],  -- 42
    .bind "WIF_TYPES" [],  -- 44
    .bind "PUBLIC_KEY_TYPES" [],  -- 46
    .bind "FLAGS" ["MAGIC_NO_LOT_AND_SEQUENCE_COMPRESSED_FLAG", "MAGIC_LOT_AND_SEQUENCE_COMPRESSED_FLAG", "MAGIC_LOT_AND_SEQUENCE_UNCOMPRESSED_FLAG", "NO_EC_MULTIPLIED_WIF_FLAG", "NO_EC_MULTIPLIED_WIF_COMPRESSED_FLAG", "Dict", "str", "List", "int"]  -- 48
  ]⟩

/-- The statements at module level of `bip38/crypto.py`, with their lines. -/
def text_bip38_crypto : Text :=
  ⟨false, [
    .from 0 ["typing"] [("Union", "Union")],  -- 7
    .import "hashlib",  -- 9
    .from 1 ["libs", "ripemd160"] [("ripemd160", "r160")],  -- 11
    .from 1 ["const"] [("CHECKSUM_BYTE_LENGTH", "CHECKSUM_BYTE_LENGTH")],  -- 12
    .from 1 ["utils"] [("get_bytes", "get_bytes")],  -- 13
    .bind "ripemd160" ["Union", "str", "bytes"],  -- 16
    .bind "sha256" ["Union", "str", "bytes"],  -- 34
    .bind "double_sha256" ["Union", "str", "bytes"],  -- 48
    .bind "get_checksum" ["Union", "str", "bytes"],  -- 62
    .bind "hash160" ["Union", "str", "bytes"]  -- 79
  ]⟩

/-- The statements at module level of `bip38/cryptocurrencies.py`, with their lines. -/
def text_bip38_cryptocurrencies : Text :=
  ⟨false, [
    .from 0 ["typing"] [("Dict", "Dict"), ("Optional", "Optional")],  -- 7
    .bind "ICryptocurrency" ["Dict", "str", "int", "Optional"],  -- 12
    .bind "Adcoin" ["ICryptocurrency"],  -- 18
    .bind "Anon" ["ICryptocurrency"],  -- 28
    .bind "Argoneum" ["ICryptocurrency"],  -- 38
    .bind "Artax" ["ICryptocurrency"],  -- 48
    .bind "Aryacoin" ["ICryptocurrency"],  -- 58
    .bind "Asiacoin" ["ICryptocurrency"],  -- 68
    .bind "Auroracoin" ["ICryptocurrency"],  -- 78
    .bind "Avian" ["ICryptocurrency"],  -- 88
    .bind "Axe" ["ICryptocurrency"],  -- 98
    .bind "Bata" ["ICryptocurrency"],  -- 108
    .bind "BeetleCoin" ["ICryptocurrency"],  -- 118
    .bind "BelaCoin" ["ICryptocurrency"],  -- 128
    .bind "BitCloud" ["ICryptocurrency"],  -- 138
    .bind "Bitcoin" ["ICryptocurrency"],  -- 148
    .bind "BitcoinAtom" ["ICryptocurrency"],  -- 167
    .bind "BitcoinGold" ["ICryptocurrency"],  -- 177
    .bind "BitcoinGreen" ["ICryptocurrency"],  -- 187
    .bind "BitcoinPlus" ["ICryptocurrency"],  -- 197
    .bind "BitcoinPrivate" ["ICryptocurrency"],  -- 207
    .bind "BitcoinSV" ["ICryptocurrency"],  -- 221
    .bind "BitcoinZ" ["ICryptocurrency"],  -- 231
    .bind "Bitcore" ["ICryptocurrency"],  -- 241
    .bind "BitSend" ["ICryptocurrency"],  -- 251
    .bind "Blackcoin" ["ICryptocurrency"],  -- 261
    .bind "Blocknode" ["ICryptocurrency"],  -- 271
    .bind "BlockStamp" ["ICryptocurrency"],  -- 285
    .bind "Bolivarcoin" ["ICryptocurrency"],  -- 295
    .bind "BritCoin" ["ICryptocurrency"],  -- 305
    .bind "CanadaeCoin" ["ICryptocurrency"],  -- 315
    .bind "Cannacoin" ["ICryptocurrency"],  -- 325
    .bind "Clams" ["ICryptocurrency"],  -- 335
    .bind "ClubCoin" ["ICryptocurrency"],  -- 345
    .bind "Compcoin" ["ICryptocurrency"],  -- 355
    .bind "CPUChain" ["ICryptocurrency"],  -- 365
    .bind "CranePay" ["ICryptocurrency"],  -- 375
    .bind "Crave" ["ICryptocurrency"],  -- 385
    .bind "Dash" ["ICryptocurrency"],  -- 395
    .bind "DeepOnion" ["ICryptocurrency"],  -- 409
    .bind "Defcoin" ["ICryptocurrency"],  -- 419
    .bind "Denarius" ["ICryptocurrency"],  -- 429
    .bind "Diamond" ["ICryptocurrency"],  -- 439
    .bind "DigiByte" ["ICryptocurrency"],  -- 449
    .bind "Digitalcoin" ["ICryptocurrency"],  -- 459
    .bind "Divi" ["ICryptocurrency"],  -- 469
    .bind "Dogecoin" ["ICryptocurrency"],  -- 483
    .bind "Ecoin" ["ICryptocurrency"],  -- 497
    .bind "EDRCoin" ["ICryptocurrency"],  -- 507
    .bind "eGulden" ["ICryptocurrency"],  -- 517
    .bind "Einsteinium" ["ICryptocurrency"],  -- 527
    .bind "Elastos" ["ICryptocurrency"],  -- 537
    .bind "Energi" ["ICryptocurrency"],  -- 547
    .bind "EuropeCoin" ["ICryptocurrency"],  -- 557
    .bind "Evrmore" ["ICryptocurrency"],  -- 567
    .bind "ExclusiveCoin" ["ICryptocurrency"],  -- 581
    .bind "Feathercoin" ["ICryptocurrency"],  -- 591
    .bind "Firo" ["ICryptocurrency"],  -- 601
    .bind "Firstcoin" ["ICryptocurrency"],  -- 611
    .bind "FIX" ["ICryptocurrency"],  -- 621
    .bind "Flashcoin" ["ICryptocurrency"],  -- 635
    .bind "Flux" ["ICryptocurrency"],  -- 645
    .bind "Foxdcoin" ["ICryptocurrency"],  -- 655
    .bind "FujiCoin" ["ICryptocurrency"],  -- 669
    .bind "GameCredits" ["ICryptocurrency"],  -- 679
    .bind "GCRCoin" ["ICryptocurrency"],  -- 689
    .bind "GoByte" ["ICryptocurrency"],  -- 699
    .bind "Gridcoin" ["ICryptocurrency"],  -- 709
    .bind "GroestlCoin" ["ICryptocurrency"],  -- 719
    .bind "Gulden" ["ICryptocurrency"],  -- 733
    .bind "Helleniccoin" ["ICryptocurrency"],  -- 743
    .bind "Hempcoin" ["ICryptocurrency"],  -- 753
    .bind "Horizen" ["ICryptocurrency"],  -- 763
    .bind "Hush" ["ICryptocurrency"],  -- 773
    .bind "InsaneCoin" ["ICryptocurrency"],  -- 783
    .bind "InternetOfPeople" ["ICryptocurrency"],  -- 793
    .bind "IXCoin" ["ICryptocurrency"],  -- 803
    .bind "Jumbucks" ["ICryptocurrency"],  -- 813
    .bind "Kobocoin" ["ICryptocurrency"],  -- 823
    .bind "Komodo" ["ICryptocurrency"],  -- 833
    .bind "Landcoin" ["ICryptocurrency"],  -- 843
    .bind "LBRYCredits" ["ICryptocurrency"],  -- 853
    .bind "Linx" ["ICryptocurrency"],  -- 863
    .bind "Litecoin" ["ICryptocurrency"],  -- 873
    .bind "LitecoinCash" ["ICryptocurrency"],  -- 887
    .bind "LitecoinZ" ["ICryptocurrency"],  -- 897
    .bind "Lkrcoin" ["ICryptocurrency"],  -- 907
    .bind "Lynx" ["ICryptocurrency"],  -- 917
    .bind "Mazacoin" ["ICryptocurrency"],  -- 927
    .bind "Megacoin" ["ICryptocurrency"],  -- 937
    .bind "Minexcoin" ["ICryptocurrency"],  -- 947
    .bind "Monacoin" ["ICryptocurrency"],  -- 957
    .bind "Monk" ["ICryptocurrency"],  -- 967
    .bind "Myriadcoin" ["ICryptocurrency"],  -- 977
    .bind "Namecoin" ["ICryptocurrency"],  -- 987
    .bind "Navcoin" ["ICryptocurrency"],  -- 997
    .bind "Neblio" ["ICryptocurrency"],  -- 1007
    .bind "Neoscoin" ["ICryptocurrency"],  -- 1017
    .bind "Neurocoin" ["ICryptocurrency"],  -- 1027
    .bind "NewYorkCoin" ["ICryptocurrency"],  -- 1037
    .bind "NIX" ["ICryptocurrency"],  -- 1047
    .bind "Novacoin" ["ICryptocurrency"],  -- 1057
    .bind "NuBits" ["ICryptocurrency"],  -- 1067
    .bind "NuShares" ["ICryptocurrency"],  -- 1077
    .bind "OKCash" ["ICryptocurrency"],  -- 1087
    .bind "Omni" ["ICryptocurrency"],  -- 1097
    .bind "Onix" ["ICryptocurrency"],  -- 1111
    .bind "Particl" ["ICryptocurrency"],  -- 1121
    .bind "Peercoin" ["ICryptocurrency"],  -- 1131
    .bind "Pesobit" ["ICryptocurrency"],  -- 1141
    .bind "Phore" ["ICryptocurrency"],  -- 1151
    .bind "Pinkcoin" ["ICryptocurrency"],  -- 1161
    .bind "Pivx" ["ICryptocurrency"],  -- 1171
    .bind "PoSWCoin" ["ICryptocurrency"],  -- 1185
    .bind "Potcoin" ["ICryptocurrency"],  -- 1195
    .bind "ProjectCoin" ["ICryptocurrency"],  -- 1205
    .bind "Putincoin" ["ICryptocurrency"],  -- 1215
    .bind "Qtum" ["ICryptocurrency"],  -- 1225
    .bind "Rapids" ["ICryptocurrency"],  -- 1239
    .bind "Ravencoin" ["ICryptocurrency"],  -- 1249
    .bind "Reddcoin" ["ICryptocurrency"],  -- 1263
    .bind "Ripple" ["ICryptocurrency"],  -- 1273
    .bind "Ritocoin" ["ICryptocurrency"],  -- 1284
    .bind "RSK" ["ICryptocurrency"],  -- 1294
    .bind "Rubycoin" ["ICryptocurrency"],  -- 1308
    .bind "Safecoin" ["ICryptocurrency"],  -- 1318
    .bind "Saluscoin" ["ICryptocurrency"],  -- 1328
    .bind "Scribe" ["ICryptocurrency"],  -- 1338
    .bind "ShadowCash" ["ICryptocurrency"],  -- 1348
    .bind "Slimcoin" ["ICryptocurrency"],  -- 1362
    .bind "Smileycoin" ["ICryptocurrency"],  -- 1376
    .bind "Solarcoin" ["ICryptocurrency"],  -- 1386
    .bind "Stash" ["ICryptocurrency"],  -- 1396
    .bind "Stratis" ["ICryptocurrency"],  -- 1410
    .bind "Sugarchain" ["ICryptocurrency"],  -- 1424
    .bind "Syscoin" ["ICryptocurrency"],  -- 1438
    .bind "ThoughtAI" ["ICryptocurrency"],  -- 1448
    .bind "TOACoin" ["ICryptocurrency"],  -- 1458
    .bind "TWINS" ["ICryptocurrency"],  -- 1468
    .bind "UltimateSecureCash" ["ICryptocurrency"],  -- 1482
    .bind "Unobtanium" ["ICryptocurrency"],  -- 1492
    .bind "Vcash" ["ICryptocurrency"],  -- 1502
    .bind "Verge" ["ICryptocurrency"],  -- 1512
    .bind "Vertcoin" ["ICryptocurrency"],  -- 1522
    .bind "Viacoin" ["ICryptocurrency"],  -- 1532
    .bind "Vivo" ["ICryptocurrency"],  -- 1546
    .bind "Voxels" ["ICryptocurrency"],  -- 1556
    .bind "VirtualCash" ["ICryptocurrency"],  -- 1566
    .bind "Wagerr" ["ICryptocurrency"],  -- 1576
    .bind "Whitecoin" ["ICryptocurrency"],  -- 1586
    .bind "Wincoin" ["ICryptocurrency"],  -- 1596
    .bind "XUEZ" ["ICryptocurrency"],  -- 1606
    .bind "Ycash" ["ICryptocurrency"],  -- 1616
    .bind "Zcash" ["ICryptocurrency"],  -- 1626
    .bind "ZClassic" ["ICryptocurrency"],  -- 1640
    .bind "Zetacoin" ["ICryptocurrency"],  -- 1650
    .bind "ZooBC" ["ICryptocurrency"]  -- 1660
  ]⟩

/-- The statements at module level of `bip38/exceptions.py`, with their lines. -/
def text_bip38_exceptions : Text :=
  ⟨false, [
    .from 0 ["typing"] [("Optional", "Optional"), ("Any", "Any")],  -- 7
    .bind "Error" ["Exception", "str", "Optional", "Any"],  -- 12
    .bind "CryptocurrencyError" ["Error"],  -- 41
    .bind "NetworkError" ["Error"],  -- 45
    .bind "Secp256k1Error" ["Error"],  -- 49
    .bind "AddressError" ["Error"],  -- 53
    .bind "WIFError" ["Error"],  -- 57
    .bind "PassphraseError" ["Error"]  -- 61
  ]⟩

/-- The statements at module level of `bip38/info.py`, with their lines. -/
def text_bip38_info : Text :=
  ⟨false, [
    .from 0 ["typing"] [("List", "List")],  -- 7
    .bind "__name__" ["str"],  -- 9
    .bind "__version__" ["str"],  -- 10
    .bind "__license__" ["str"],  -- 11
    .bind "__author__" ["str"],  -- 12
    .bind "__email__" ["str"],  -- 13
    .bind "__documentation__" ["str"],  -- 14
    .bind "__description__" ["str"],  -- 15
    .bind "__source__" ["str"],  -- 16
    .bind "__url__" ["__source__", "str"],  -- 17
    .bind "__tracker__" ["__url__", "str"],  -- 18
    .bind "__keywords__" ["List", "str"],  -- 19
    .bind "__websites__" ["__documentation__", "List", "str"]  -- 22
  ]⟩

/-- The statements at module level of `bip38/p2pkh_address.py`, with their lines. -/
def text_bip38_p2pkh_address : Text :=
  ⟨false, [
    .from 0 ["typing"] [("Any", "Any"), ("Union", "Union")],  -- 7
    .from 1 ["libs", "base58"] [("ensure_string", "ensure_string"), ("check_encode", "check_encode"), ("check_decode", "check_decode")],  -- 11
    .from 1 ["secp256k1"] [("PublicKey", "PublicKey")],  -- 14
    .from 1 ["cryptocurrencies"] [("Bitcoin", "Bitcoin")],  -- 15
    .from 1 ["crypto"] [("hash160", "hash160")],  -- 16
    .from 1 ["exceptions"] [("AddressError", "AddressError")],  -- 17
    .from 1 ["utils"] [("get_bytes", "get_bytes"), ("integer_to_bytes", "integer_to_bytes"), ("bytes_to_string", "bytes_to_string")],  -- 18
    .bind "P2PKHAddress" ["Bitcoin", "int", "str", "classmethod", "Union", "bytes", "PublicKey", "Any"]  -- 23
  ]⟩

/-- The statements at module level of `bip38/utils.py`, with their lines. -/
def text_bip38_utils : Text :=
  ⟨false, [
    .from 0 ["typing"] [("AnyStr", "AnyStr"), ("Optional", "Optional"), ("Union", "Union"), ("Literal", "Literal")],  -- 7
    .bind "get_bytes" ["AnyStr", "bool", "bytes"],  -- 12
    .bind "bytes_reverse" ["bytes"],  -- 38
    .bind "bytes_to_string" ["Union", "bytes", "str"],  -- 54
    .bind "bytes_to_integer" ["bytes", "Literal", "bool", "int"],  -- 77
    .bind "integer_to_bytes" ["int", "Optional", "Literal", "bool", "bytes"]  -- 95
  ]⟩

/-- The statements at module level of `bip38/wif.py`, with their lines. -/
def text_bip38_wif : Text :=
  ⟨false, [
    .from 0 ["typing"] [("Union", "Union"), ("Tuple", "Tuple"), ("Type", "Type")],  -- 7
    .from 1 ["libs", "base58"] [("encode", "encode"), ("decode", "decode")],  -- 11
    .from 1 ["cryptocurrencies"] [("ICryptocurrency", "ICryptocurrency"), ("Bitcoin", "Bitcoin")],  -- 14
    .from 1 ["const"] [("COMPRESSED_PRIVATE_KEY_PREFIX", "COMPRESSED_PRIVATE_KEY_PREFIX"), ("WIF_TYPES", "WIF_TYPES")],  -- 17
    .from 1 ["crypto"] [("get_checksum", "get_checksum")],  -- 20
    .from 1 ["exceptions"] [("WIFError", "WIFError"), ("Secp256k1Error", "Secp256k1Error")],  -- 21
    .from 1 ["utils"] [("get_bytes", "get_bytes"), ("integer_to_bytes", "integer_to_bytes"), ("bytes_to_string", "bytes_to_string")],  -- 24
    .bind "encode_wif" ["Bitcoin", "Union", "str", "bytes", "int", "Tuple"],  -- 29
    .bind "decode_wif" ["Bitcoin", "str", "int", "Tuple", "bytes"],  -- 59
    .bind "private_key_to_wif" ["Bitcoin", "Union", "str", "bytes", "Type", "ICryptocurrency"],  -- 97
    .bind "wif_to_private_key" ["Bitcoin", "str", "Type", "ICryptocurrency"],  -- 127
    .bind "get_wif_type" ["Bitcoin", "str", "Type", "ICryptocurrency"],  -- 149
    .bind "get_wif_checksum" ["Bitcoin", "str", "Type", "ICryptocurrency"]  -- 171
  ]⟩

/-- The statements at module level of `bip38/libs/__init__.py`, with their lines. -/
def text_bip38_libs : Text :=
  ⟨true, [
  ]⟩

/-- The statements at module level of `bip38/libs/base58.py`, with their lines. -/
def text_bip38_libs_base58 : Text :=
  ⟨false, [
    .from 0 ["hashlib"] [("sha256", "sha256")],  -- 3
    .import "six",  -- 5
    .bind "__base58_alphabet" [],  -- 7
    .bind "string_to_int" [],  -- 10
    .bind "ensure_string" [],  -- 21
    .bind "encode" ["__base58_alphabet"],  -- 29
    .bind "check_encode" ["__base58_alphabet"],  -- 42
    .bind "decode" ["__base58_alphabet"],  -- 47
    .bind "check_decode" ["__base58_alphabet"]  -- 68
  ]⟩

/-- The statements at module level of `bip38/libs/ripemd160.py`, with their lines. -/
def text_bip38_libs_ripemd160 : Text :=
  ⟨false, [
    .import "binascii",  -- 8
    .import "struct",  -- 9
    .import "unittest",  -- 10
    .run ["struct"],  -- 13
    .bind "ML" [],  -- 18
    .bind "MR" [],  -- 27
    .bind "RL" [],  -- 36
    .bind "RR" [],  -- 45
    .bind "KL" [],  -- 54
    .bind "KR" [],  -- 57
    .bind "fi" [],  -- 60
    .bind "rol" [],  -- 76
    .bind "compress" [],  -- 81
    .bind "ripemd160" [],  -- 104
    .bind "TestFrameworkKey" ["unittest"]  -- 123
  ]⟩

/-- The statements at module level of `bip38/secp256k1/__init__.py`, with their lines. -/
def text_bip38_secp256k1 : Text :=
  ⟨true, [
    .from 0 ["ecdsa", "ecdsa"] [("generator_secp256k1", "generator_secp256k1")],  -- 7
    .from 1 ["point"] [("Point", "Point")],  -- 9
    .from 1 ["public_key"] [("PublicKey", "PublicKey")],  -- 10
    .from 1 ["private_key"] [("PrivateKey", "PrivateKey")],  -- 11
    .bind "Secp256k1" ["generator_secp256k1", "str", "Point", "PublicKey", "PrivateKey"]  -- 14
  ]⟩

/-- The statements at module level of `bip38/secp256k1/point.py`, with their lines. -/
def text_bip38_secp256k1_point : Text :=
  ⟨false, [
    .from 0 ["typing"] [("Any", "Any")],  -- 7
    .from 0 ["ecdsa", "ecdsa"] [("curve_secp256k1", "curve_secp256k1")],  -- 8
    .from 0 ["ecdsa", "ellipticcurve"] [("Point", "_Point"), ("PointJacobi", "PointJacobi")],  -- 9
    .from 0 ["ecdsa"] [("keys", "keys")],  -- 12
    .from 2 ["const"] [("COORDINATE_POINT_LENGTH", "COORDINATE_POINT_LENGTH")],  -- 14
    .from 2 ["exceptions"] [("Secp256k1Error", "Secp256k1Error")],  -- 15
    .from 2 ["utils"] [("bytes_to_integer", "bytes_to_integer"), ("integer_to_bytes", "integer_to_bytes")],  -- 16
    .bind "Point" ["PointJacobi", "classmethod", "bytes", "int", "Any"]  -- 21
  ]⟩

/-- The statements at module level of `bip38/secp256k1/private_key.py`, with their lines. -/
def text_bip38_secp256k1_private_key : Text :=
  ⟨false, [
    .from 0 ["typing"] [("Any", "Any")],  -- 7
    .from 0 ["ecdsa"] [("SigningKey", "SigningKey")],  -- 8
    .from 0 ["ecdsa"] [("curves", "curves"), ("keys", "keys")],  -- 9
    .from 2 ["const"] [("PRIVATE_KEY_LENGTH", "PRIVATE_KEY_LENGTH")],  -- 13
    .from 2 ["exceptions"] [("Secp256k1Error", "Secp256k1Error")],  -- 14
    .from 1 ["public_key"] [("PublicKey", "PublicKey")],  -- 15
    .bind "PrivateKey" ["SigningKey", "classmethod", "bytes", "staticmethod", "int", "Any", "PublicKey"]  -- 18
  ]⟩

/-- The statements at module level of `bip38/secp256k1/public_key.py`, with their lines. -/
def text_bip38_secp256k1_public_key : Text :=
  ⟨false, [
    .from 0 ["typing"] [("Any", "Any")],  -- 7
    .from 0 ["ecdsa"] [("VerifyingKey", "VerifyingKey")],  -- 8
    .from 0 ["ecdsa", "ecdsa"] [("curve_secp256k1", "curve_secp256k1")],  -- 9
    .from 0 ["ecdsa"] [("curves", "curves"), ("ellipticcurve", "ellipticcurve"), ("keys", "keys")],  -- 10
    .from 2 ["const"] [("COMPRESSED_PUBLIC_KEY_LENGTH", "COMPRESSED_PUBLIC_KEY_LENGTH"), ("UNCOMPRESSED_PUBLIC_KEY_LENGTH", "UNCOMPRESSED_PUBLIC_KEY_LENGTH")],  -- 14
    .from 2 ["exceptions"] [("Secp256k1Error", "Secp256k1Error")],  -- 17
    .from 1 ["point"] [("Point", "Point")],  -- 18
    .bind "PublicKey" ["VerifyingKey", "classmethod", "bytes", "Point", "staticmethod", "int", "Any", "str"]  -- 21
  ]⟩

/-- The files of the package `bip38`. -/
def package : Program :=
  [(["bip38"], text_bip38),
   (["bip38", "bip38"], text_bip38_bip38),
   (["bip38", "const"], text_bip38_const),
   (["bip38", "crypto"], text_bip38_crypto),
   (["bip38", "cryptocurrencies"], text_bip38_cryptocurrencies),
   (["bip38", "exceptions"], text_bip38_exceptions),
   (["bip38", "info"], text_bip38_info),
   (["bip38", "p2pkh_address"], text_bip38_p2pkh_address),
   (["bip38", "utils"], text_bip38_utils),
   (["bip38", "wif"], text_bip38_wif),
   (["bip38", "libs"], text_bip38_libs),
   (["bip38", "libs", "base58"], text_bip38_libs_base58),
   (["bip38", "libs", "ripemd160"], text_bip38_libs_ripemd160),
   (["bip38", "secp256k1"], text_bip38_secp256k1),
   (["bip38", "secp256k1", "point"], text_bip38_secp256k1_point),
   (["bip38", "secp256k1", "private_key"], text_bip38_secp256k1_private_key),
   (["bip38", "secp256k1", "public_key"], text_bip38_secp256k1_public_key)]

/-- For every function of the package the names that its body takes from outside. -/
def reads : List (Mod × String × List String) :=
  [(["bip38", "bip38"], "BIP38.__init__", ["issubclass", "ICryptocurrency", "CryptocurrencyError", "Type", "type", "list", "NetworkError", "Bitcoin"]),
   (["bip38", "bip38"], "BIP38.intermediate_code", ["get_bytes", "os", "len", "Error", "bytes_to_string", "int", "scrypt", "unicodedata", "integer_to_bytes", "double_sha256", "MAGIC_LOT_AND_SEQUENCE", "MAGIC_NO_LOT_AND_SEQUENCE", "PrivateKey", "ensure_string", "check_encode"]),
   (["bip38", "bip38"], "BIP38.encrypt", ["NetworkError", "type", "get_wif_type", "integer_to_bytes", "NO_EC_MULTIPLIED_WIF_FLAG", "PrivateKey", "get_bytes", "wif_to_private_key", "NO_EC_MULTIPLIED_WIF_COMPRESSED_FLAG", "P2PKHAddress", "get_checksum", "scrypt", "unicodedata", "AESModeOfOperationECB", "bytes_to_integer", "NO_EC_MULTIPLIED_PRIVATE_KEY_PREFIX", "ensure_string", "encode"]),
   (["bip38", "bip38"], "BIP38.create_new_encrypted_wif", ["NetworkError", "type", "get_bytes", "os", "check_decode", "ValueError", "PassphraseError", "len", "WIFError", "WIF_TYPES", "integer_to_bytes", "MAGIC_LOT_AND_SEQUENCE", "MAGIC_LOT_AND_SEQUENCE_UNCOMPRESSED_FLAG", "MAGIC_LOT_AND_SEQUENCE_COMPRESSED_FLAG", "MAGIC_NO_LOT_AND_SEQUENCE", "MAGIC_NO_LOT_AND_SEQUENCE_UNCOMPRESSED_FLAG", "MAGIC_NO_LOT_AND_SEQUENCE_COMPRESSED_FLAG", "Error", "bytes_to_string", "double_sha256", "bytes_to_integer", "N", "PublicKey", "P2PKHAddress", "get_checksum", "scrypt", "AESModeOfOperationECB", "ensure_string", "check_encode", "EC_MULTIPLIED_PRIVATE_KEY_PREFIX", "PrivateKey", "CONFIRMATION_CODE_PREFIX", "dict"]),
   (["bip38", "bip38"], "BIP38.confirm_code", ["NetworkError", "type", "check_decode", "ValueError", "Error", "len", "integer_to_bytes", "CONFIRMATION_CODE_PREFIX", "bytes_to_integer", "FLAGS", "scrypt", "unicodedata", "double_sha256", "N", "PrivateKey", "AESModeOfOperationECB", "PublicKey", "Secp256k1Error", "PassphraseError", "P2PKHAddress", "get_checksum", "get_bytes", "dict", "bytes_to_string"]),
   (["bip38", "bip38"], "BIP38.decrypt", ["NetworkError", "type", "decode", "len", "WIFError", "integer_to_bytes", "NO_EC_MULTIPLIED_PRIVATE_KEY_PREFIX", "NO_EC_MULTIPLIED_WIF_FLAG", "NO_EC_MULTIPLIED_WIF_COMPRESSED_FLAG", "Error", "bytes_to_string", "scrypt", "unicodedata", "AESModeOfOperationECB", "bytes_to_integer", "N", "PrivateKey", "P2PKHAddress", "get_checksum", "get_bytes", "PassphraseError", "private_key_to_wif", "dict", "EC_MULTIPLIED_PRIVATE_KEY_PREFIX", "FLAGS", "double_sha256"]),
   (["bip38", "crypto"], "ripemd160", ["hashlib", "get_bytes", "r160"]),
   (["bip38", "crypto"], "sha256", ["hashlib", "get_bytes"]),
   (["bip38", "crypto"], "double_sha256", ["sha256"]),
   (["bip38", "crypto"], "get_checksum", ["double_sha256", "CHECKSUM_BYTE_LENGTH"]),
   (["bip38", "crypto"], "hash160", ["ripemd160", "sha256"]),
   (["bip38", "exceptions"], "Error.__init__", ["isinstance", "list"]),
   (["bip38", "exceptions"], "Error.__str__", []),
   (["bip38", "p2pkh_address"], "P2PKHAddress.encode", ["integer_to_bytes", "isinstance", "PublicKey", "get_bytes", "hash160", "ensure_string", "check_encode"]),
   (["bip38", "p2pkh_address"], "P2PKHAddress.decode", ["integer_to_bytes", "check_decode", "len", "AddressError", "bytes_to_string"]),
   (["bip38", "utils"], "get_bytes", ["isinstance", "bytes", "str", "TypeError"]),
   (["bip38", "utils"], "bytes_reverse", ["bytearray", "bytes"]),
   (["bip38", "utils"], "bytes_to_string", ["bytes", "ValueError", "TypeError", "isinstance"]),
   (["bip38", "utils"], "bytes_to_integer", ["int"]),
   (["bip38", "utils"], "integer_to_bytes", []),
   (["bip38", "wif"], "encode_wif", ["len", "get_bytes", "Secp256k1Error", "integer_to_bytes", "COMPRESSED_PRIVATE_KEY_PREFIX", "encode", "get_checksum"]),
   (["bip38", "wif"], "decode_wif", ["decode", "integer_to_bytes", "WIFError", "len", "COMPRESSED_PRIVATE_KEY_PREFIX"]),
   (["bip38", "wif"], "private_key_to_wif", ["WIF_TYPES", "WIFError", "encode_wif"]),
   (["bip38", "wif"], "wif_to_private_key", ["bytes_to_string", "decode_wif"]),
   (["bip38", "wif"], "get_wif_type", ["decode_wif"]),
   (["bip38", "wif"], "get_wif_checksum", ["bytes_to_string", "decode_wif"]),
   (["bip38", "libs", "base58"], "string_to_int", ["type", "str", "bytearray", "enumerate"]),
   (["bip38", "libs", "base58"], "ensure_string", ["isinstance", "six", "ValueError"]),
   (["bip38", "libs", "base58"], "encode", ["string_to_int", "len", "divmod"]),
   (["bip38", "libs", "base58"], "check_encode", ["sha256", "encode"]),
   (["bip38", "libs", "base58"], "decode", ["bytes", "str", "len", "bytearray", "divmod"]),
   (["bip38", "libs", "base58"], "check_decode", ["decode", "sha256", "ValueError"]),
   (["bip38", "libs", "ripemd160"], "fi", []),
   (["bip38", "libs", "ripemd160"], "rol", []),
   (["bip38", "libs", "ripemd160"], "compress", ["struct", "range", "rol", "fi", "ML", "KL", "RL", "MR", "KR", "RR"]),
   (["bip38", "libs", "ripemd160"], "ripemd160", ["range", "len", "list", "compress", "struct"]),
   (["bip38", "libs", "ripemd160"], "TestFrameworkKey.test_ripemd160", ["binascii", "ripemd160"]),
   (["bip38", "secp256k1", "point"], "Point.__init__", []),
   (["bip38", "secp256k1", "point"], "Point.from_bytes", ["PointJacobi", "curve_secp256k1", "keys", "Secp256k1Error", "AttributeError", "bytes_to_integer", "COORDINATE_POINT_LENGTH"]),
   (["bip38", "secp256k1", "point"], "Point.from_coordinates", ["PointJacobi", "_Point", "curve_secp256k1"]),
   (["bip38", "secp256k1", "point"], "Point.underlying_object", []),
   (["bip38", "secp256k1", "point"], "Point.x", []),
   (["bip38", "secp256k1", "point"], "Point.y", []),
   (["bip38", "secp256k1", "point"], "Point.raw", []),
   (["bip38", "secp256k1", "point"], "Point.raw_encoded", ["AttributeError", "integer_to_bytes", "COORDINATE_POINT_LENGTH"]),
   (["bip38", "secp256k1", "point"], "Point.raw_decoded", ["AttributeError", "integer_to_bytes", "COORDINATE_POINT_LENGTH"]),
   (["bip38", "secp256k1", "point"], "Point.__add__", []),
   (["bip38", "secp256k1", "point"], "Point.__radd__", []),
   (["bip38", "secp256k1", "point"], "Point.__mul__", []),
   (["bip38", "secp256k1", "point"], "Point.__rmul__", []),
   (["bip38", "secp256k1", "private_key"], "PrivateKey.__init__", []),
   (["bip38", "secp256k1", "private_key"], "PrivateKey.from_bytes", ["SigningKey", "curves", "keys", "Secp256k1Error"]),
   (["bip38", "secp256k1", "private_key"], "PrivateKey.length", ["PRIVATE_KEY_LENGTH"]),
   (["bip38", "secp256k1", "private_key"], "PrivateKey.underlying_object", []),
   (["bip38", "secp256k1", "private_key"], "PrivateKey.raw", []),
   (["bip38", "secp256k1", "private_key"], "PrivateKey.public_key", ["PublicKey"]),
   (["bip38", "secp256k1", "public_key"], "PublicKey.__init__", []),
   (["bip38", "secp256k1", "public_key"], "PublicKey.from_bytes", ["VerifyingKey", "curves", "keys", "Secp256k1Error"]),
   (["bip38", "secp256k1", "public_key"], "PublicKey.from_point", ["VerifyingKey", "ellipticcurve", "curve_secp256k1", "curves", "keys", "Secp256k1Error"]),
   (["bip38", "secp256k1", "public_key"], "PublicKey.compressed_length", ["COMPRESSED_PUBLIC_KEY_LENGTH"]),
   (["bip38", "secp256k1", "public_key"], "PublicKey.uncompressed_length", ["UNCOMPRESSED_PUBLIC_KEY_LENGTH"]),
   (["bip38", "secp256k1", "public_key"], "PublicKey.underlying_object", []),
   (["bip38", "secp256k1", "public_key"], "PublicKey.raw", []),
   (["bip38", "secp256k1", "public_key"], "PublicKey.raw_compressed", []),
   (["bip38", "secp256k1", "public_key"], "PublicKey.raw_uncompressed", []),
   (["bip38", "secp256k1", "public_key"], "PublicKey.point", ["Point"])]

/-- What the translation of the function bodies (`tools/gen_src.py`) took each name of each module for. -/
def links : List (Mod × String × Site) :=
  [(["bip38", "exceptions"], "Optional", .external ["typing"] "Optional"),
   (["bip38", "exceptions"], "Any", .external ["typing"] "Any"),
   (["bip38", "exceptions"], "Error", .own ["bip38", "exceptions"] "Error"),
   (["bip38", "exceptions"], "CryptocurrencyError", .own ["bip38", "exceptions"] "CryptocurrencyError"),
   (["bip38", "exceptions"], "NetworkError", .own ["bip38", "exceptions"] "NetworkError"),
   (["bip38", "exceptions"], "Secp256k1Error", .own ["bip38", "exceptions"] "Secp256k1Error"),
   (["bip38", "exceptions"], "AddressError", .own ["bip38", "exceptions"] "AddressError"),
   (["bip38", "exceptions"], "WIFError", .own ["bip38", "exceptions"] "WIFError"),
   (["bip38", "exceptions"], "PassphraseError", .own ["bip38", "exceptions"] "PassphraseError"),
   (["bip38", "const"], "List", .external ["typing"] "List"),
   (["bip38", "const"], "Dict", .external ["typing"] "Dict"),
   (["bip38", "const"], "NO_EC_MULTIPLIED_PRIVATE_KEY_PREFIX", .own ["bip38", "const"] "NO_EC_MULTIPLIED_PRIVATE_KEY_PREFIX"),
   (["bip38", "const"], "EC_MULTIPLIED_PRIVATE_KEY_PREFIX", .own ["bip38", "const"] "EC_MULTIPLIED_PRIVATE_KEY_PREFIX"),
   (["bip38", "const"], "NO_EC_MULTIPLIED_WIF_FLAG", .own ["bip38", "const"] "NO_EC_MULTIPLIED_WIF_FLAG"),
   (["bip38", "const"], "NO_EC_MULTIPLIED_WIF_COMPRESSED_FLAG", .own ["bip38", "const"] "NO_EC_MULTIPLIED_WIF_COMPRESSED_FLAG"),
   (["bip38", "const"], "MAGIC_LOT_AND_SEQUENCE", .own ["bip38", "const"] "MAGIC_LOT_AND_SEQUENCE"),
   (["bip38", "const"], "MAGIC_NO_LOT_AND_SEQUENCE", .own ["bip38", "const"] "MAGIC_NO_LOT_AND_SEQUENCE"),
   (["bip38", "const"], "MAGIC_LOT_AND_SEQUENCE_UNCOMPRESSED_FLAG", .own ["bip38", "const"] "MAGIC_LOT_AND_SEQUENCE_UNCOMPRESSED_FLAG"),
   (["bip38", "const"], "MAGIC_LOT_AND_SEQUENCE_COMPRESSED_FLAG", .own ["bip38", "const"] "MAGIC_LOT_AND_SEQUENCE_COMPRESSED_FLAG"),
   (["bip38", "const"], "MAGIC_NO_LOT_AND_SEQUENCE_UNCOMPRESSED_FLAG", .own ["bip38", "const"] "MAGIC_NO_LOT_AND_SEQUENCE_UNCOMPRESSED_FLAG"),
   (["bip38", "const"], "MAGIC_NO_LOT_AND_SEQUENCE_COMPRESSED_FLAG", .own ["bip38", "const"] "MAGIC_NO_LOT_AND_SEQUENCE_COMPRESSED_FLAG"),
   (["bip38", "const"], "CONFIRMATION_CODE_PREFIX", .own ["bip38", "const"] "CONFIRMATION_CODE_PREFIX"),
   (["bip38", "const"], "N", .own ["bip38", "const"] "N"),
   (["bip38", "const"], "COORDINATE_POINT_LENGTH", .own ["bip38", "const"] "COORDINATE_POINT_LENGTH"),
   (["bip38", "const"], "PRIVATE_KEY_LENGTH", .own ["bip38", "const"] "PRIVATE_KEY_LENGTH"),
   (["bip38", "const"], "UNCOMPRESSED_PRIVATE_KEY_PREFIX", .own ["bip38", "const"] "UNCOMPRESSED_PRIVATE_KEY_PREFIX"),
   (["bip38", "const"], "COMPRESSED_PRIVATE_KEY_PREFIX", .own ["bip38", "const"] "COMPRESSED_PRIVATE_KEY_PREFIX"),
   (["bip38", "const"], "COMPRESSED_PUBLIC_KEY_LENGTH", .own ["bip38", "const"] "COMPRESSED_PUBLIC_KEY_LENGTH"),
   (["bip38", "const"], "UNCOMPRESSED_PUBLIC_KEY_LENGTH", .own ["bip38", "const"] "UNCOMPRESSED_PUBLIC_KEY_LENGTH"),
   (["bip38", "const"], "EVEN_COMPRESSED_PUBLIC_KEY_PREFIX", .own ["bip38", "const"] "EVEN_COMPRESSED_PUBLIC_KEY_PREFIX"),
   (["bip38", "const"], "ODD_COMPRESSED_PUBLIC_KEY_PREFIX", .own ["bip38", "const"] "ODD_COMPRESSED_PUBLIC_KEY_PREFIX"),
   (["bip38", "const"], "UNCOMPRESSED_PUBLIC_KEY_PREFIX", .own ["bip38", "const"] "UNCOMPRESSED_PUBLIC_KEY_PREFIX"),
   (["bip38", "const"], "CHECKSUM_BYTE_LENGTH", .own ["bip38", "const"] "CHECKSUM_BYTE_LENGTH"),
   (["bip38", "const"], "WIF_TYPES", .own ["bip38", "const"] "WIF_TYPES"),
   (["bip38", "const"], "PUBLIC_KEY_TYPES", .own ["bip38", "const"] "PUBLIC_KEY_TYPES"),
   (["bip38", "const"], "FLAGS", .own ["bip38", "const"] "FLAGS"),
   (["bip38", "utils"], "AnyStr", .external ["typing"] "AnyStr"),
   (["bip38", "utils"], "Optional", .external ["typing"] "Optional"),
   (["bip38", "utils"], "Union", .external ["typing"] "Union"),
   (["bip38", "utils"], "Literal", .external ["typing"] "Literal"),
   (["bip38", "utils"], "get_bytes", .own ["bip38", "utils"] "get_bytes"),
   (["bip38", "utils"], "bytes_reverse", .own ["bip38", "utils"] "bytes_reverse"),
   (["bip38", "utils"], "bytes_to_string", .own ["bip38", "utils"] "bytes_to_string"),
   (["bip38", "utils"], "bytes_to_integer", .own ["bip38", "utils"] "bytes_to_integer"),
   (["bip38", "utils"], "integer_to_bytes", .own ["bip38", "utils"] "integer_to_bytes"),
   (["bip38", "libs", "base58"], "sha256", .external ["hashlib"] "sha256"),
   (["bip38", "libs", "base58"], "six", .module "six"),
   (["bip38", "libs", "base58"], "__base58_alphabet", .own ["bip38", "libs", "base58"] "__base58_alphabet"),
   (["bip38", "libs", "base58"], "string_to_int", .own ["bip38", "libs", "base58"] "string_to_int"),
   (["bip38", "libs", "base58"], "ensure_string", .own ["bip38", "libs", "base58"] "ensure_string"),
   (["bip38", "libs", "base58"], "encode", .own ["bip38", "libs", "base58"] "encode"),
   (["bip38", "libs", "base58"], "check_encode", .own ["bip38", "libs", "base58"] "check_encode"),
   (["bip38", "libs", "base58"], "decode", .own ["bip38", "libs", "base58"] "decode"),
   (["bip38", "libs", "base58"], "check_decode", .own ["bip38", "libs", "base58"] "check_decode"),
   (["bip38", "libs", "ripemd160"], "binascii", .module "binascii"),
   (["bip38", "libs", "ripemd160"], "struct", .module "struct"),
   (["bip38", "libs", "ripemd160"], "unittest", .module "unittest"),
   (["bip38", "libs", "ripemd160"], "ML", .own ["bip38", "libs", "ripemd160"] "ML"),
   (["bip38", "libs", "ripemd160"], "MR", .own ["bip38", "libs", "ripemd160"] "MR"),
   (["bip38", "libs", "ripemd160"], "RL", .own ["bip38", "libs", "ripemd160"] "RL"),
   (["bip38", "libs", "ripemd160"], "RR", .own ["bip38", "libs", "ripemd160"] "RR"),
   (["bip38", "libs", "ripemd160"], "KL", .own ["bip38", "libs", "ripemd160"] "KL"),
   (["bip38", "libs", "ripemd160"], "KR", .own ["bip38", "libs", "ripemd160"] "KR"),
   (["bip38", "libs", "ripemd160"], "fi", .own ["bip38", "libs", "ripemd160"] "fi"),
   (["bip38", "libs", "ripemd160"], "rol", .own ["bip38", "libs", "ripemd160"] "rol"),
   (["bip38", "libs", "ripemd160"], "compress", .own ["bip38", "libs", "ripemd160"] "compress"),
   (["bip38", "libs", "ripemd160"], "ripemd160", .own ["bip38", "libs", "ripemd160"] "ripemd160"),
   (["bip38", "crypto"], "Union", .external ["typing"] "Union"),
   (["bip38", "crypto"], "hashlib", .module "hashlib"),
   (["bip38", "crypto"], "r160", .own ["bip38", "libs", "ripemd160"] "ripemd160"),
   (["bip38", "crypto"], "CHECKSUM_BYTE_LENGTH", .own ["bip38", "const"] "CHECKSUM_BYTE_LENGTH"),
   (["bip38", "crypto"], "get_bytes", .own ["bip38", "utils"] "get_bytes"),
   (["bip38", "crypto"], "ripemd160", .own ["bip38", "crypto"] "ripemd160"),
   (["bip38", "crypto"], "sha256", .own ["bip38", "crypto"] "sha256"),
   (["bip38", "crypto"], "double_sha256", .own ["bip38", "crypto"] "double_sha256"),
   (["bip38", "crypto"], "get_checksum", .own ["bip38", "crypto"] "get_checksum"),
   (["bip38", "crypto"], "hash160", .own ["bip38", "crypto"] "hash160"),
   (["bip38", "secp256k1", "point"], "Any", .external ["typing"] "Any"),
   (["bip38", "secp256k1", "point"], "curve_secp256k1", .external ["ecdsa", "ecdsa"] "curve_secp256k1"),
   (["bip38", "secp256k1", "point"], "_Point", .external ["ecdsa", "ellipticcurve"] "Point"),
   (["bip38", "secp256k1", "point"], "PointJacobi", .external ["ecdsa", "ellipticcurve"] "PointJacobi"),
   (["bip38", "secp256k1", "point"], "keys", .external ["ecdsa"] "keys"),
   (["bip38", "secp256k1", "point"], "COORDINATE_POINT_LENGTH", .own ["bip38", "const"] "COORDINATE_POINT_LENGTH"),
   (["bip38", "secp256k1", "point"], "Secp256k1Error", .own ["bip38", "exceptions"] "Secp256k1Error"),
   (["bip38", "secp256k1", "point"], "bytes_to_integer", .own ["bip38", "utils"] "bytes_to_integer"),
   (["bip38", "secp256k1", "point"], "integer_to_bytes", .own ["bip38", "utils"] "integer_to_bytes"),
   (["bip38", "secp256k1", "point"], "Point", .own ["bip38", "secp256k1", "point"] "Point"),
   (["bip38", "secp256k1", "public_key"], "Any", .external ["typing"] "Any"),
   (["bip38", "secp256k1", "public_key"], "VerifyingKey", .external ["ecdsa"] "VerifyingKey"),
   (["bip38", "secp256k1", "public_key"], "curve_secp256k1", .external ["ecdsa", "ecdsa"] "curve_secp256k1"),
   (["bip38", "secp256k1", "public_key"], "curves", .external ["ecdsa"] "curves"),
   (["bip38", "secp256k1", "public_key"], "ellipticcurve", .external ["ecdsa"] "ellipticcurve"),
   (["bip38", "secp256k1", "public_key"], "keys", .external ["ecdsa"] "keys"),
   (["bip38", "secp256k1", "public_key"], "COMPRESSED_PUBLIC_KEY_LENGTH", .own ["bip38", "const"] "COMPRESSED_PUBLIC_KEY_LENGTH"),
   (["bip38", "secp256k1", "public_key"], "UNCOMPRESSED_PUBLIC_KEY_LENGTH", .own ["bip38", "const"] "UNCOMPRESSED_PUBLIC_KEY_LENGTH"),
   (["bip38", "secp256k1", "public_key"], "Secp256k1Error", .own ["bip38", "exceptions"] "Secp256k1Error"),
   (["bip38", "secp256k1", "public_key"], "Point", .own ["bip38", "secp256k1", "point"] "Point"),
   (["bip38", "secp256k1", "public_key"], "PublicKey", .own ["bip38", "secp256k1", "public_key"] "PublicKey"),
   (["bip38", "secp256k1", "private_key"], "Any", .external ["typing"] "Any"),
   (["bip38", "secp256k1", "private_key"], "SigningKey", .external ["ecdsa"] "SigningKey"),
   (["bip38", "secp256k1", "private_key"], "curves", .external ["ecdsa"] "curves"),
   (["bip38", "secp256k1", "private_key"], "keys", .external ["ecdsa"] "keys"),
   (["bip38", "secp256k1", "private_key"], "PRIVATE_KEY_LENGTH", .own ["bip38", "const"] "PRIVATE_KEY_LENGTH"),
   (["bip38", "secp256k1", "private_key"], "Secp256k1Error", .own ["bip38", "exceptions"] "Secp256k1Error"),
   (["bip38", "secp256k1", "private_key"], "PublicKey", .own ["bip38", "secp256k1", "public_key"] "PublicKey"),
   (["bip38", "secp256k1", "private_key"], "PrivateKey", .own ["bip38", "secp256k1", "private_key"] "PrivateKey"),
   (["bip38", "wif"], "Union", .external ["typing"] "Union"),
   (["bip38", "wif"], "Tuple", .external ["typing"] "Tuple"),
   (["bip38", "wif"], "Type", .external ["typing"] "Type"),
   (["bip38", "wif"], "encode", .own ["bip38", "libs", "base58"] "encode"),
   (["bip38", "wif"], "decode", .own ["bip38", "libs", "base58"] "decode"),
   (["bip38", "wif"], "ICryptocurrency", .own ["bip38", "cryptocurrencies"] "ICryptocurrency"),
   (["bip38", "wif"], "Bitcoin", .own ["bip38", "cryptocurrencies"] "Bitcoin"),
   (["bip38", "wif"], "COMPRESSED_PRIVATE_KEY_PREFIX", .own ["bip38", "const"] "COMPRESSED_PRIVATE_KEY_PREFIX"),
   (["bip38", "wif"], "WIF_TYPES", .own ["bip38", "const"] "WIF_TYPES"),
   (["bip38", "wif"], "get_checksum", .own ["bip38", "crypto"] "get_checksum"),
   (["bip38", "wif"], "WIFError", .own ["bip38", "exceptions"] "WIFError"),
   (["bip38", "wif"], "Secp256k1Error", .own ["bip38", "exceptions"] "Secp256k1Error"),
   (["bip38", "wif"], "get_bytes", .own ["bip38", "utils"] "get_bytes"),
   (["bip38", "wif"], "integer_to_bytes", .own ["bip38", "utils"] "integer_to_bytes"),
   (["bip38", "wif"], "bytes_to_string", .own ["bip38", "utils"] "bytes_to_string"),
   (["bip38", "wif"], "encode_wif", .own ["bip38", "wif"] "encode_wif"),
   (["bip38", "wif"], "decode_wif", .own ["bip38", "wif"] "decode_wif"),
   (["bip38", "wif"], "private_key_to_wif", .own ["bip38", "wif"] "private_key_to_wif"),
   (["bip38", "wif"], "wif_to_private_key", .own ["bip38", "wif"] "wif_to_private_key"),
   (["bip38", "wif"], "get_wif_type", .own ["bip38", "wif"] "get_wif_type"),
   (["bip38", "wif"], "get_wif_checksum", .own ["bip38", "wif"] "get_wif_checksum"),
   (["bip38", "p2pkh_address"], "Any", .external ["typing"] "Any"),
   (["bip38", "p2pkh_address"], "Union", .external ["typing"] "Union"),
   (["bip38", "p2pkh_address"], "ensure_string", .own ["bip38", "libs", "base58"] "ensure_string"),
   (["bip38", "p2pkh_address"], "check_encode", .own ["bip38", "libs", "base58"] "check_encode"),
   (["bip38", "p2pkh_address"], "check_decode", .own ["bip38", "libs", "base58"] "check_decode"),
   (["bip38", "p2pkh_address"], "PublicKey", .own ["bip38", "secp256k1", "public_key"] "PublicKey"),
   (["bip38", "p2pkh_address"], "Bitcoin", .own ["bip38", "cryptocurrencies"] "Bitcoin"),
   (["bip38", "p2pkh_address"], "hash160", .own ["bip38", "crypto"] "hash160"),
   (["bip38", "p2pkh_address"], "AddressError", .own ["bip38", "exceptions"] "AddressError"),
   (["bip38", "p2pkh_address"], "get_bytes", .own ["bip38", "utils"] "get_bytes"),
   (["bip38", "p2pkh_address"], "integer_to_bytes", .own ["bip38", "utils"] "integer_to_bytes"),
   (["bip38", "p2pkh_address"], "bytes_to_string", .own ["bip38", "utils"] "bytes_to_string"),
   (["bip38", "p2pkh_address"], "P2PKHAddress", .own ["bip38", "p2pkh_address"] "P2PKHAddress"),
   (["bip38", "bip38"], "Type", .external ["typing"] "Type"),
   (["bip38", "bip38"], "Union", .external ["typing"] "Union"),
   (["bip38", "bip38"], "Optional", .external ["typing"] "Optional"),
   (["bip38", "bip38"], "Literal", .external ["typing"] "Literal"),
   (["bip38", "bip38"], "List", .external ["typing"] "List"),
   (["bip38", "bip38"], "AESModeOfOperationECB", .external ["pyaes"] "AESModeOfOperationECB"),
   (["bip38", "bip38"], "scrypt", .module "scrypt"),
   (["bip38", "bip38"], "unicodedata", .module "unicodedata"),
   (["bip38", "bip38"], "os", .module "os"),
   (["bip38", "bip38"], "ICryptocurrency", .own ["bip38", "cryptocurrencies"] "ICryptocurrency"),
   (["bip38", "bip38"], "Bitcoin", .own ["bip38", "cryptocurrencies"] "Bitcoin"),
   (["bip38", "bip38"], "encode", .own ["bip38", "libs", "base58"] "encode"),
   (["bip38", "bip38"], "check_encode", .own ["bip38", "libs", "base58"] "check_encode"),
   (["bip38", "bip38"], "decode", .own ["bip38", "libs", "base58"] "decode"),
   (["bip38", "bip38"], "check_decode", .own ["bip38", "libs", "base58"] "check_decode"),
   (["bip38", "bip38"], "ensure_string", .own ["bip38", "libs", "base58"] "ensure_string"),
   (["bip38", "bip38"], "PublicKey", .own ["bip38", "secp256k1", "public_key"] "PublicKey"),
   (["bip38", "bip38"], "PrivateKey", .own ["bip38", "secp256k1", "private_key"] "PrivateKey"),
   (["bip38", "bip38"], "P2PKHAddress", .own ["bip38", "p2pkh_address"] "P2PKHAddress"),
   (["bip38", "bip38"], "double_sha256", .own ["bip38", "crypto"] "double_sha256"),
   (["bip38", "bip38"], "get_checksum", .own ["bip38", "crypto"] "get_checksum"),
   (["bip38", "bip38"], "N", .own ["bip38", "const"] "N"),
   (["bip38", "bip38"], "MAGIC_LOT_AND_SEQUENCE", .own ["bip38", "const"] "MAGIC_LOT_AND_SEQUENCE"),
   (["bip38", "bip38"], "MAGIC_NO_LOT_AND_SEQUENCE", .own ["bip38", "const"] "MAGIC_NO_LOT_AND_SEQUENCE"),
   (["bip38", "bip38"], "NO_EC_MULTIPLIED_WIF_FLAG", .own ["bip38", "const"] "NO_EC_MULTIPLIED_WIF_FLAG"),
   (["bip38", "bip38"], "NO_EC_MULTIPLIED_WIF_COMPRESSED_FLAG", .own ["bip38", "const"] "NO_EC_MULTIPLIED_WIF_COMPRESSED_FLAG"),
   (["bip38", "bip38"], "NO_EC_MULTIPLIED_PRIVATE_KEY_PREFIX", .own ["bip38", "const"] "NO_EC_MULTIPLIED_PRIVATE_KEY_PREFIX"),
   (["bip38", "bip38"], "MAGIC_LOT_AND_SEQUENCE_UNCOMPRESSED_FLAG", .own ["bip38", "const"] "MAGIC_LOT_AND_SEQUENCE_UNCOMPRESSED_FLAG"),
   (["bip38", "bip38"], "MAGIC_LOT_AND_SEQUENCE_COMPRESSED_FLAG", .own ["bip38", "const"] "MAGIC_LOT_AND_SEQUENCE_COMPRESSED_FLAG"),
   (["bip38", "bip38"], "MAGIC_NO_LOT_AND_SEQUENCE_UNCOMPRESSED_FLAG", .own ["bip38", "const"] "MAGIC_NO_LOT_AND_SEQUENCE_UNCOMPRESSED_FLAG"),
   (["bip38", "bip38"], "MAGIC_NO_LOT_AND_SEQUENCE_COMPRESSED_FLAG", .own ["bip38", "const"] "MAGIC_NO_LOT_AND_SEQUENCE_COMPRESSED_FLAG"),
   (["bip38", "bip38"], "EC_MULTIPLIED_PRIVATE_KEY_PREFIX", .own ["bip38", "const"] "EC_MULTIPLIED_PRIVATE_KEY_PREFIX"),
   (["bip38", "bip38"], "CONFIRMATION_CODE_PREFIX", .own ["bip38", "const"] "CONFIRMATION_CODE_PREFIX"),
   (["bip38", "bip38"], "WIF_TYPES", .own ["bip38", "const"] "WIF_TYPES"),
   (["bip38", "bip38"], "FLAGS", .own ["bip38", "const"] "FLAGS"),
   (["bip38", "bip38"], "Error", .own ["bip38", "exceptions"] "Error"),
   (["bip38", "bip38"], "CryptocurrencyError", .own ["bip38", "exceptions"] "CryptocurrencyError"),
   (["bip38", "bip38"], "NetworkError", .own ["bip38", "exceptions"] "NetworkError"),
   (["bip38", "bip38"], "Secp256k1Error", .own ["bip38", "exceptions"] "Secp256k1Error"),
   (["bip38", "bip38"], "WIFError", .own ["bip38", "exceptions"] "WIFError"),
   (["bip38", "bip38"], "PassphraseError", .own ["bip38", "exceptions"] "PassphraseError"),
   (["bip38", "bip38"], "integer_to_bytes", .own ["bip38", "utils"] "integer_to_bytes"),
   (["bip38", "bip38"], "bytes_to_integer", .own ["bip38", "utils"] "bytes_to_integer"),
   (["bip38", "bip38"], "bytes_to_string", .own ["bip38", "utils"] "bytes_to_string"),
   (["bip38", "bip38"], "get_bytes", .own ["bip38", "utils"] "get_bytes"),
   (["bip38", "bip38"], "private_key_to_wif", .own ["bip38", "wif"] "private_key_to_wif"),
   (["bip38", "bip38"], "wif_to_private_key", .own ["bip38", "wif"] "wif_to_private_key"),
   (["bip38", "bip38"], "get_wif_type", .own ["bip38", "wif"] "get_wif_type"),
   (["bip38", "bip38"], "BIP38", .own ["bip38", "bip38"] "BIP38")]

end Bip38.Import
