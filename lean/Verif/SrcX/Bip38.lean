import Verif.SrcX.Wif
import Verif.SrcX.P2pkhAddress
import Verif.SrcX.PrivateKey
/-!
# `bip38/bip38.py` (generated by `tools/gen_src.py` and `tools/gen_sim.py`, do not edit)
-/
set_option linter.unusedVariables false
set_option linter.style.longLine false
namespace Bip38.SrcX

open Bip38.Src

/-- `bip38/bip38.py:76`: `raise CryptocurrencyError(` -/
def BIP38_init_L76 (H : Host) : Stmt := fun env =>
  sRaise (Error_str H) (eCall (Error_init H .cryptocurrencyError) [(eConst (.str "Invalid cryptocurrency sub-class".toList))] [(v!"expected", (eConst (.typing "typing.Type[bip38.cryptocurrencies.ICryptocurrency]".toList))), (v!"got", (eCall pyType [(eName v!"cryptocurrency")] []))]) env

/-- `bip38/bip38.py:75`: `if not issubclass(cryptocurrency, ICryptocurrency):` -/
def BIP38_init_L75 (H : Host) : Stmt := fun env =>
  sIf (eNot (eCall pyIssubclass [(eName v!"cryptocurrency"), (eConst (.coin .base))] [])) [BIP38_init_L76 H] [] env

/-- `bip38/bip38.py:79`: `self.cryptocurrency, self.networks = (` -/
def BIP38_init_L79 (H : Host) : Stmt := fun env =>
  sUnpack [.attr v!"self" v!"cryptocurrency", .attr v!"self" v!"networks"] (eTuple [(eName v!"cryptocurrency"), (eCall pyList [(eMethod [] mKeys (eAttr (eName v!"cryptocurrency") v!"NETWORKS") [] [])] [])]) env

/-- `bip38/bip38.py:83`: `raise NetworkError("Wrong network type", expected=self.networks, got=type(network))` -/
def BIP38_init_L83 (H : Host) : Stmt := fun env =>
  sRaise (Error_str H) (eCall (Error_init H .networkError) [(eConst (.str "Wrong network type".toList))] [(v!"expected", (eAttr (eName v!"self") v!"networks")), (v!"got", (eCall pyType [(eName v!"network")] []))]) env

/-- `bip38/bip38.py:82`: `if network not in self.networks:` -/
def BIP38_init_L82 (H : Host) : Stmt := fun env =>
  sIf (eCompare (eName v!"network") [(.notIn, (eAttr (eName v!"self") v!"networks"))]) [BIP38_init_L83 H] [] env

/-- `bip38/bip38.py:84`: `self.network, self.alphabet = network, (` -/
def BIP38_init_L84 (H : Host) : Stmt := fun env =>
  sUnpack [.attr v!"self" v!"network", .attr v!"self" v!"alphabet"] (eTuple [(eName v!"network"), (eIf (eAttr (eAttr (eName v!"self") v!"cryptocurrency") v!"ALPHABET") (eAttr (eAttr (eName v!"self") v!"cryptocurrency") v!"ALPHABET") (eAttr (eConst (.coin (.coin Coins.Bitcoin))) v!"ALPHABET"))]) env

/-- `bip38/bip38.py:71-88` `BIP38.__init__` -/
def BIP38_init (H : Host) : Fn :=
  defclass .BIP38 [⟨v!"cryptocurrency", none⟩, ⟨v!"network", some ((eConst (.str "mainnet".toList)) Env.empty)⟩]
    [BIP38_init_L75 H, BIP38_init_L79 H, BIP38_init_L82 H, BIP38_init_L84 H]

/-- `bip38/bip38.py:122`: `owner_salt: bytes = get_bytes(owner_salt) if owner_salt else os.urandom(8)` -/
def BIP38_intermediate_code_L122 (H : Host) : Stmt := fun env =>
  sAssign (.name v!"owner_salt") (eIf (eName v!"owner_salt") (eCall (utils_get_bytes H) [(eName v!"owner_salt")] []) (eCall (xUrandom H) [(eConst (.int 8))] [])) env

/-- `bip38/bip38.py:124`: `raise Error("Invalid owner salt length", expected=[8, 16], got=len(bytes_to_string(owner_salt)))` -/
def BIP38_intermediate_code_L124 (H : Host) : Stmt := fun env =>
  sRaise (Error_str H) (eCall (Error_init H .error) [(eConst (.str "Invalid owner salt length".toList))] [(v!"expected", (eList [(eConst (.int 8)), (eConst (.int 16))])), (v!"got", (eCall pyLen [(eCall (utils_bytes_to_string H) [(eName v!"owner_salt")] [])] []))]) env

/-- `bip38/bip38.py:123`: `if len(owner_salt) not in [4, 8]:` -/
def BIP38_intermediate_code_L123 (H : Host) : Stmt := fun env =>
  sIf (eCompare (eCall pyLen [(eName v!"owner_salt")] []) [(.notIn, (eList [(eConst (.int 4)), (eConst (.int 8))]))]) [BIP38_intermediate_code_L124 H] [] env

/-- `bip38/bip38.py:126`: `raise Error("Invalid owner salt length for non lot/sequence", expected=16, got=len(bytes_to_string(owner_salt)))` -/
def BIP38_intermediate_code_L126 (H : Host) : Stmt := fun env =>
  sRaise (Error_str H) (eCall (Error_init H .error) [(eConst (.str "Invalid owner salt length for non lot/sequence".toList))] [(v!"expected", (eConst (.int 16))), (v!"got", (eCall pyLen [(eCall (utils_bytes_to_string H) [(eName v!"owner_salt")] [])] []))]) env

/-- `bip38/bip38.py:125`: `if len(owner_salt) == 4 and (lot is None or sequence is None):` -/
def BIP38_intermediate_code_L125 (H : Host) : Stmt := fun env =>
  sIf (eAnd (eCompare (eCall pyLen [(eName v!"owner_salt")] []) [(.eq, (eConst (.int 4)))]) (eOr (eCompare (eName v!"lot") [(.isNone, (eConst .none))]) (eCompare (eName v!"sequence") [(.isNone, (eConst .none))]))) [BIP38_intermediate_code_L126 H] [] env

/-- `bip38/bip38.py:128`: `raise Error("Both lot & sequence are required", detail=f"got: (lot {lot}) & (sequence {sequence})")` -/
def BIP38_intermediate_code_L128 (H : Host) : Stmt := fun env =>
  sRaise (Error_str H) (eCall (Error_init H .error) [(eConst (.str "Both lot & sequence are required".toList))] [(v!"detail", (eFormat [.lit "got: (lot ", .val (eName v!"lot"), .lit ") & (sequence ", .val (eName v!"sequence"), .lit ")"]))]) env

/-- `bip38/bip38.py:127`: `if (lot and sequence is None) or (lot is None and sequence):` -/
def BIP38_intermediate_code_L127 (H : Host) : Stmt := fun env =>
  sIf (eOr (eAnd (eName v!"lot") (eCompare (eName v!"sequence") [(.isNone, (eConst .none))])) (eAnd (eCompare (eName v!"lot") [(.isNone, (eConst .none))]) (eName v!"sequence"))) [BIP38_intermediate_code_L128 H] [] env

/-- `bip38/bip38.py:131`: `lot, sequence = int(lot), int(sequence)` -/
def BIP38_intermediate_code_L131 (H : Host) : Stmt := fun env =>
  sUnpack [.name v!"lot", .name v!"sequence"] (eTuple [(eCall (pyInt H) [(eName v!"lot")] []), (eCall (pyInt H) [(eName v!"sequence")] [])]) env

/-- `bip38/bip38.py:133`: `raise Error("Invalid lot", expected="100000 <= lot <= 999999", got=lot)` -/
def BIP38_intermediate_code_L133 (H : Host) : Stmt := fun env =>
  sRaise (Error_str H) (eCall (Error_init H .error) [(eConst (.str "Invalid lot".toList))] [(v!"expected", (eConst (.str "100000 <= lot <= 999999".toList))), (v!"got", (eName v!"lot"))]) env

/-- `bip38/bip38.py:132`: `if not 100000 <= lot <= 999999:` -/
def BIP38_intermediate_code_L132 (H : Host) : Stmt := fun env =>
  sIf (eNot (eCompare (eConst (.int 100000)) [(.le, (eName v!"lot")), (.le, (eConst (.int 999999)))])) [BIP38_intermediate_code_L133 H] [] env

/-- `bip38/bip38.py:135`: `raise Error("Invalid sequence", expected="0 <= sequence <= 4095", got=sequence)` -/
def BIP38_intermediate_code_L135 (H : Host) : Stmt := fun env =>
  sRaise (Error_str H) (eCall (Error_init H .error) [(eConst (.str "Invalid sequence".toList))] [(v!"expected", (eConst (.str "0 <= sequence <= 4095".toList))), (v!"got", (eName v!"sequence"))]) env

/-- `bip38/bip38.py:134`: `if not 0 <= sequence <= 4095:` -/
def BIP38_intermediate_code_L134 (H : Host) : Stmt := fun env =>
  sIf (eNot (eCompare (eConst (.int 0)) [(.le, (eName v!"sequence")), (.le, (eConst (.int 4095)))])) [BIP38_intermediate_code_L135 H] [] env

/-- `bip38/bip38.py:137`: `pre_factor: bytes = scrypt.hash(unicodedata.normalize("NFC", passphrase), owner_salt[:4], 16384, 8, 8, 32)` -/
def BIP38_intermediate_code_L137 (H : Host) : Stmt := fun env =>
  sAssign (.name v!"pre_factor") (eCall (xScrypt H) [(eCall (xNormalize H) [(eConst (.str "NFC".toList)), (eName v!"passphrase")] []), (eSlice (eName v!"owner_salt") none (some (eConst (.int 4)))), (eConst (.int 16384)), (eConst (.int 8)), (eConst (.int 8)), (eConst (.int 32))] []) env

/-- `bip38/bip38.py:138`: `owner_entropy: bytes = owner_salt[:4] + integer_to_bytes((lot * 4096 + sequence), 4)` -/
def BIP38_intermediate_code_L138 (H : Host) : Stmt := fun env =>
  sAssign (.name v!"owner_entropy") (eBin [(.Point, Point_add H)] [(.Point, Point_radd H)] .add (eSlice (eName v!"owner_salt") none (some (eConst (.int 4)))) (eCall (utils_integer_to_bytes H) [(eBin [(.Point, Point_add H)] [(.Point, Point_radd H)] .add (eBin [(.Point, Point_mul H)] [(.Point, Point_rmul H)] .mul (eName v!"lot") (eConst (.int 4096))) (eName v!"sequence")), (eConst (.int 4))] [])) env

/-- `bip38/bip38.py:139`: `pass_factor: bytes = double_sha256(pre_factor + owner_entropy)` -/
def BIP38_intermediate_code_L139 (H : Host) : Stmt := fun env =>
  sAssign (.name v!"pass_factor") (eCall (crypto_double_sha256 H) [(eBin [(.Point, Point_add H)] [(.Point, Point_radd H)] .add (eName v!"pre_factor") (eName v!"owner_entropy"))] []) env

/-- `bip38/bip38.py:140`: `magic: bytes = integer_to_bytes(MAGIC_LOT_AND_SEQUENCE)` -/
def BIP38_intermediate_code_L140 (H : Host) : Stmt := fun env =>
  sAssign (.name v!"magic") (eCall (utils_integer_to_bytes H) [(eGlobal (const_MAGIC_LOT_AND_SEQUENCE H))] []) env

/-- `bip38/bip38.py:142`: `pass_factor: bytes = scrypt.hash(unicodedata.normalize("NFC", passphrase), owner_salt, 16384, 8, 8, 32)` -/
def BIP38_intermediate_code_L142 (H : Host) : Stmt := fun env =>
  sAssign (.name v!"pass_factor") (eCall (xScrypt H) [(eCall (xNormalize H) [(eConst (.str "NFC".toList)), (eName v!"passphrase")] []), (eName v!"owner_salt"), (eConst (.int 16384)), (eConst (.int 8)), (eConst (.int 8)), (eConst (.int 32))] []) env

/-- `bip38/bip38.py:143`: `magic: bytes = integer_to_bytes(MAGIC_NO_LOT_AND_SEQUENCE)` -/
def BIP38_intermediate_code_L143 (H : Host) : Stmt := fun env =>
  sAssign (.name v!"magic") (eCall (utils_integer_to_bytes H) [(eGlobal (const_MAGIC_NO_LOT_AND_SEQUENCE H))] []) env

/-- `bip38/bip38.py:144`: `owner_entropy: bytes = owner_salt` -/
def BIP38_intermediate_code_L144 (H : Host) : Stmt := fun env =>
  sAssign (.name v!"owner_entropy") (eName v!"owner_salt") env

/-- `bip38/bip38.py:130`: `if lot and sequence:` -/
def BIP38_intermediate_code_L130 (H : Host) : Stmt := fun env =>
  sIf (eAnd (eName v!"lot") (eName v!"sequence")) [BIP38_intermediate_code_L131 H, BIP38_intermediate_code_L132 H, BIP38_intermediate_code_L134 H, BIP38_intermediate_code_L137 H, BIP38_intermediate_code_L138 H, BIP38_intermediate_code_L139 H, BIP38_intermediate_code_L140 H] [BIP38_intermediate_code_L142 H, BIP38_intermediate_code_L143 H, BIP38_intermediate_code_L144 H] env

/-- `bip38/bip38.py:146`: `pass_point: PublicKey = PrivateKey.from_bytes(` -/
def BIP38_intermediate_code_L146 (H : Host) : Stmt := fun env =>
  sAssign (.name v!"pass_point") (eMethod [(.PrivateKey, PrivateKey_public_key H)] noMethod (eCall (PrivateKey_from_bytes H) [] [(v!"private_key", (eName v!"pass_factor"))]) [] []) env

/-- `bip38/bip38.py:149`: `return ensure_string(check_encode(` -/
def BIP38_intermediate_code_L149 (H : Host) : Stmt := fun env =>
  sReturn (eCall (base58_ensure_string H) [(eCall (base58_check_encode H) [(eBin [(.Point, Point_add H)] [(.Point, Point_radd H)] .add (eBin [(.Point, Point_add H)] [(.Point, Point_radd H)] .add (eName v!"magic") (eName v!"owner_entropy")) (eMethod [(.PublicKey, PublicKey_raw_compressed H)] noMethod (eName v!"pass_point") [] []))] [])] []) env

/-- `bip38/bip38.py:91-151` `BIP38.intermediate_code` -/
def BIP38_intermediate_code (H : Host) : Fn :=
  defun [⟨v!"passphrase", none⟩, ⟨v!"lot", some ((eConst .none) Env.empty)⟩, ⟨v!"sequence", some ((eConst .none) Env.empty)⟩, ⟨v!"owner_salt", some ((eConst .none) Env.empty)⟩] none
    [BIP38_intermediate_code_L122 H, BIP38_intermediate_code_L123 H, BIP38_intermediate_code_L125 H, BIP38_intermediate_code_L127 H, BIP38_intermediate_code_L130 H, BIP38_intermediate_code_L146 H, BIP38_intermediate_code_L149 H]

/-- `bip38/bip38.py:180`: `network: str = (` -/
def BIP38_encrypt_L180 (H : Host) : Stmt := fun env =>
  sAssign (.name v!"network") (eIf (eName v!"network") (eName v!"network") (eAttr (eName v!"self") v!"network")) env

/-- `bip38/bip38.py:184`: `raise NetworkError("Wrong network type", expected=self.networks, got=type(network))` -/
def BIP38_encrypt_L184 (H : Host) : Stmt := fun env =>
  sRaise (Error_str H) (eCall (Error_init H .networkError) [(eConst (.str "Wrong network type".toList))] [(v!"expected", (eAttr (eName v!"self") v!"networks")), (v!"got", (eCall pyType [(eName v!"network")] []))]) env

/-- `bip38/bip38.py:183`: `if network not in self.networks:` -/
def BIP38_encrypt_L183 (H : Host) : Stmt := fun env =>
  sIf (eCompare (eName v!"network") [(.notIn, (eAttr (eName v!"self") v!"networks"))]) [BIP38_encrypt_L184 H] [] env

/-- `bip38/bip38.py:185`: `wif_type: str = get_wif_type(` -/
def BIP38_encrypt_L185 (H : Host) : Stmt := fun env =>
  sAssign (.name v!"wif_type") (eCall (wif_get_wif_type H) [] [(v!"wif", (eName v!"wif")), (v!"cryptocurrency", (eAttr (eName v!"self") v!"cryptocurrency")), (v!"network", (eName v!"network"))]) env

/-- `bip38/bip38.py:189`: `flag: bytes = integer_to_bytes(NO_EC_MULTIPLIED_WIF_FLAG)` -/
def BIP38_encrypt_L189 (H : Host) : Stmt := fun env =>
  sAssign (.name v!"flag") (eCall (utils_integer_to_bytes H) [(eGlobal (const_NO_EC_MULTIPLIED_WIF_FLAG H))] []) env

/-- `bip38/bip38.py:190`: `private_key: PrivateKey = PrivateKey.from_bytes(get_bytes(wif_to_private_key(` -/
def BIP38_encrypt_L190 (H : Host) : Stmt := fun env =>
  sAssign (.name v!"private_key") (eCall (PrivateKey_from_bytes H) [(eCall (utils_get_bytes H) [(eCall (wif_wif_to_private_key H) [] [(v!"wif", (eName v!"wif")), (v!"cryptocurrency", (eAttr (eName v!"self") v!"cryptocurrency")), (v!"network", (eName v!"network"))])] [])] []) env

/-- `bip38/bip38.py:193`: `public_key_type: str = "uncompressed"` -/
def BIP38_encrypt_L193 (H : Host) : Stmt := fun env =>
  sAssign (.name v!"public_key_type") (eConst (.str "uncompressed".toList)) env

/-- `bip38/bip38.py:195`: `flag: bytes = integer_to_bytes(NO_EC_MULTIPLIED_WIF_COMPRESSED_FLAG)` -/
def BIP38_encrypt_L195 (H : Host) : Stmt := fun env =>
  sAssign (.name v!"flag") (eCall (utils_integer_to_bytes H) [(eGlobal (const_NO_EC_MULTIPLIED_WIF_COMPRESSED_FLAG H))] []) env

/-- `bip38/bip38.py:196`: `private_key: PrivateKey = PrivateKey.from_bytes(get_bytes(wif_to_private_key(` -/
def BIP38_encrypt_L196 (H : Host) : Stmt := fun env =>
  sAssign (.name v!"private_key") (eCall (PrivateKey_from_bytes H) [(eCall (utils_get_bytes H) [(eCall (wif_wif_to_private_key H) [] [(v!"wif", (eName v!"wif")), (v!"cryptocurrency", (eAttr (eName v!"self") v!"cryptocurrency")), (v!"network", (eName v!"network"))])] [])] []) env

/-- `bip38/bip38.py:199`: `public_key_type: str = "compressed"` -/
def BIP38_encrypt_L199 (H : Host) : Stmt := fun env =>
  sAssign (.name v!"public_key_type") (eConst (.str "compressed".toList)) env

/-- `bip38/bip38.py:188`: `if wif_type == "wif":` -/
def BIP38_encrypt_L188 (H : Host) : Stmt := fun env =>
  sIf (eCompare (eName v!"wif_type") [(.eq, (eConst (.str "wif".toList)))]) [BIP38_encrypt_L189 H, BIP38_encrypt_L190 H, BIP38_encrypt_L193 H] [BIP38_encrypt_L195 H, BIP38_encrypt_L196 H, BIP38_encrypt_L199 H] env

/-- `bip38/bip38.py:201`: `address: str = P2PKHAddress.encode(` -/
def BIP38_encrypt_L201 (H : Host) : Stmt := fun env =>
  sAssign (.name v!"address") (eCall (P2PKHAddress_encode H) [] [(v!"public_key", (eMethod [(.PrivateKey, PrivateKey_public_key H)] noMethod (eName v!"private_key") [] [])), (v!"address_prefix", (eIndex (eIndex (eAttr (eAttr (eName v!"self") v!"cryptocurrency") v!"NETWORKS") (eName v!"network")) (eConst (.str "address_prefix".toList)))), (v!"public_key_type", (eName v!"public_key_type"))]) env

/-- `bip38/bip38.py:206`: `address_hash: bytes = get_checksum(get_bytes(address, unhexlify=False))` -/
def BIP38_encrypt_L206 (H : Host) : Stmt := fun env =>
  sAssign (.name v!"address_hash") (eCall (crypto_get_checksum H) [(eCall (utils_get_bytes H) [(eName v!"address")] [(v!"unhexlify", (eConst (.bool false)))])] []) env

/-- `bip38/bip38.py:207`: `key: bytes = scrypt.hash(unicodedata.normalize("NFC", passphrase), address_hash, 16384, 8, 8)` -/
def BIP38_encrypt_L207 (H : Host) : Stmt := fun env =>
  sAssign (.name v!"key") (eCall (xScrypt H) [(eCall (xNormalize H) [(eConst (.str "NFC".toList)), (eName v!"passphrase")] []), (eName v!"address_hash"), (eConst (.int 16384)), (eConst (.int 8)), (eConst (.int 8))] []) env

/-- `bip38/bip38.py:208`: `derived_half_1, derived_half_2 = key[0:32], key[32:64]` -/
def BIP38_encrypt_L208 (H : Host) : Stmt := fun env =>
  sUnpack [.name v!"derived_half_1", .name v!"derived_half_2"] (eTuple [(eSlice (eName v!"key") (some (eConst (.int 0))) (some (eConst (.int 32)))), (eSlice (eName v!"key") (some (eConst (.int 32))) (some (eConst (.int 64))))]) env

/-- `bip38/bip38.py:210`: `aes: AESModeOfOperationECB = AESModeOfOperationECB(derived_half_2)` -/
def BIP38_encrypt_L210 (H : Host) : Stmt := fun env =>
  sAssign (.name v!"aes") (eCall xAes [(eName v!"derived_half_2")] []) env

/-- `bip38/bip38.py:211`: `encrypted_half_1: bytes = aes.encrypt(integer_to_bytes(` -/
def BIP38_encrypt_L211 (H : Host) : Stmt := fun env =>
  sAssign (.name v!"encrypted_half_1") (eMethod [] (mEncrypt H) (eName v!"aes") [(eCall (utils_integer_to_bytes H) [(eBin [] [] .xor (eCall (utils_bytes_to_integer H) [(eSlice (eMethod [(.Point, Point_raw H), (.PublicKey, PublicKey_raw H), (.PrivateKey, PrivateKey_raw H)] noMethod (eName v!"private_key") [] []) (some (eConst (.int 0))) (some (eConst (.int 16))))] []) (eCall (utils_bytes_to_integer H) [(eSlice (eName v!"derived_half_1") (some (eConst (.int 0))) (some (eConst (.int 16))))] []))] [])] []) env

/-- `bip38/bip38.py:214`: `encrypted_half_2: bytes = aes.encrypt(integer_to_bytes(` -/
def BIP38_encrypt_L214 (H : Host) : Stmt := fun env =>
  sAssign (.name v!"encrypted_half_2") (eMethod [] (mEncrypt H) (eName v!"aes") [(eCall (utils_integer_to_bytes H) [(eBin [] [] .xor (eCall (utils_bytes_to_integer H) [(eSlice (eMethod [(.Point, Point_raw H), (.PublicKey, PublicKey_raw H), (.PrivateKey, PrivateKey_raw H)] noMethod (eName v!"private_key") [] []) (some (eConst (.int 16))) (some (eConst (.int 32))))] []) (eCall (utils_bytes_to_integer H) [(eSlice (eName v!"derived_half_1") (some (eConst (.int 16))) (some (eConst (.int 32))))] []))] [])] []) env

/-- `bip38/bip38.py:218`: `encrypted_private_key: bytes = (` -/
def BIP38_encrypt_L218 (H : Host) : Stmt := fun env =>
  sAssign (.name v!"encrypted_private_key") (eBin [(.Point, Point_add H)] [(.Point, Point_radd H)] .add (eBin [(.Point, Point_add H)] [(.Point, Point_radd H)] .add (eBin [(.Point, Point_add H)] [(.Point, Point_radd H)] .add (eBin [(.Point, Point_add H)] [(.Point, Point_radd H)] .add (eCall (utils_integer_to_bytes H) [(eGlobal (const_NO_EC_MULTIPLIED_PRIVATE_KEY_PREFIX H))] []) (eName v!"flag")) (eName v!"address_hash")) (eName v!"encrypted_half_1")) (eName v!"encrypted_half_2")) env

/-- `bip38/bip38.py:223`: `return ensure_string(encode(` -/
def BIP38_encrypt_L223 (H : Host) : Stmt := fun env =>
  sReturn (eCall (base58_ensure_string H) [(eCall (base58_encode H) [(eBin [(.Point, Point_add H)] [(.Point, Point_radd H)] .add (eName v!"encrypted_private_key") (eCall (crypto_get_checksum H) [(eName v!"encrypted_private_key")] []))] [])] []) env

/-- `bip38/bip38.py:153-225` `BIP38.encrypt` -/
def BIP38_encrypt (H : Host) : Fn :=
  defun [⟨v!"self", none⟩, ⟨v!"wif", none⟩, ⟨v!"passphrase", none⟩, ⟨v!"network", some ((eConst .none) Env.empty)⟩] none
    [BIP38_encrypt_L180 H, BIP38_encrypt_L183 H, BIP38_encrypt_L185 H, BIP38_encrypt_L188 H, BIP38_encrypt_L201 H, BIP38_encrypt_L206 H, BIP38_encrypt_L207 H, BIP38_encrypt_L208 H, BIP38_encrypt_L210 H, BIP38_encrypt_L211 H, BIP38_encrypt_L214 H, BIP38_encrypt_L218 H, BIP38_encrypt_L223 H]

/-- `bip38/bip38.py:258`: `network: str = (` -/
def BIP38_create_new_encrypted_wif_L258 (H : Host) : Stmt := fun env =>
  sAssign (.name v!"network") (eIf (eName v!"network") (eName v!"network") (eAttr (eName v!"self") v!"network")) env

/-- `bip38/bip38.py:262`: `raise NetworkError("Wrong network type", expected=self.networks, got=type(network))` -/
def BIP38_create_new_encrypted_wif_L262 (H : Host) : Stmt := fun env =>
  sRaise (Error_str H) (eCall (Error_init H .networkError) [(eConst (.str "Wrong network type".toList))] [(v!"expected", (eAttr (eName v!"self") v!"networks")), (v!"got", (eCall pyType [(eName v!"network")] []))]) env

/-- `bip38/bip38.py:261`: `if network not in self.networks:` -/
def BIP38_create_new_encrypted_wif_L261 (H : Host) : Stmt := fun env =>
  sIf (eCompare (eName v!"network") [(.notIn, (eAttr (eName v!"self") v!"networks"))]) [BIP38_create_new_encrypted_wif_L262 H] [] env

/-- `bip38/bip38.py:263`: `seed_b: bytes = get_bytes(seed) if seed else os.urandom(24)` -/
def BIP38_create_new_encrypted_wif_L263 (H : Host) : Stmt := fun env =>
  sAssign (.name v!"seed_b") (eIf (eName v!"seed") (eCall (utils_get_bytes H) [(eName v!"seed")] []) (eCall (xUrandom H) [(eConst (.int 24))] [])) env

/-- `bip38/bip38.py:265`: `intermediate_decode: bytes = check_decode(intermediate_passphrase)` -/
def BIP38_create_new_encrypted_wif_L265 (H : Host) : Stmt := fun env =>
  sAssign (.name v!"intermediate_decode") (eCall (base58_check_decode H) [(eName v!"intermediate_passphrase")] []) env

/-- `bip38/bip38.py:267`: `raise PassphraseError("Invalid intermediate passphrase")` -/
def BIP38_create_new_encrypted_wif_L267 (H : Host) : Stmt := fun env =>
  sRaise (Error_str H) (eCall (Error_init H .passphraseError) [(eConst (.str "Invalid intermediate passphrase".toList))] []) env

/-- `bip38/bip38.py:264`: `try:` -/
def BIP38_create_new_encrypted_wif_L264 (H : Host) : Stmt := fun env =>
  sTry [v!"intermediate_decode"] [BIP38_create_new_encrypted_wif_L265 H] [([.valueError], [BIP38_create_new_encrypted_wif_L267 H])] env

/-- `bip38/bip38.py:269`: `raise PassphraseError("Invalid intermediate passphrase length", expected=49, got=len(intermediate_decode))` -/
def BIP38_create_new_encrypted_wif_L269 (H : Host) : Stmt := fun env =>
  sRaise (Error_str H) (eCall (Error_init H .passphraseError) [(eConst (.str "Invalid intermediate passphrase length".toList))] [(v!"expected", (eConst (.int 49))), (v!"got", (eCall pyLen [(eName v!"intermediate_decode")] []))]) env

/-- `bip38/bip38.py:268`: `if len(intermediate_decode) != 49:` -/
def BIP38_create_new_encrypted_wif_L268 (H : Host) : Stmt := fun env =>
  sIf (eCompare (eCall pyLen [(eName v!"intermediate_decode")] []) [(.ne, (eConst (.int 49)))]) [BIP38_create_new_encrypted_wif_L269 H] [] env

/-- `bip38/bip38.py:271`: `magic: bytes = intermediate_decode[:8]` -/
def BIP38_create_new_encrypted_wif_L271 (H : Host) : Stmt := fun env =>
  sAssign (.name v!"magic") (eSlice (eName v!"intermediate_decode") none (some (eConst (.int 8)))) env

/-- `bip38/bip38.py:272`: `owner_entropy: bytes = intermediate_decode[8:16]` -/
def BIP38_create_new_encrypted_wif_L272 (H : Host) : Stmt := fun env =>
  sAssign (.name v!"owner_entropy") (eSlice (eName v!"intermediate_decode") (some (eConst (.int 8))) (some (eConst (.int 16)))) env

/-- `bip38/bip38.py:273`: `pass_point: bytes = intermediate_decode[16:]` -/
def BIP38_create_new_encrypted_wif_L273 (H : Host) : Stmt := fun env =>
  sAssign (.name v!"pass_point") (eSlice (eName v!"intermediate_decode") (some (eConst (.int 16))) none) env

/-- `bip38/bip38.py:276`: `public_key_type = "uncompressed"` -/
def BIP38_create_new_encrypted_wif_L276 (H : Host) : Stmt := fun env =>
  sAssign (.name v!"public_key_type") (eConst (.str "uncompressed".toList)) env

/-- `bip38/bip38.py:278`: `public_key_type = "compressed"` -/
def BIP38_create_new_encrypted_wif_L278 (H : Host) : Stmt := fun env =>
  sAssign (.name v!"public_key_type") (eConst (.str "compressed".toList)) env

/-- `bip38/bip38.py:280`: `raise WIFError("Invalid wif type", expected=WIF_TYPES, got=wif_type)` -/
def BIP38_create_new_encrypted_wif_L280 (H : Host) : Stmt := fun env =>
  sRaise (Error_str H) (eCall (Error_init H .wifError) [(eConst (.str "Invalid wif type".toList))] [(v!"expected", (eGlobal (const_WIF_TYPES H))), (v!"got", (eName v!"wif_type"))]) env

/-- `bip38/bip38.py:277`: `elif wif_type == "wif-compressed":` -/
def BIP38_create_new_encrypted_wif_L277 (H : Host) : Stmt := fun env =>
  sIf (eCompare (eName v!"wif_type") [(.eq, (eConst (.str "wif-compressed".toList)))]) [BIP38_create_new_encrypted_wif_L278 H] [BIP38_create_new_encrypted_wif_L280 H] env

/-- `bip38/bip38.py:275`: `if wif_type == "wif":` -/
def BIP38_create_new_encrypted_wif_L275 (H : Host) : Stmt := fun env =>
  sIf (eCompare (eName v!"wif_type") [(.eq, (eConst (.str "wif".toList)))]) [BIP38_create_new_encrypted_wif_L276 H] [BIP38_create_new_encrypted_wif_L277 H] env

/-- `bip38/bip38.py:284`: `flag: bytes = integer_to_bytes(MAGIC_LOT_AND_SEQUENCE_UNCOMPRESSED_FLAG)` -/
def BIP38_create_new_encrypted_wif_L284 (H : Host) : Stmt := fun env =>
  sAssign (.name v!"flag") (eCall (utils_integer_to_bytes H) [(eGlobal (const_MAGIC_LOT_AND_SEQUENCE_UNCOMPRESSED_FLAG H))] []) env

/-- `bip38/bip38.py:286`: `flag: bytes = integer_to_bytes(MAGIC_LOT_AND_SEQUENCE_COMPRESSED_FLAG)` -/
def BIP38_create_new_encrypted_wif_L286 (H : Host) : Stmt := fun env =>
  sAssign (.name v!"flag") (eCall (utils_integer_to_bytes H) [(eGlobal (const_MAGIC_LOT_AND_SEQUENCE_COMPRESSED_FLAG H))] []) env

/-- `bip38/bip38.py:283`: `if public_key_type == "uncompressed":` -/
def BIP38_create_new_encrypted_wif_L283 (H : Host) : Stmt := fun env =>
  sIf (eCompare (eName v!"public_key_type") [(.eq, (eConst (.str "uncompressed".toList)))]) [BIP38_create_new_encrypted_wif_L284 H] [BIP38_create_new_encrypted_wif_L286 H] env

/-- `bip38/bip38.py:289`: `flag: bytes = integer_to_bytes(MAGIC_NO_LOT_AND_SEQUENCE_UNCOMPRESSED_FLAG)` -/
def BIP38_create_new_encrypted_wif_L289 (H : Host) : Stmt := fun env =>
  sAssign (.name v!"flag") (eCall (utils_integer_to_bytes H) [(eGlobal (const_MAGIC_NO_LOT_AND_SEQUENCE_UNCOMPRESSED_FLAG H))] []) env

/-- `bip38/bip38.py:291`: `flag: bytes = integer_to_bytes(MAGIC_NO_LOT_AND_SEQUENCE_COMPRESSED_FLAG)` -/
def BIP38_create_new_encrypted_wif_L291 (H : Host) : Stmt := fun env =>
  sAssign (.name v!"flag") (eCall (utils_integer_to_bytes H) [(eGlobal (const_MAGIC_NO_LOT_AND_SEQUENCE_COMPRESSED_FLAG H))] []) env

/-- `bip38/bip38.py:288`: `if public_key_type == "uncompressed":` -/
def BIP38_create_new_encrypted_wif_L288 (H : Host) : Stmt := fun env =>
  sIf (eCompare (eName v!"public_key_type") [(.eq, (eConst (.str "uncompressed".toList)))]) [BIP38_create_new_encrypted_wif_L289 H] [BIP38_create_new_encrypted_wif_L291 H] env

/-- `bip38/bip38.py:293`: `raise Error(` -/
def BIP38_create_new_encrypted_wif_L293 (H : Host) : Stmt := fun env =>
  sRaise (Error_str H) (eCall (Error_init H .error) [(eConst (.str "Invalid magic".toList))] [(v!"expected", (eList [(eCall (utils_bytes_to_string H) [(eCall (utils_integer_to_bytes H) [(eGlobal (const_MAGIC_LOT_AND_SEQUENCE H))] [])] []), (eCall (utils_bytes_to_string H) [(eCall (utils_integer_to_bytes H) [(eGlobal (const_MAGIC_NO_LOT_AND_SEQUENCE H))] [])] [])])), (v!"got", (eCall (utils_bytes_to_string H) [(eName v!"magic")] []))]) env

/-- `bip38/bip38.py:287`: `elif magic == integer_to_bytes(MAGIC_NO_LOT_AND_SEQUENCE):` -/
def BIP38_create_new_encrypted_wif_L287 (H : Host) : Stmt := fun env =>
  sIf (eCompare (eName v!"magic") [(.eq, (eCall (utils_integer_to_bytes H) [(eGlobal (const_MAGIC_NO_LOT_AND_SEQUENCE H))] []))]) [BIP38_create_new_encrypted_wif_L288 H] [BIP38_create_new_encrypted_wif_L293 H] env

/-- `bip38/bip38.py:282`: `if magic == integer_to_bytes(MAGIC_LOT_AND_SEQUENCE):` -/
def BIP38_create_new_encrypted_wif_L282 (H : Host) : Stmt := fun env =>
  sIf (eCompare (eName v!"magic") [(.eq, (eCall (utils_integer_to_bytes H) [(eGlobal (const_MAGIC_LOT_AND_SEQUENCE H))] []))]) [BIP38_create_new_encrypted_wif_L283 H] [BIP38_create_new_encrypted_wif_L287 H] env

/-- `bip38/bip38.py:300`: `factor_b: bytes = double_sha256(seed_b)` -/
def BIP38_create_new_encrypted_wif_L300 (H : Host) : Stmt := fun env =>
  sAssign (.name v!"factor_b") (eCall (crypto_double_sha256 H) [(eName v!"seed_b")] []) env

/-- `bip38/bip38.py:302`: `raise Error("Invalid EC encrypted WIF (Wallet Import Format)")` -/
def BIP38_create_new_encrypted_wif_L302 (H : Host) : Stmt := fun env =>
  sRaise (Error_str H) (eCall (Error_init H .error) [(eConst (.str "Invalid EC encrypted WIF (Wallet Import Format)".toList))] []) env

/-- `bip38/bip38.py:301`: `if not 0 < bytes_to_integer(factor_b) < N:` -/
def BIP38_create_new_encrypted_wif_L301 (H : Host) : Stmt := fun env =>
  sIf (eNot (eCompare (eConst (.int 0)) [(.lt, (eCall (utils_bytes_to_integer H) [(eName v!"factor_b")] [])), (.lt, (eGlobal (const_N H)))])) [BIP38_create_new_encrypted_wif_L302 H] [] env

/-- `bip38/bip38.py:304`: `public_key: PublicKey = PublicKey.from_point(` -/
def BIP38_create_new_encrypted_wif_L304 (H : Host) : Stmt := fun env =>
  sAssign (.name v!"public_key") (eCall (PublicKey_from_point H) [(eBin [(.Point, Point_mul H)] [(.Point, Point_rmul H)] .mul (eMethod [(.PublicKey, PublicKey_point H)] noMethod (eCall (PublicKey_from_bytes H) [(eName v!"pass_point")] []) [] []) (eCall (utils_bytes_to_integer H) [(eName v!"factor_b")] []))] []) env

/-- `bip38/bip38.py:307`: `address: str = P2PKHAddress.encode(` -/
def BIP38_create_new_encrypted_wif_L307 (H : Host) : Stmt := fun env =>
  sAssign (.name v!"address") (eCall (P2PKHAddress_encode H) [] [(v!"public_key", (eName v!"public_key")), (v!"address_prefix", (eIndex (eIndex (eAttr (eAttr (eName v!"self") v!"cryptocurrency") v!"NETWORKS") (eName v!"network")) (eConst (.str "address_prefix".toList)))), (v!"public_key_type", (eName v!"public_key_type"))]) env

/-- `bip38/bip38.py:312`: `address_hash: bytes = get_checksum(get_bytes(address, unhexlify=False))` -/
def BIP38_create_new_encrypted_wif_L312 (H : Host) : Stmt := fun env =>
  sAssign (.name v!"address_hash") (eCall (crypto_get_checksum H) [(eCall (utils_get_bytes H) [(eName v!"address")] [(v!"unhexlify", (eConst (.bool false)))])] []) env

/-- `bip38/bip38.py:313`: `salt: bytes = address_hash + owner_entropy` -/
def BIP38_create_new_encrypted_wif_L313 (H : Host) : Stmt := fun env =>
  sAssign (.name v!"salt") (eBin [(.Point, Point_add H)] [(.Point, Point_radd H)] .add (eName v!"address_hash") (eName v!"owner_entropy")) env

/-- `bip38/bip38.py:314`: `scrypt_hash: bytes = scrypt.hash(pass_point, salt, 1024, 1, 1, 64)` -/
def BIP38_create_new_encrypted_wif_L314 (H : Host) : Stmt := fun env =>
  sAssign (.name v!"scrypt_hash") (eCall (xScrypt H) [(eName v!"pass_point"), (eName v!"salt"), (eConst (.int 1024)), (eConst (.int 1)), (eConst (.int 1)), (eConst (.int 64))] []) env

/-- `bip38/bip38.py:315`: `derived_half_1, derived_half_2, key = scrypt_hash[:16], scrypt_hash[16:32], scrypt_hash[32:]` -/
def BIP38_create_new_encrypted_wif_L315 (H : Host) : Stmt := fun env =>
  sUnpack [.name v!"derived_half_1", .name v!"derived_half_2", .name v!"key"] (eTuple [(eSlice (eName v!"scrypt_hash") none (some (eConst (.int 16)))), (eSlice (eName v!"scrypt_hash") (some (eConst (.int 16))) (some (eConst (.int 32)))), (eSlice (eName v!"scrypt_hash") (some (eConst (.int 32))) none)]) env

/-- `bip38/bip38.py:317`: `aes: AESModeOfOperationECB = AESModeOfOperationECB(key)` -/
def BIP38_create_new_encrypted_wif_L317 (H : Host) : Stmt := fun env =>
  sAssign (.name v!"aes") (eCall xAes [(eName v!"key")] []) env

/-- `bip38/bip38.py:318`: `encrypted_half_1: bytes = aes.encrypt(integer_to_bytes(` -/
def BIP38_create_new_encrypted_wif_L318 (H : Host) : Stmt := fun env =>
  sAssign (.name v!"encrypted_half_1") (eMethod [(.BIP38, BIP38_encrypt H)] (mEncrypt H) (eName v!"aes") [(eCall (utils_integer_to_bytes H) [(eBin [] [] .xor (eCall (utils_bytes_to_integer H) [(eSlice (eName v!"seed_b") none (some (eConst (.int 16))))] []) (eCall (utils_bytes_to_integer H) [(eName v!"derived_half_1")] []))] [])] []) env

/-- `bip38/bip38.py:321`: `encrypted_half_2: bytes = aes.encrypt(integer_to_bytes(` -/
def BIP38_create_new_encrypted_wif_L321 (H : Host) : Stmt := fun env =>
  sAssign (.name v!"encrypted_half_2") (eMethod [(.BIP38, BIP38_encrypt H)] (mEncrypt H) (eName v!"aes") [(eCall (utils_integer_to_bytes H) [(eBin [] [] .xor (eCall (utils_bytes_to_integer H) [(eBin [(.Point, Point_add H)] [(.Point, Point_radd H)] .add (eSlice (eName v!"encrypted_half_1") (some (eConst (.int 8))) none) (eSlice (eName v!"seed_b") (some (eConst (.int 16))) none))] []) (eCall (utils_bytes_to_integer H) [(eName v!"derived_half_2")] []))] [])] []) env

/-- `bip38/bip38.py:324`: `encrypted_wif: str = ensure_string(check_encode((` -/
def BIP38_create_new_encrypted_wif_L324 (H : Host) : Stmt := fun env =>
  sAssign (.name v!"encrypted_wif") (eCall (base58_ensure_string H) [(eCall (base58_check_encode H) [(eBin [(.Point, Point_add H)] [(.Point, Point_radd H)] .add (eBin [(.Point, Point_add H)] [(.Point, Point_radd H)] .add (eBin [(.Point, Point_add H)] [(.Point, Point_radd H)] .add (eBin [(.Point, Point_add H)] [(.Point, Point_radd H)] .add (eBin [(.Point, Point_add H)] [(.Point, Point_radd H)] .add (eCall (utils_integer_to_bytes H) [(eGlobal (const_EC_MULTIPLIED_PRIVATE_KEY_PREFIX H))] []) (eName v!"flag")) (eName v!"address_hash")) (eName v!"owner_entropy")) (eSlice (eName v!"encrypted_half_1") none (some (eConst (.int 8))))) (eName v!"encrypted_half_2"))] [])] []) env

/-- `bip38/bip38.py:329`: `point_b: bytes = PrivateKey.from_bytes(factor_b).public_key().raw_compressed()` -/
def BIP38_create_new_encrypted_wif_L329 (H : Host) : Stmt := fun env =>
  sAssign (.name v!"point_b") (eMethod [(.PublicKey, PublicKey_raw_compressed H)] noMethod (eMethod [(.PrivateKey, PrivateKey_public_key H)] noMethod (eCall (PrivateKey_from_bytes H) [(eName v!"factor_b")] []) [] []) [] []) env

/-- `bip38/bip38.py:330`: `point_b_prefix: bytes = integer_to_bytes(` -/
def BIP38_create_new_encrypted_wif_L330 (H : Host) : Stmt := fun env =>
  sAssign (.name v!"point_b_prefix") (eCall (utils_integer_to_bytes H) [(eBin [] [] .xor (eBin [] [] .and (eCall (utils_bytes_to_integer H) [(eSlice (eName v!"scrypt_hash") (some (eConst (.int 63))) none)] []) (eConst (.int 1))) (eCall (utils_bytes_to_integer H) [(eSlice (eName v!"point_b") none (some (eConst (.int 1))))] []))] []) env

/-- `bip38/bip38.py:333`: `point_b_half_1: bytes = aes.encrypt(integer_to_bytes(` -/
def BIP38_create_new_encrypted_wif_L333 (H : Host) : Stmt := fun env =>
  sAssign (.name v!"point_b_half_1") (eMethod [(.BIP38, BIP38_encrypt H)] (mEncrypt H) (eName v!"aes") [(eCall (utils_integer_to_bytes H) [(eBin [] [] .xor (eCall (utils_bytes_to_integer H) [(eSlice (eName v!"point_b") (some (eConst (.int 1))) (some (eConst (.int 17))))] []) (eCall (utils_bytes_to_integer H) [(eName v!"derived_half_1")] []))] [])] []) env

/-- `bip38/bip38.py:336`: `point_b_half_2: bytes = aes.encrypt(integer_to_bytes(` -/
def BIP38_create_new_encrypted_wif_L336 (H : Host) : Stmt := fun env =>
  sAssign (.name v!"point_b_half_2") (eMethod [(.BIP38, BIP38_encrypt H)] (mEncrypt H) (eName v!"aes") [(eCall (utils_integer_to_bytes H) [(eBin [] [] .xor (eCall (utils_bytes_to_integer H) [(eSlice (eName v!"point_b") (some (eConst (.int 17))) none)] []) (eCall (utils_bytes_to_integer H) [(eName v!"derived_half_2")] []))] [])] []) env

/-- `bip38/bip38.py:339`: `encrypted_point_b: bytes = (` -/
def BIP38_create_new_encrypted_wif_L339 (H : Host) : Stmt := fun env =>
  sAssign (.name v!"encrypted_point_b") (eBin [(.Point, Point_add H)] [(.Point, Point_radd H)] .add (eBin [(.Point, Point_add H)] [(.Point, Point_radd H)] .add (eName v!"point_b_prefix") (eName v!"point_b_half_1")) (eName v!"point_b_half_2")) env

/-- `bip38/bip38.py:342`: `confirmation_code: str = ensure_string(check_encode((` -/
def BIP38_create_new_encrypted_wif_L342 (H : Host) : Stmt := fun env =>
  sAssign (.name v!"confirmation_code") (eCall (base58_ensure_string H) [(eCall (base58_check_encode H) [(eBin [(.Point, Point_add H)] [(.Point, Point_radd H)] .add (eBin [(.Point, Point_add H)] [(.Point, Point_radd H)] .add (eBin [(.Point, Point_add H)] [(.Point, Point_radd H)] .add (eBin [(.Point, Point_add H)] [(.Point, Point_radd H)] .add (eCall (utils_integer_to_bytes H) [(eGlobal (const_CONFIRMATION_CODE_PREFIX H))] []) (eName v!"flag")) (eName v!"address_hash")) (eName v!"owner_entropy")) (eName v!"encrypted_point_b"))] [])] []) env

/-- `bip38/bip38.py:346`: `return dict(` -/
def BIP38_create_new_encrypted_wif_L346 (H : Host) : Stmt := fun env =>
  sReturn (eDict [("encrypted_wif", (eName v!"encrypted_wif")), ("confirmation_code", (eName v!"confirmation_code")), ("public_key", (eCall (utils_bytes_to_string H) [(eMethod [(.Point, Point_raw H), (.PublicKey, PublicKey_raw H), (.PrivateKey, PrivateKey_raw H)] noMethod (eName v!"public_key") [] [(v!"public_key_type", (eName v!"public_key_type"))])] [])), ("seed", (eCall (utils_bytes_to_string H) [(eName v!"seed_b")] [])), ("public_key_type", (eName v!"public_key_type")), ("address", (eName v!"address"))]) env

/-- `bip38/bip38.py:227-355` `BIP38.create_new_encrypted_wif` -/
def BIP38_create_new_encrypted_wif (H : Host) : Fn :=
  defun [⟨v!"self", none⟩, ⟨v!"intermediate_passphrase", none⟩, ⟨v!"wif_type", some ((eConst (.str "wif".toList)) Env.empty)⟩, ⟨v!"seed", some ((eConst .none) Env.empty)⟩, ⟨v!"network", some ((eConst .none) Env.empty)⟩] none
    [BIP38_create_new_encrypted_wif_L258 H, BIP38_create_new_encrypted_wif_L261 H, BIP38_create_new_encrypted_wif_L263 H, BIP38_create_new_encrypted_wif_L264 H, BIP38_create_new_encrypted_wif_L268 H, BIP38_create_new_encrypted_wif_L271 H, BIP38_create_new_encrypted_wif_L272 H, BIP38_create_new_encrypted_wif_L273 H, BIP38_create_new_encrypted_wif_L275 H, BIP38_create_new_encrypted_wif_L282 H, BIP38_create_new_encrypted_wif_L300 H, BIP38_create_new_encrypted_wif_L301 H, BIP38_create_new_encrypted_wif_L304 H, BIP38_create_new_encrypted_wif_L307 H, BIP38_create_new_encrypted_wif_L312 H, BIP38_create_new_encrypted_wif_L313 H, BIP38_create_new_encrypted_wif_L314 H, BIP38_create_new_encrypted_wif_L315 H, BIP38_create_new_encrypted_wif_L317 H, BIP38_create_new_encrypted_wif_L318 H, BIP38_create_new_encrypted_wif_L321 H, BIP38_create_new_encrypted_wif_L324 H, BIP38_create_new_encrypted_wif_L329 H, BIP38_create_new_encrypted_wif_L330 H, BIP38_create_new_encrypted_wif_L333 H, BIP38_create_new_encrypted_wif_L336 H, BIP38_create_new_encrypted_wif_L339 H, BIP38_create_new_encrypted_wif_L342 H, BIP38_create_new_encrypted_wif_L346 H]

/-- `bip38/bip38.py:386`: `network: str = (` -/
def BIP38_confirm_code_L386 (H : Host) : Stmt := fun env =>
  sAssign (.name v!"network") (eIf (eName v!"network") (eName v!"network") (eAttr (eName v!"self") v!"network")) env

/-- `bip38/bip38.py:390`: `raise NetworkError("Wrong network type", expected=self.networks, got=type(network))` -/
def BIP38_confirm_code_L390 (H : Host) : Stmt := fun env =>
  sRaise (Error_str H) (eCall (Error_init H .networkError) [(eConst (.str "Wrong network type".toList))] [(v!"expected", (eAttr (eName v!"self") v!"networks")), (v!"got", (eCall pyType [(eName v!"network")] []))]) env

/-- `bip38/bip38.py:389`: `if network not in self.networks:` -/
def BIP38_confirm_code_L389 (H : Host) : Stmt := fun env =>
  sIf (eCompare (eName v!"network") [(.notIn, (eAttr (eName v!"self") v!"networks"))]) [BIP38_confirm_code_L390 H] [] env

/-- `bip38/bip38.py:392`: `confirmation_code_decode: bytes = check_decode(confirmation_code)` -/
def BIP38_confirm_code_L392 (H : Host) : Stmt := fun env =>
  sAssign (.name v!"confirmation_code_decode") (eCall (base58_check_decode H) [(eName v!"confirmation_code")] []) env

/-- `bip38/bip38.py:394`: `raise Error("Invalid confirmation code")` -/
def BIP38_confirm_code_L394 (H : Host) : Stmt := fun env =>
  sRaise (Error_str H) (eCall (Error_init H .error) [(eConst (.str "Invalid confirmation code".toList))] []) env

/-- `bip38/bip38.py:391`: `try:` -/
def BIP38_confirm_code_L391 (H : Host) : Stmt := fun env =>
  sTry [v!"confirmation_code_decode"] [BIP38_confirm_code_L392 H] [([.valueError], [BIP38_confirm_code_L394 H])] env

/-- `bip38/bip38.py:396`: `raise Error("Invalid confirmation code length", expected=102, got=len(confirmation_code_decode))` -/
def BIP38_confirm_code_L396 (H : Host) : Stmt := fun env =>
  sRaise (Error_str H) (eCall (Error_init H .error) [(eConst (.str "Invalid confirmation code length".toList))] [(v!"expected", (eConst (.int 102))), (v!"got", (eCall pyLen [(eName v!"confirmation_code_decode")] []))]) env

/-- `bip38/bip38.py:395`: `if len(confirmation_code_decode) != 51:` -/
def BIP38_confirm_code_L395 (H : Host) : Stmt := fun env =>
  sIf (eCompare (eCall pyLen [(eName v!"confirmation_code_decode")] []) [(.ne, (eConst (.int 51)))]) [BIP38_confirm_code_L396 H] [] env

/-- `bip38/bip38.py:398`: `prefix_length: int = len(integer_to_bytes(CONFIRMATION_CODE_PREFIX))` -/
def BIP38_confirm_code_L398 (H : Host) : Stmt := fun env =>
  sAssign (.name v!"prefix_length") (eCall pyLen [(eCall (utils_integer_to_bytes H) [(eGlobal (const_CONFIRMATION_CODE_PREFIX H))] [])] []) env

/-- `bip38/bip38.py:399`: `prefix_got: bytes = confirmation_code_decode[:prefix_length]` -/
def BIP38_confirm_code_L399 (H : Host) : Stmt := fun env =>
  sAssign (.name v!"prefix_got") (eSlice (eName v!"confirmation_code_decode") none (some (eName v!"prefix_length"))) env

/-- `bip38/bip38.py:401`: `raise Error("Invalid confirmation code prefix", expected=prefix_length, got=prefix_got)` -/
def BIP38_confirm_code_L401 (H : Host) : Stmt := fun env =>
  sRaise (Error_str H) (eCall (Error_init H .error) [(eConst (.str "Invalid confirmation code prefix".toList))] [(v!"expected", (eName v!"prefix_length")), (v!"got", (eName v!"prefix_got"))]) env

/-- `bip38/bip38.py:400`: `if integer_to_bytes(CONFIRMATION_CODE_PREFIX) != prefix_got:` -/
def BIP38_confirm_code_L400 (H : Host) : Stmt := fun env =>
  sIf (eCompare (eCall (utils_integer_to_bytes H) [(eGlobal (const_CONFIRMATION_CODE_PREFIX H))] []) [(.ne, (eName v!"prefix_got"))]) [BIP38_confirm_code_L401 H] [] env

/-- `bip38/bip38.py:403`: `flag: bytes = confirmation_code_decode[5:6]` -/
def BIP38_confirm_code_L403 (H : Host) : Stmt := fun env =>
  sAssign (.name v!"flag") (eSlice (eName v!"confirmation_code_decode") (some (eConst (.int 5))) (some (eConst (.int 6)))) env

/-- `bip38/bip38.py:404`: `address_hash: bytes = confirmation_code_decode[6:10]` -/
def BIP38_confirm_code_L404 (H : Host) : Stmt := fun env =>
  sAssign (.name v!"address_hash") (eSlice (eName v!"confirmation_code_decode") (some (eConst (.int 6))) (some (eConst (.int 10)))) env

/-- `bip38/bip38.py:405`: `owner_entropy: bytes = confirmation_code_decode[10:18]` -/
def BIP38_confirm_code_L405 (H : Host) : Stmt := fun env =>
  sAssign (.name v!"owner_entropy") (eSlice (eName v!"confirmation_code_decode") (some (eConst (.int 10))) (some (eConst (.int 18)))) env

/-- `bip38/bip38.py:406`: `encrypted_point_b: bytes = confirmation_code_decode[18:]` -/
def BIP38_confirm_code_L406 (H : Host) : Stmt := fun env =>
  sAssign (.name v!"encrypted_point_b") (eSlice (eName v!"confirmation_code_decode") (some (eConst (.int 18))) none) env

/-- `bip38/bip38.py:408`: `lot_and_sequence: Optional[bytes] = None` -/
def BIP38_confirm_code_L408 (H : Host) : Stmt := fun env =>
  sAssign (.name v!"lot_and_sequence") (eConst .none) env

/-- `bip38/bip38.py:410`: `owner_salt: bytes = owner_entropy[:4]` -/
def BIP38_confirm_code_L410 (H : Host) : Stmt := fun env =>
  sAssign (.name v!"owner_salt") (eSlice (eName v!"owner_entropy") none (some (eConst (.int 4)))) env

/-- `bip38/bip38.py:411`: `lot_and_sequence = owner_entropy[4:]` -/
def BIP38_confirm_code_L411 (H : Host) : Stmt := fun env =>
  sAssign (.name v!"lot_and_sequence") (eSlice (eName v!"owner_entropy") (some (eConst (.int 4))) none) env

/-- `bip38/bip38.py:413`: `owner_salt: bytes = owner_entropy` -/
def BIP38_confirm_code_L413 (H : Host) : Stmt := fun env =>
  sAssign (.name v!"owner_salt") (eName v!"owner_entropy") env

/-- `bip38/bip38.py:409`: `if bytes_to_integer(flag) in FLAGS["lot_and_sequence"]:` -/
def BIP38_confirm_code_L409 (H : Host) : Stmt := fun env =>
  sIf (eCompare (eCall (utils_bytes_to_integer H) [(eName v!"flag")] []) [(.in, (eIndex (eGlobal (const_FLAGS H)) (eConst (.str "lot_and_sequence".toList))))]) [BIP38_confirm_code_L410 H, BIP38_confirm_code_L411 H] [BIP38_confirm_code_L413 H] env

/-- `bip38/bip38.py:415`: `pass_factor: bytes = scrypt.hash(unicodedata.normalize("NFC", passphrase), owner_salt, 16384, 8, 8, 32)` -/
def BIP38_confirm_code_L415 (H : Host) : Stmt := fun env =>
  sAssign (.name v!"pass_factor") (eCall (xScrypt H) [(eCall (xNormalize H) [(eConst (.str "NFC".toList)), (eName v!"passphrase")] []), (eName v!"owner_salt"), (eConst (.int 16384)), (eConst (.int 8)), (eConst (.int 8)), (eConst (.int 32))] []) env

/-- `bip38/bip38.py:417`: `pass_factor: bytes = double_sha256(pass_factor + owner_entropy)` -/
def BIP38_confirm_code_L417 (H : Host) : Stmt := fun env =>
  sAssign (.name v!"pass_factor") (eCall (crypto_double_sha256 H) [(eBin [(.Point, Point_add H)] [(.Point, Point_radd H)] .add (eName v!"pass_factor") (eName v!"owner_entropy"))] []) env

/-- `bip38/bip38.py:416`: `if lot_and_sequence:` -/
def BIP38_confirm_code_L416 (H : Host) : Stmt := fun env =>
  sIf (eName v!"lot_and_sequence") [BIP38_confirm_code_L417 H] [] env

/-- `bip38/bip38.py:419`: `raise Error("Invalid EC encrypted WIF (Wallet Import Format)")` -/
def BIP38_confirm_code_L419 (H : Host) : Stmt := fun env =>
  sRaise (Error_str H) (eCall (Error_init H .error) [(eConst (.str "Invalid EC encrypted WIF (Wallet Import Format)".toList))] []) env

/-- `bip38/bip38.py:418`: `if bytes_to_integer(pass_factor) == 0 or bytes_to_integer(pass_factor) >= N:` -/
def BIP38_confirm_code_L418 (H : Host) : Stmt := fun env =>
  sIf (eOr (eCompare (eCall (utils_bytes_to_integer H) [(eName v!"pass_factor")] []) [(.eq, (eConst (.int 0)))]) (eCompare (eCall (utils_bytes_to_integer H) [(eName v!"pass_factor")] []) [(.ge, (eGlobal (const_N H)))])) [BIP38_confirm_code_L419 H] [] env

/-- `bip38/bip38.py:421`: `pass_point: bytes = PrivateKey.from_bytes(pass_factor).public_key().raw_compressed()` -/
def BIP38_confirm_code_L421 (H : Host) : Stmt := fun env =>
  sAssign (.name v!"pass_point") (eMethod [(.PublicKey, PublicKey_raw_compressed H)] noMethod (eMethod [(.PrivateKey, PrivateKey_public_key H)] noMethod (eCall (PrivateKey_from_bytes H) [(eName v!"pass_factor")] []) [] []) [] []) env

/-- `bip38/bip38.py:422`: `salt: bytes = address_hash + owner_entropy` -/
def BIP38_confirm_code_L422 (H : Host) : Stmt := fun env =>
  sAssign (.name v!"salt") (eBin [(.Point, Point_add H)] [(.Point, Point_radd H)] .add (eName v!"address_hash") (eName v!"owner_entropy")) env

/-- `bip38/bip38.py:423`: `scrypt_hash: bytes = scrypt.hash(pass_point, salt, 1024, 1, 1, 64)` -/
def BIP38_confirm_code_L423 (H : Host) : Stmt := fun env =>
  sAssign (.name v!"scrypt_hash") (eCall (xScrypt H) [(eName v!"pass_point"), (eName v!"salt"), (eConst (.int 1024)), (eConst (.int 1)), (eConst (.int 1)), (eConst (.int 64))] []) env

/-- `bip38/bip38.py:424`: `derived_half_1, derived_half_2, key = encrypted_point_b[1:17], encrypted_point_b[17:], scrypt_hash[32:]` -/
def BIP38_confirm_code_L424 (H : Host) : Stmt := fun env =>
  sUnpack [.name v!"derived_half_1", .name v!"derived_half_2", .name v!"key"] (eTuple [(eSlice (eName v!"encrypted_point_b") (some (eConst (.int 1))) (some (eConst (.int 17)))), (eSlice (eName v!"encrypted_point_b") (some (eConst (.int 17))) none), (eSlice (eName v!"scrypt_hash") (some (eConst (.int 32))) none)]) env

/-- `bip38/bip38.py:426`: `aes: AESModeOfOperationECB = AESModeOfOperationECB(key)` -/
def BIP38_confirm_code_L426 (H : Host) : Stmt := fun env =>
  sAssign (.name v!"aes") (eCall xAes [(eName v!"key")] []) env

/-- `bip38/bip38.py:427`: `point_b_half_1: bytes = integer_to_bytes(` -/
def BIP38_confirm_code_L427 (H : Host) : Stmt := fun env =>
  sAssign (.name v!"point_b_half_1") (eCall (utils_integer_to_bytes H) [(eBin [] [] .xor (eCall (utils_bytes_to_integer H) [(eMethod [] (mDecrypt H) (eName v!"aes") [(eName v!"derived_half_1")] [])] []) (eCall (utils_bytes_to_integer H) [(eSlice (eName v!"scrypt_hash") none (some (eConst (.int 16))))] []))] []) env

/-- `bip38/bip38.py:430`: `point_b_half_2: bytes = integer_to_bytes(` -/
def BIP38_confirm_code_L430 (H : Host) : Stmt := fun env =>
  sAssign (.name v!"point_b_half_2") (eCall (utils_integer_to_bytes H) [(eBin [] [] .xor (eCall (utils_bytes_to_integer H) [(eMethod [] (mDecrypt H) (eName v!"aes") [(eName v!"derived_half_2")] [])] []) (eCall (utils_bytes_to_integer H) [(eSlice (eName v!"scrypt_hash") (some (eConst (.int 16))) (some (eConst (.int 32))))] []))] []) env

/-- `bip38/bip38.py:433`: `point_b_prefix: bytes = integer_to_bytes(` -/
def BIP38_confirm_code_L433 (H : Host) : Stmt := fun env =>
  sAssign (.name v!"point_b_prefix") (eCall (utils_integer_to_bytes H) [(eBin [] [] .xor (eCall (utils_bytes_to_integer H) [(eSlice (eName v!"encrypted_point_b") none (some (eConst (.int 1))))] []) (eBin [] [] .and (eCall (utils_bytes_to_integer H) [(eSlice (eName v!"scrypt_hash") (some (eConst (.int 63))) none)] []) (eConst (.int 1))))] []) env

/-- `bip38/bip38.py:436`: `point_b: bytes = (` -/
def BIP38_confirm_code_L436 (H : Host) : Stmt := fun env =>
  sAssign (.name v!"point_b") (eBin [(.Point, Point_add H)] [(.Point, Point_radd H)] .add (eBin [(.Point, Point_add H)] [(.Point, Point_radd H)] .add (eName v!"point_b_prefix") (eName v!"point_b_half_1")) (eName v!"point_b_half_2")) env

/-- `bip38/bip38.py:441`: `public_key: PublicKey = PublicKey.from_point(` -/
def BIP38_confirm_code_L441 (H : Host) : Stmt := fun env =>
  sAssign (.name v!"public_key") (eCall (PublicKey_from_point H) [(eBin [(.Point, Point_mul H)] [(.Point, Point_rmul H)] .mul (eMethod [(.PublicKey, PublicKey_point H)] noMethod (eCall (PublicKey_from_bytes H) [(eName v!"point_b")] []) [] []) (eCall (utils_bytes_to_integer H) [(eName v!"pass_factor")] []))] []) env

/-- `bip38/bip38.py:444`: `public_key_type: str = "uncompressed"` -/
def BIP38_confirm_code_L444 (H : Host) : Stmt := fun env =>
  sAssign (.name v!"public_key_type") (eConst (.str "uncompressed".toList)) env

/-- `bip38/bip38.py:446`: `public_key_type: str = "compressed"` -/
def BIP38_confirm_code_L446 (H : Host) : Stmt := fun env =>
  sAssign (.name v!"public_key_type") (eConst (.str "compressed".toList)) env

/-- `bip38/bip38.py:445`: `if bytes_to_integer(flag) in FLAGS["compression"]:` -/
def BIP38_confirm_code_L445 (H : Host) : Stmt := fun env =>
  sIf (eCompare (eCall (utils_bytes_to_integer H) [(eName v!"flag")] []) [(.in, (eIndex (eGlobal (const_FLAGS H)) (eConst (.str "compression".toList))))]) [BIP38_confirm_code_L446 H] [] env

/-- `bip38/bip38.py:448`: `raise PassphraseError("Incorrect passphrase")` -/
def BIP38_confirm_code_L448 (H : Host) : Stmt := fun env =>
  sRaise (Error_str H) (eCall (Error_init H .passphraseError) [(eConst (.str "Incorrect passphrase".toList))] []) env

/-- `bip38/bip38.py:440`: `try:` -/
def BIP38_confirm_code_L440 (H : Host) : Stmt := fun env =>
  sTry [v!"public_key", v!"public_key_type"] [BIP38_confirm_code_L441 H, BIP38_confirm_code_L444 H, BIP38_confirm_code_L445 H] [([.only .secp256k1Error], [BIP38_confirm_code_L448 H])] env

/-- `bip38/bip38.py:450`: `address: str = P2PKHAddress.encode(` -/
def BIP38_confirm_code_L450 (H : Host) : Stmt := fun env =>
  sAssign (.name v!"address") (eCall (P2PKHAddress_encode H) [] [(v!"public_key", (eName v!"public_key")), (v!"address_prefix", (eIndex (eIndex (eAttr (eAttr (eName v!"self") v!"cryptocurrency") v!"NETWORKS") (eName v!"network")) (eConst (.str "address_prefix".toList)))), (v!"public_key_type", (eName v!"public_key_type"))]) env

/-- `bip38/bip38.py:456`: `lot: Optional[int] = None` -/
def BIP38_confirm_code_L456 (H : Host) : Stmt := fun env =>
  sAssign (.name v!"lot") (eConst .none) env

/-- `bip38/bip38.py:457`: `sequence: Optional[int] = None` -/
def BIP38_confirm_code_L457 (H : Host) : Stmt := fun env =>
  sAssign (.name v!"sequence") (eConst .none) env

/-- `bip38/bip38.py:460`: `sequence: int = bytes_to_integer(lot_and_sequence) % 4096` -/
def BIP38_confirm_code_L460 (H : Host) : Stmt := fun env =>
  sAssign (.name v!"sequence") (eBin [] [] .mod (eCall (utils_bytes_to_integer H) [(eName v!"lot_and_sequence")] []) (eConst (.int 4096))) env

/-- `bip38/bip38.py:461`: `lot: int = (bytes_to_integer(lot_and_sequence) - sequence) // 4096` -/
def BIP38_confirm_code_L461 (H : Host) : Stmt := fun env =>
  sAssign (.name v!"lot") (eBin [] [] .floordiv (eBin [] [] .sub (eCall (utils_bytes_to_integer H) [(eName v!"lot_and_sequence")] []) (eName v!"sequence")) (eConst (.int 4096))) env

/-- `bip38/bip38.py:459`: `if lot_and_sequence:` -/
def BIP38_confirm_code_L459 (H : Host) : Stmt := fun env =>
  sIf (eName v!"lot_and_sequence") [BIP38_confirm_code_L460 H, BIP38_confirm_code_L461 H] [] env

/-- `bip38/bip38.py:462`: `return dict(` -/
def BIP38_confirm_code_L462 (H : Host) : Stmt := fun env =>
  sReturn (eDict [("public_key", (eCall (utils_bytes_to_string H) [(eMethod [(.Point, Point_raw H), (.PublicKey, PublicKey_raw H), (.PrivateKey, PrivateKey_raw H)] noMethod (eName v!"public_key") [] [(v!"public_key_type", (eName v!"public_key_type"))])] [])), ("public_key_type", (eName v!"public_key_type")), ("address", (eName v!"address")), ("lot", (eName v!"lot")), ("sequence", (eName v!"sequence"))]) env

/-- `bip38/bip38.py:458`: `if detail:` -/
def BIP38_confirm_code_L458 (H : Host) : Stmt := fun env =>
  sIf (eName v!"detail") [BIP38_confirm_code_L459 H, BIP38_confirm_code_L462 H] [] env

/-- `bip38/bip38.py:469`: `return address` -/
def BIP38_confirm_code_L469 (H : Host) : Stmt := fun env =>
  sReturn (eName v!"address") env

/-- `bip38/bip38.py:455`: `if get_checksum(get_bytes(address, unhexlify=False)) == address_hash:` -/
def BIP38_confirm_code_L455 (H : Host) : Stmt := fun env =>
  sIf (eCompare (eCall (crypto_get_checksum H) [(eCall (utils_get_bytes H) [(eName v!"address")] [(v!"unhexlify", (eConst (.bool false)))])] []) [(.eq, (eName v!"address_hash"))]) [BIP38_confirm_code_L456 H, BIP38_confirm_code_L457 H, BIP38_confirm_code_L458 H, BIP38_confirm_code_L469 H] [] env

/-- `bip38/bip38.py:470`: `raise PassphraseError("Incorrect passphrase")` -/
def BIP38_confirm_code_L470 (H : Host) : Stmt := fun env =>
  sRaise (Error_str H) (eCall (Error_init H .passphraseError) [(eConst (.str "Incorrect passphrase".toList))] []) env

/-- `bip38/bip38.py:357-470` `BIP38.confirm_code` -/
def BIP38_confirm_code (H : Host) : Fn :=
  defun [⟨v!"self", none⟩, ⟨v!"passphrase", none⟩, ⟨v!"confirmation_code", none⟩, ⟨v!"network", some ((eConst .none) Env.empty)⟩, ⟨v!"detail", some ((eConst (.bool false)) Env.empty)⟩] none
    [BIP38_confirm_code_L386 H, BIP38_confirm_code_L389 H, BIP38_confirm_code_L391 H, BIP38_confirm_code_L395 H, BIP38_confirm_code_L398 H, BIP38_confirm_code_L399 H, BIP38_confirm_code_L400 H, BIP38_confirm_code_L403 H, BIP38_confirm_code_L404 H, BIP38_confirm_code_L405 H, BIP38_confirm_code_L406 H, BIP38_confirm_code_L408 H, BIP38_confirm_code_L409 H, BIP38_confirm_code_L415 H, BIP38_confirm_code_L416 H, BIP38_confirm_code_L418 H, BIP38_confirm_code_L421 H, BIP38_confirm_code_L422 H, BIP38_confirm_code_L423 H, BIP38_confirm_code_L424 H, BIP38_confirm_code_L426 H, BIP38_confirm_code_L427 H, BIP38_confirm_code_L430 H, BIP38_confirm_code_L433 H, BIP38_confirm_code_L436 H, BIP38_confirm_code_L440 H, BIP38_confirm_code_L450 H, BIP38_confirm_code_L455 H, BIP38_confirm_code_L470 H]

/-- `bip38/bip38.py:503`: `network: str = (` -/
def BIP38_decrypt_L503 (H : Host) : Stmt := fun env =>
  sAssign (.name v!"network") (eIf (eName v!"network") (eName v!"network") (eAttr (eName v!"self") v!"network")) env

/-- `bip38/bip38.py:507`: `raise NetworkError("Wrong network type", expected=self.networks, got=type(network))` -/
def BIP38_decrypt_L507 (H : Host) : Stmt := fun env =>
  sRaise (Error_str H) (eCall (Error_init H .networkError) [(eConst (.str "Wrong network type".toList))] [(v!"expected", (eAttr (eName v!"self") v!"networks")), (v!"got", (eCall pyType [(eName v!"network")] []))]) env

/-- `bip38/bip38.py:506`: `if network not in self.networks:` -/
def BIP38_decrypt_L506 (H : Host) : Stmt := fun env =>
  sIf (eCompare (eName v!"network") [(.notIn, (eAttr (eName v!"self") v!"networks"))]) [BIP38_decrypt_L507 H] [] env

/-- `bip38/bip38.py:508`: `encrypted_wif_decode: bytes = decode(encrypted_wif)` -/
def BIP38_decrypt_L508 (H : Host) : Stmt := fun env =>
  sAssign (.name v!"encrypted_wif_decode") (eCall (base58_decode H) [(eName v!"encrypted_wif")] []) env

/-- `bip38/bip38.py:510`: `raise WIFError("Invalid encrypted WIF length", expected=43, got=len(encrypted_wif_decode))` -/
def BIP38_decrypt_L510 (H : Host) : Stmt := fun env =>
  sRaise (Error_str H) (eCall (Error_init H .wifError) [(eConst (.str "Invalid encrypted WIF length".toList))] [(v!"expected", (eConst (.int 43))), (v!"got", (eCall pyLen [(eName v!"encrypted_wif_decode")] []))]) env

/-- `bip38/bip38.py:509`: `if len(encrypted_wif_decode) != 43:` -/
def BIP38_decrypt_L509 (H : Host) : Stmt := fun env =>
  sIf (eCompare (eCall pyLen [(eName v!"encrypted_wif_decode")] []) [(.ne, (eConst (.int 43)))]) [BIP38_decrypt_L510 H] [] env

/-- `bip38/bip38.py:512`: `prefix: bytes = encrypted_wif_decode[:2]` -/
def BIP38_decrypt_L512 (H : Host) : Stmt := fun env =>
  sAssign (.name v!"prefix") (eSlice (eName v!"encrypted_wif_decode") none (some (eConst (.int 2)))) env

/-- `bip38/bip38.py:513`: `flag: bytes = encrypted_wif_decode[2:3]` -/
def BIP38_decrypt_L513 (H : Host) : Stmt := fun env =>
  sAssign (.name v!"flag") (eSlice (eName v!"encrypted_wif_decode") (some (eConst (.int 2))) (some (eConst (.int 3)))) env

/-- `bip38/bip38.py:514`: `address_hash: bytes = encrypted_wif_decode[3:7]` -/
def BIP38_decrypt_L514 (H : Host) : Stmt := fun env =>
  sAssign (.name v!"address_hash") (eSlice (eName v!"encrypted_wif_decode") (some (eConst (.int 3))) (some (eConst (.int 7)))) env

/-- `bip38/bip38.py:519`: `wif_type: Literal["wif", "wif-compressed"] = "wif"` -/
def BIP38_decrypt_L519 (H : Host) : Stmt := fun env =>
  sAssign (.name v!"wif_type") (eConst (.str "wif".toList)) env

/-- `bip38/bip38.py:520`: `public_key_type: str = "uncompressed"` -/
def BIP38_decrypt_L520 (H : Host) : Stmt := fun env =>
  sAssign (.name v!"public_key_type") (eConst (.str "uncompressed".toList)) env

/-- `bip38/bip38.py:522`: `wif_type: Literal["wif", "wif-compressed"] = "wif-compressed"` -/
def BIP38_decrypt_L522 (H : Host) : Stmt := fun env =>
  sAssign (.name v!"wif_type") (eConst (.str "wif-compressed".toList)) env

/-- `bip38/bip38.py:523`: `public_key_type: str = "compressed"` -/
def BIP38_decrypt_L523 (H : Host) : Stmt := fun env =>
  sAssign (.name v!"public_key_type") (eConst (.str "compressed".toList)) env

/-- `bip38/bip38.py:525`: `raise Error(` -/
def BIP38_decrypt_L525 (H : Host) : Stmt := fun env =>
  sRaise (Error_str H) (eCall (Error_init H .error) [(eConst (.str "Invalid flag".toList))] [(v!"expected", (eList [(eCall (utils_bytes_to_string H) [(eCall (utils_integer_to_bytes H) [(eGlobal (const_NO_EC_MULTIPLIED_WIF_FLAG H))] [])] []), (eCall (utils_bytes_to_string H) [(eCall (utils_integer_to_bytes H) [(eGlobal (const_NO_EC_MULTIPLIED_WIF_COMPRESSED_FLAG H))] [])] [])])), (v!"got", (eCall (utils_bytes_to_string H) [(eName v!"flag")] []))]) env

/-- `bip38/bip38.py:521`: `elif flag == integer_to_bytes(NO_EC_MULTIPLIED_WIF_COMPRESSED_FLAG):` -/
def BIP38_decrypt_L521 (H : Host) : Stmt := fun env =>
  sIf (eCompare (eName v!"flag") [(.eq, (eCall (utils_integer_to_bytes H) [(eGlobal (const_NO_EC_MULTIPLIED_WIF_COMPRESSED_FLAG H))] []))]) [BIP38_decrypt_L522 H, BIP38_decrypt_L523 H] [BIP38_decrypt_L525 H] env

/-- `bip38/bip38.py:518`: `if flag == integer_to_bytes(NO_EC_MULTIPLIED_WIF_FLAG):` -/
def BIP38_decrypt_L518 (H : Host) : Stmt := fun env =>
  sIf (eCompare (eName v!"flag") [(.eq, (eCall (utils_integer_to_bytes H) [(eGlobal (const_NO_EC_MULTIPLIED_WIF_FLAG H))] []))]) [BIP38_decrypt_L519 H, BIP38_decrypt_L520 H] [BIP38_decrypt_L521 H] env

/-- `bip38/bip38.py:532`: `key: bytes = scrypt.hash(` -/
def BIP38_decrypt_L532 (H : Host) : Stmt := fun env =>
  sAssign (.name v!"key") (eCall (xScrypt H) [(eCall (xNormalize H) [(eConst (.str "NFC".toList)), (eName v!"passphrase")] []), (eName v!"address_hash"), (eConst (.int 16384)), (eConst (.int 8)), (eConst (.int 8))] []) env

/-- `bip38/bip38.py:535`: `derived_half_1, derived_half_2 = key[0:32], key[32:64]` -/
def BIP38_decrypt_L535 (H : Host) : Stmt := fun env =>
  sUnpack [.name v!"derived_half_1", .name v!"derived_half_2"] (eTuple [(eSlice (eName v!"key") (some (eConst (.int 0))) (some (eConst (.int 32)))), (eSlice (eName v!"key") (some (eConst (.int 32))) (some (eConst (.int 64))))]) env

/-- `bip38/bip38.py:536`: `encrypted_half_1: bytes = encrypted_wif_decode[7:23]` -/
def BIP38_decrypt_L536 (H : Host) : Stmt := fun env =>
  sAssign (.name v!"encrypted_half_1") (eSlice (eName v!"encrypted_wif_decode") (some (eConst (.int 7))) (some (eConst (.int 23)))) env

/-- `bip38/bip38.py:537`: `encrypted_half_2: bytes = encrypted_wif_decode[23:39]` -/
def BIP38_decrypt_L537 (H : Host) : Stmt := fun env =>
  sAssign (.name v!"encrypted_half_2") (eSlice (eName v!"encrypted_wif_decode") (some (eConst (.int 23))) (some (eConst (.int 39)))) env

/-- `bip38/bip38.py:539`: `aes: AESModeOfOperationECB = AESModeOfOperationECB(derived_half_2)` -/
def BIP38_decrypt_L539 (H : Host) : Stmt := fun env =>
  sAssign (.name v!"aes") (eCall xAes [(eName v!"derived_half_2")] []) env

/-- `bip38/bip38.py:540`: `decrypted_half_2: bytes = aes.decrypt(encrypted_half_2)` -/
def BIP38_decrypt_L540 (H : Host) : Stmt := fun env =>
  sAssign (.name v!"decrypted_half_2") (eMethod [] (mDecrypt H) (eName v!"aes") [(eName v!"encrypted_half_2")] []) env

/-- `bip38/bip38.py:541`: `decrypted_half_1: bytes = aes.decrypt(encrypted_half_1)` -/
def BIP38_decrypt_L541 (H : Host) : Stmt := fun env =>
  sAssign (.name v!"decrypted_half_1") (eMethod [] (mDecrypt H) (eName v!"aes") [(eName v!"encrypted_half_1")] []) env

/-- `bip38/bip38.py:543`: `private_key: bytes = integer_to_bytes(` -/
def BIP38_decrypt_L543 (H : Host) : Stmt := fun env =>
  sAssign (.name v!"private_key") (eCall (utils_integer_to_bytes H) [(eBin [] [] .xor (eCall (utils_bytes_to_integer H) [(eBin [(.Point, Point_add H)] [(.Point, Point_radd H)] .add (eName v!"decrypted_half_1") (eName v!"decrypted_half_2"))] []) (eCall (utils_bytes_to_integer H) [(eName v!"derived_half_1")] []))] []) env

/-- `bip38/bip38.py:547`: `raise Error("Invalid Non-EC encrypted WIF (Wallet Import Format)")` -/
def BIP38_decrypt_L547 (H : Host) : Stmt := fun env =>
  sRaise (Error_str H) (eCall (Error_init H .error) [(eConst (.str "Invalid Non-EC encrypted WIF (Wallet Import Format)".toList))] []) env

/-- `bip38/bip38.py:546`: `if bytes_to_integer(private_key) == 0 or bytes_to_integer(private_key) >= N:` -/
def BIP38_decrypt_L546 (H : Host) : Stmt := fun env =>
  sIf (eOr (eCompare (eCall (utils_bytes_to_integer H) [(eName v!"private_key")] []) [(.eq, (eConst (.int 0)))]) (eCompare (eCall (utils_bytes_to_integer H) [(eName v!"private_key")] []) [(.ge, (eGlobal (const_N H)))])) [BIP38_decrypt_L547 H] [] env

/-- `bip38/bip38.py:549`: `public_key: PublicKey = PrivateKey.from_bytes(private_key).public_key()` -/
def BIP38_decrypt_L549 (H : Host) : Stmt := fun env =>
  sAssign (.name v!"public_key") (eMethod [(.PrivateKey, PrivateKey_public_key H)] noMethod (eCall (PrivateKey_from_bytes H) [(eName v!"private_key")] []) [] []) env

/-- `bip38/bip38.py:550`: `address: str = P2PKHAddress.encode(` -/
def BIP38_decrypt_L550 (H : Host) : Stmt := fun env =>
  sAssign (.name v!"address") (eCall (P2PKHAddress_encode H) [] [(v!"public_key", (eName v!"public_key")), (v!"address_prefix", (eIndex (eIndex (eAttr (eAttr (eName v!"self") v!"cryptocurrency") v!"NETWORKS") (eName v!"network")) (eConst (.str "address_prefix".toList)))), (v!"public_key_type", (eName v!"public_key_type"))]) env

/-- `bip38/bip38.py:556`: `raise PassphraseError("Incorrect passphrase")` -/
def BIP38_decrypt_L556 (H : Host) : Stmt := fun env =>
  sRaise (Error_str H) (eCall (Error_init H .passphraseError) [(eConst (.str "Incorrect passphrase".toList))] []) env

/-- `bip38/bip38.py:555`: `if get_checksum(get_bytes(address, unhexlify=False)) != address_hash:` -/
def BIP38_decrypt_L555 (H : Host) : Stmt := fun env =>
  sIf (eCompare (eCall (crypto_get_checksum H) [(eCall (utils_get_bytes H) [(eName v!"address")] [(v!"unhexlify", (eConst (.bool false)))])] []) [(.ne, (eName v!"address_hash"))]) [BIP38_decrypt_L556 H] [] env

/-- `bip38/bip38.py:558`: `wif: str = private_key_to_wif(` -/
def BIP38_decrypt_L558 (H : Host) : Stmt := fun env =>
  sAssign (.name v!"wif") (eCall (wif_private_key_to_wif H) [] [(v!"private_key", (eName v!"private_key")), (v!"wif_type", (eName v!"wif_type")), (v!"cryptocurrency", (eAttr (eName v!"self") v!"cryptocurrency")), (v!"network", (eName v!"network"))]) env

/-- `bip38/bip38.py:562`: `return dict(` -/
def BIP38_decrypt_L562 (H : Host) : Stmt := fun env =>
  sReturn (eDict [("wif", (eName v!"wif")), ("private_key", (eCall (utils_bytes_to_string H) [(eName v!"private_key")] [])), ("wif_type", (eName v!"wif_type")), ("public_key", (eCall (utils_bytes_to_string H) [(eMethod [(.Point, Point_raw H), (.PublicKey, PublicKey_raw H), (.PrivateKey, PrivateKey_raw H)] noMethod (eName v!"public_key") [] [(v!"public_key_type", (eName v!"public_key_type"))])] [])), ("public_key_type", (eName v!"public_key_type")), ("seed", (eConst .none)), ("address", (eName v!"address")), ("lot", (eConst .none)), ("sequence", (eConst .none))]) env

/-- `bip38/bip38.py:561`: `if detail:` -/
def BIP38_decrypt_L561 (H : Host) : Stmt := fun env =>
  sIf (eName v!"detail") [BIP38_decrypt_L562 H] [] env

/-- `bip38/bip38.py:573`: `return wif` -/
def BIP38_decrypt_L573 (H : Host) : Stmt := fun env =>
  sReturn (eName v!"wif") env

/-- `bip38/bip38.py:576`: `owner_entropy: bytes = encrypted_wif_decode[7:15]` -/
def BIP38_decrypt_L576 (H : Host) : Stmt := fun env =>
  sAssign (.name v!"owner_entropy") (eSlice (eName v!"encrypted_wif_decode") (some (eConst (.int 7))) (some (eConst (.int 15)))) env

/-- `bip38/bip38.py:577`: `encrypted_half_1_half_1: bytes = encrypted_wif_decode[15:23]` -/
def BIP38_decrypt_L577 (H : Host) : Stmt := fun env =>
  sAssign (.name v!"encrypted_half_1_half_1") (eSlice (eName v!"encrypted_wif_decode") (some (eConst (.int 15))) (some (eConst (.int 23)))) env

/-- `bip38/bip38.py:578`: `encrypted_half_2: bytes = encrypted_wif_decode[23:-4]` -/
def BIP38_decrypt_L578 (H : Host) : Stmt := fun env =>
  sAssign (.name v!"encrypted_half_2") (eSlice (eName v!"encrypted_wif_decode") (some (eConst (.int 23))) (some (eNeg (eConst (.int 4))))) env

/-- `bip38/bip38.py:580`: `lot_and_sequence: Optional[bytes] = None` -/
def BIP38_decrypt_L580 (H : Host) : Stmt := fun env =>
  sAssign (.name v!"lot_and_sequence") (eConst .none) env

/-- `bip38/bip38.py:582`: `owner_salt: bytes = owner_entropy[:4]` -/
def BIP38_decrypt_L582 (H : Host) : Stmt := fun env =>
  sAssign (.name v!"owner_salt") (eSlice (eName v!"owner_entropy") none (some (eConst (.int 4)))) env

/-- `bip38/bip38.py:583`: `lot_and_sequence = owner_entropy[4:]` -/
def BIP38_decrypt_L583 (H : Host) : Stmt := fun env =>
  sAssign (.name v!"lot_and_sequence") (eSlice (eName v!"owner_entropy") (some (eConst (.int 4))) none) env

/-- `bip38/bip38.py:585`: `owner_salt: bytes = owner_entropy` -/
def BIP38_decrypt_L585 (H : Host) : Stmt := fun env =>
  sAssign (.name v!"owner_salt") (eName v!"owner_entropy") env

/-- `bip38/bip38.py:581`: `if bytes_to_integer(flag) in FLAGS["lot_and_sequence"]:` -/
def BIP38_decrypt_L581 (H : Host) : Stmt := fun env =>
  sIf (eCompare (eCall (utils_bytes_to_integer H) [(eName v!"flag")] []) [(.in, (eIndex (eGlobal (const_FLAGS H)) (eConst (.str "lot_and_sequence".toList))))]) [BIP38_decrypt_L582 H, BIP38_decrypt_L583 H] [BIP38_decrypt_L585 H] env

/-- `bip38/bip38.py:587`: `pass_factor: bytes = scrypt.hash(unicodedata.normalize("NFC", passphrase), owner_salt, 16384, 8, 8, 32)` -/
def BIP38_decrypt_L587 (H : Host) : Stmt := fun env =>
  sAssign (.name v!"pass_factor") (eCall (xScrypt H) [(eCall (xNormalize H) [(eConst (.str "NFC".toList)), (eName v!"passphrase")] []), (eName v!"owner_salt"), (eConst (.int 16384)), (eConst (.int 8)), (eConst (.int 8)), (eConst (.int 32))] []) env

/-- `bip38/bip38.py:589`: `pass_factor: bytes = double_sha256(pass_factor + owner_entropy)` -/
def BIP38_decrypt_L589 (H : Host) : Stmt := fun env =>
  sAssign (.name v!"pass_factor") (eCall (crypto_double_sha256 H) [(eBin [(.Point, Point_add H)] [(.Point, Point_radd H)] .add (eName v!"pass_factor") (eName v!"owner_entropy"))] []) env

/-- `bip38/bip38.py:588`: `if lot_and_sequence:` -/
def BIP38_decrypt_L588 (H : Host) : Stmt := fun env =>
  sIf (eName v!"lot_and_sequence") [BIP38_decrypt_L589 H] [] env

/-- `bip38/bip38.py:591`: `raise Error("Invalid EC encrypted WIF (Wallet Import Format)")` -/
def BIP38_decrypt_L591 (H : Host) : Stmt := fun env =>
  sRaise (Error_str H) (eCall (Error_init H .error) [(eConst (.str "Invalid EC encrypted WIF (Wallet Import Format)".toList))] []) env

/-- `bip38/bip38.py:590`: `if bytes_to_integer(pass_factor) == 0 or bytes_to_integer(pass_factor) >= N:` -/
def BIP38_decrypt_L590 (H : Host) : Stmt := fun env =>
  sIf (eOr (eCompare (eCall (utils_bytes_to_integer H) [(eName v!"pass_factor")] []) [(.eq, (eConst (.int 0)))]) (eCompare (eCall (utils_bytes_to_integer H) [(eName v!"pass_factor")] []) [(.ge, (eGlobal (const_N H)))])) [BIP38_decrypt_L591 H] [] env

/-- `bip38/bip38.py:593`: `pre_public_key: PublicKey = PrivateKey.from_bytes(pass_factor).public_key()` -/
def BIP38_decrypt_L593 (H : Host) : Stmt := fun env =>
  sAssign (.name v!"pre_public_key") (eMethod [(.PrivateKey, PrivateKey_public_key H)] noMethod (eCall (PrivateKey_from_bytes H) [(eName v!"pass_factor")] []) [] []) env

/-- `bip38/bip38.py:594`: `salt = address_hash + owner_entropy` -/
def BIP38_decrypt_L594 (H : Host) : Stmt := fun env =>
  sAssign (.name v!"salt") (eBin [(.Point, Point_add H)] [(.Point, Point_radd H)] .add (eName v!"address_hash") (eName v!"owner_entropy")) env

/-- `bip38/bip38.py:595`: `encrypted_seed_b: bytes = scrypt.hash(pre_public_key.raw_compressed(), salt, 1024, 1, 1, 64)` -/
def BIP38_decrypt_L595 (H : Host) : Stmt := fun env =>
  sAssign (.name v!"encrypted_seed_b") (eCall (xScrypt H) [(eMethod [(.PublicKey, PublicKey_raw_compressed H)] noMethod (eName v!"pre_public_key") [] []), (eName v!"salt"), (eConst (.int 1024)), (eConst (.int 1)), (eConst (.int 1)), (eConst (.int 64))] []) env

/-- `bip38/bip38.py:596`: `key: bytes = encrypted_seed_b[32:]` -/
def BIP38_decrypt_L596 (H : Host) : Stmt := fun env =>
  sAssign (.name v!"key") (eSlice (eName v!"encrypted_seed_b") (some (eConst (.int 32))) none) env

/-- `bip38/bip38.py:598`: `aes: AESModeOfOperationECB = AESModeOfOperationECB(key)` -/
def BIP38_decrypt_L598 (H : Host) : Stmt := fun env =>
  sAssign (.name v!"aes") (eCall xAes [(eName v!"key")] []) env

/-- `bip38/bip38.py:599`: `encrypted_half_1_half_2_seed_b_last_3 = integer_to_bytes(` -/
def BIP38_decrypt_L599 (H : Host) : Stmt := fun env =>
  sAssign (.name v!"encrypted_half_1_half_2_seed_b_last_3") (eCall (utils_integer_to_bytes H) [(eBin [] [] .xor (eCall (utils_bytes_to_integer H) [(eMethod [] (mDecrypt H) (eName v!"aes") [(eName v!"encrypted_half_2")] [])] []) (eCall (utils_bytes_to_integer H) [(eSlice (eName v!"encrypted_seed_b") (some (eConst (.int 16))) (some (eConst (.int 32))))] []))] []) env

/-- `bip38/bip38.py:602`: `encrypted_half_1_half_2: bytes = encrypted_half_1_half_2_seed_b_last_3[:8]` -/
def BIP38_decrypt_L602 (H : Host) : Stmt := fun env =>
  sAssign (.name v!"encrypted_half_1_half_2") (eSlice (eName v!"encrypted_half_1_half_2_seed_b_last_3") none (some (eConst (.int 8)))) env

/-- `bip38/bip38.py:603`: `encrypted_half_1: bytes = (` -/
def BIP38_decrypt_L603 (H : Host) : Stmt := fun env =>
  sAssign (.name v!"encrypted_half_1") (eBin [(.Point, Point_add H)] [(.Point, Point_radd H)] .add (eName v!"encrypted_half_1_half_1") (eName v!"encrypted_half_1_half_2")) env

/-- `bip38/bip38.py:607`: `seed_b: bytes = integer_to_bytes(` -/
def BIP38_decrypt_L607 (H : Host) : Stmt := fun env =>
  sAssign (.name v!"seed_b") (eBin [(.Point, Point_add H)] [(.Point, Point_radd H)] .add (eCall (utils_integer_to_bytes H) [(eBin [] [] .xor (eCall (utils_bytes_to_integer H) [(eMethod [] (mDecrypt H) (eName v!"aes") [(eName v!"encrypted_half_1")] [])] []) (eCall (utils_bytes_to_integer H) [(eSlice (eName v!"encrypted_seed_b") none (some (eConst (.int 16))))] []))] []) (eSlice (eName v!"encrypted_half_1_half_2_seed_b_last_3") (some (eConst (.int 8))) none)) env

/-- `bip38/bip38.py:611`: `factor_b: bytes = double_sha256(seed_b)` -/
def BIP38_decrypt_L611 (H : Host) : Stmt := fun env =>
  sAssign (.name v!"factor_b") (eCall (crypto_double_sha256 H) [(eName v!"seed_b")] []) env

/-- `bip38/bip38.py:613`: `raise Error("Invalid EC encrypted WIF (Wallet Import Format)")` -/
def BIP38_decrypt_L613 (H : Host) : Stmt := fun env =>
  sRaise (Error_str H) (eCall (Error_init H .error) [(eConst (.str "Invalid EC encrypted WIF (Wallet Import Format)".toList))] []) env

/-- `bip38/bip38.py:612`: `if bytes_to_integer(factor_b) == 0 or bytes_to_integer(factor_b) >= N:` -/
def BIP38_decrypt_L612 (H : Host) : Stmt := fun env =>
  sIf (eOr (eCompare (eCall (utils_bytes_to_integer H) [(eName v!"factor_b")] []) [(.eq, (eConst (.int 0)))]) (eCompare (eCall (utils_bytes_to_integer H) [(eName v!"factor_b")] []) [(.ge, (eGlobal (const_N H)))])) [BIP38_decrypt_L613 H] [] env

/-- `bip38/bip38.py:616`: `private_key: bytes = integer_to_bytes(` -/
def BIP38_decrypt_L616 (H : Host) : Stmt := fun env =>
  sAssign (.name v!"private_key") (eCall (utils_integer_to_bytes H) [(eBin [] [] .mod (eBin [(.Point, Point_mul H)] [(.Point, Point_rmul H)] .mul (eCall (utils_bytes_to_integer H) [(eName v!"pass_factor")] []) (eCall (utils_bytes_to_integer H) [(eName v!"factor_b")] [])) (eGlobal (const_N H)))] []) env

/-- `bip38/bip38.py:619`: `public_key: PublicKey = PrivateKey.from_bytes(private_key).public_key()` -/
def BIP38_decrypt_L619 (H : Host) : Stmt := fun env =>
  sAssign (.name v!"public_key") (eMethod [(.PrivateKey, PrivateKey_public_key H)] noMethod (eCall (PrivateKey_from_bytes H) [(eName v!"private_key")] []) [] []) env

/-- `bip38/bip38.py:620`: `wif_type: Literal["wif", "wif-compressed"] = "wif"` -/
def BIP38_decrypt_L620 (H : Host) : Stmt := fun env =>
  sAssign (.name v!"wif_type") (eConst (.str "wif".toList)) env

/-- `bip38/bip38.py:621`: `public_key_type: str = "uncompressed"` -/
def BIP38_decrypt_L621 (H : Host) : Stmt := fun env =>
  sAssign (.name v!"public_key_type") (eConst (.str "uncompressed".toList)) env

/-- `bip38/bip38.py:623`: `public_key_type = "compressed"` -/
def BIP38_decrypt_L623 (H : Host) : Stmt := fun env =>
  sAssign (.name v!"public_key_type") (eConst (.str "compressed".toList)) env

/-- `bip38/bip38.py:624`: `wif_type = "wif-compressed"` -/
def BIP38_decrypt_L624 (H : Host) : Stmt := fun env =>
  sAssign (.name v!"wif_type") (eConst (.str "wif-compressed".toList)) env

/-- `bip38/bip38.py:622`: `if bytes_to_integer(flag) in FLAGS["compression"]:` -/
def BIP38_decrypt_L622 (H : Host) : Stmt := fun env =>
  sIf (eCompare (eCall (utils_bytes_to_integer H) [(eName v!"flag")] []) [(.in, (eIndex (eGlobal (const_FLAGS H)) (eConst (.str "compression".toList))))]) [BIP38_decrypt_L623 H, BIP38_decrypt_L624 H] [] env

/-- `bip38/bip38.py:625`: `address: str = P2PKHAddress.encode(` -/
def BIP38_decrypt_L625 (H : Host) : Stmt := fun env =>
  sAssign (.name v!"address") (eCall (P2PKHAddress_encode H) [] [(v!"public_key", (eName v!"public_key")), (v!"address_prefix", (eIndex (eIndex (eAttr (eAttr (eName v!"self") v!"cryptocurrency") v!"NETWORKS") (eName v!"network")) (eConst (.str "address_prefix".toList)))), (v!"public_key_type", (eName v!"public_key_type"))]) env

/-- `bip38/bip38.py:631`: `wif: str = private_key_to_wif(` -/
def BIP38_decrypt_L631 (H : Host) : Stmt := fun env =>
  sAssign (.name v!"wif") (eCall (wif_private_key_to_wif H) [] [(v!"private_key", (eName v!"private_key")), (v!"wif_type", (eName v!"wif_type")), (v!"cryptocurrency", (eAttr (eName v!"self") v!"cryptocurrency")), (v!"network", (eName v!"network"))]) env

/-- `bip38/bip38.py:634`: `lot: Optional[int] = None` -/
def BIP38_decrypt_L634 (H : Host) : Stmt := fun env =>
  sAssign (.name v!"lot") (eConst .none) env

/-- `bip38/bip38.py:635`: `sequence: Optional[int] = None` -/
def BIP38_decrypt_L635 (H : Host) : Stmt := fun env =>
  sAssign (.name v!"sequence") (eConst .none) env

/-- `bip38/bip38.py:638`: `sequence: int = bytes_to_integer(lot_and_sequence) % 4096` -/
def BIP38_decrypt_L638 (H : Host) : Stmt := fun env =>
  sAssign (.name v!"sequence") (eBin [] [] .mod (eCall (utils_bytes_to_integer H) [(eName v!"lot_and_sequence")] []) (eConst (.int 4096))) env

/-- `bip38/bip38.py:639`: `lot: int = (bytes_to_integer(lot_and_sequence) - sequence) // 4096` -/
def BIP38_decrypt_L639 (H : Host) : Stmt := fun env =>
  sAssign (.name v!"lot") (eBin [] [] .floordiv (eBin [] [] .sub (eCall (utils_bytes_to_integer H) [(eName v!"lot_and_sequence")] []) (eName v!"sequence")) (eConst (.int 4096))) env

/-- `bip38/bip38.py:637`: `if lot_and_sequence:` -/
def BIP38_decrypt_L637 (H : Host) : Stmt := fun env =>
  sIf (eName v!"lot_and_sequence") [BIP38_decrypt_L638 H, BIP38_decrypt_L639 H] [] env

/-- `bip38/bip38.py:640`: `return dict(` -/
def BIP38_decrypt_L640 (H : Host) : Stmt := fun env =>
  sReturn (eDict [("wif", (eName v!"wif")), ("private_key", (eCall (utils_bytes_to_string H) [(eName v!"private_key")] [])), ("wif_type", (eName v!"wif_type")), ("public_key", (eCall (utils_bytes_to_string H) [(eMethod [(.Point, Point_raw H), (.PublicKey, PublicKey_raw H), (.PrivateKey, PrivateKey_raw H)] noMethod (eName v!"public_key") [] [(v!"public_key_type", (eName v!"public_key_type"))])] [])), ("public_key_type", (eName v!"public_key_type")), ("seed", (eCall (utils_bytes_to_string H) [(eName v!"seed_b")] [])), ("address", (eName v!"address")), ("lot", (eName v!"lot")), ("sequence", (eName v!"sequence"))]) env

/-- `bip38/bip38.py:636`: `if detail:` -/
def BIP38_decrypt_L636 (H : Host) : Stmt := fun env =>
  sIf (eName v!"detail") [BIP38_decrypt_L637 H, BIP38_decrypt_L640 H] [] env

/-- `bip38/bip38.py:651`: `return wif` -/
def BIP38_decrypt_L651 (H : Host) : Stmt := fun env =>
  sReturn (eName v!"wif") env

/-- `bip38/bip38.py:630`: `if get_checksum(get_bytes(address, unhexlify=False)) == address_hash:` -/
def BIP38_decrypt_L630 (H : Host) : Stmt := fun env =>
  sIf (eCompare (eCall (crypto_get_checksum H) [(eCall (utils_get_bytes H) [(eName v!"address")] [(v!"unhexlify", (eConst (.bool false)))])] []) [(.eq, (eName v!"address_hash"))]) [BIP38_decrypt_L631 H, BIP38_decrypt_L634 H, BIP38_decrypt_L635 H, BIP38_decrypt_L636 H, BIP38_decrypt_L651 H] [] env

/-- `bip38/bip38.py:652`: `raise PassphraseError("Incorrect passphrase")` -/
def BIP38_decrypt_L652 (H : Host) : Stmt := fun env =>
  sRaise (Error_str H) (eCall (Error_init H .passphraseError) [(eConst (.str "Incorrect passphrase".toList))] []) env

/-- `bip38/bip38.py:654`: `raise Error(` -/
def BIP38_decrypt_L654 (H : Host) : Stmt := fun env =>
  sRaise (Error_str H) (eCall (Error_init H .error) [(eConst (.str "Invalid prefix".toList))] [(v!"expected", (eList [(eCall (utils_bytes_to_string H) [(eCall (utils_integer_to_bytes H) [(eGlobal (const_NO_EC_MULTIPLIED_PRIVATE_KEY_PREFIX H))] [])] []), (eCall (utils_bytes_to_string H) [(eCall (utils_integer_to_bytes H) [(eGlobal (const_EC_MULTIPLIED_PRIVATE_KEY_PREFIX H))] [])] [])])), (v!"got", (eCall (utils_bytes_to_string H) [(eName v!"prefix")] []))]) env

/-- `bip38/bip38.py:575`: `elif prefix == integer_to_bytes(EC_MULTIPLIED_PRIVATE_KEY_PREFIX):` -/
def BIP38_decrypt_L575 (H : Host) : Stmt := fun env =>
  sIf (eCompare (eName v!"prefix") [(.eq, (eCall (utils_integer_to_bytes H) [(eGlobal (const_EC_MULTIPLIED_PRIVATE_KEY_PREFIX H))] []))]) [BIP38_decrypt_L576 H, BIP38_decrypt_L577 H, BIP38_decrypt_L578 H, BIP38_decrypt_L580 H, BIP38_decrypt_L581 H, BIP38_decrypt_L587 H, BIP38_decrypt_L588 H, BIP38_decrypt_L590 H, BIP38_decrypt_L593 H, BIP38_decrypt_L594 H, BIP38_decrypt_L595 H, BIP38_decrypt_L596 H, BIP38_decrypt_L598 H, BIP38_decrypt_L599 H, BIP38_decrypt_L602 H, BIP38_decrypt_L603 H, BIP38_decrypt_L607 H, BIP38_decrypt_L611 H, BIP38_decrypt_L612 H, BIP38_decrypt_L616 H, BIP38_decrypt_L619 H, BIP38_decrypt_L620 H, BIP38_decrypt_L621 H, BIP38_decrypt_L622 H, BIP38_decrypt_L625 H, BIP38_decrypt_L630 H, BIP38_decrypt_L652 H] [BIP38_decrypt_L654 H] env

/-- `bip38/bip38.py:516`: `if prefix == integer_to_bytes(NO_EC_MULTIPLIED_PRIVATE_KEY_PREFIX):` -/
def BIP38_decrypt_L516 (H : Host) : Stmt := fun env =>
  sIf (eCompare (eName v!"prefix") [(.eq, (eCall (utils_integer_to_bytes H) [(eGlobal (const_NO_EC_MULTIPLIED_PRIVATE_KEY_PREFIX H))] []))]) [BIP38_decrypt_L518 H, BIP38_decrypt_L532 H, BIP38_decrypt_L535 H, BIP38_decrypt_L536 H, BIP38_decrypt_L537 H, BIP38_decrypt_L539 H, BIP38_decrypt_L540 H, BIP38_decrypt_L541 H, BIP38_decrypt_L543 H, BIP38_decrypt_L546 H, BIP38_decrypt_L549 H, BIP38_decrypt_L550 H, BIP38_decrypt_L555 H, BIP38_decrypt_L558 H, BIP38_decrypt_L561 H, BIP38_decrypt_L573 H] [BIP38_decrypt_L575 H] env

/-- `bip38/bip38.py:472-659` `BIP38.decrypt` -/
def BIP38_decrypt (H : Host) : Fn :=
  defun [⟨v!"self", none⟩, ⟨v!"encrypted_wif", none⟩, ⟨v!"passphrase", none⟩, ⟨v!"network", some ((eConst .none) Env.empty)⟩, ⟨v!"detail", some ((eConst (.bool false)) Env.empty)⟩] none
    [BIP38_decrypt_L503 H, BIP38_decrypt_L506 H, BIP38_decrypt_L508 H, BIP38_decrypt_L509 H, BIP38_decrypt_L512 H, BIP38_decrypt_L513 H, BIP38_decrypt_L514 H, BIP38_decrypt_L516 H]

end Bip38.SrcX
