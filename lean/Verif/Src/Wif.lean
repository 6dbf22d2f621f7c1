import Verif.Src.Crypto
import Verif.Src.Base58
import Verif.Src.Point
/-!
# `bip38/wif.py` (generated by `tools/gen_src.py`, do not edit)
-/
set_option linter.unusedVariables false
set_option linter.style.longLine false
namespace Bip38.Src

/-- `bip38/wif.py:45`: `raise Secp256k1Error("Invalid private key length", expected=64, got=len(private_key))` -/
@[src] def wif_encode_wif_L45 (H : Host) : Stmt := fun env =>
  sRaise (Error_str H) (eCall (Error_init H .secp256k1Error) [(eConst (.str "Invalid private key length".toList))] [(v!"expected", (eConst (.int 64))), (v!"got", (eCall pyLen [(eName v!"private_key")] []))]) env

/-- `bip38/wif.py:44`: `if len(get_bytes(private_key)) != 32:` -/
@[src] def wif_encode_wif_L44 (H : Host) : Stmt := fun env =>
  sIf (eCompare (eCall pyLen [(eCall (utils_get_bytes H) [(eName v!"private_key")] [])] []) [(.ne, (eConst (.int 32)))]) [wif_encode_wif_L45 H] [] env

/-- `bip38/wif.py:47`: `wif_payload: bytes = (` -/
@[src] def wif_encode_wif_L47 (H : Host) : Stmt := fun env =>
  sAssign (.name v!"wif_payload") (eBin [(.Point, Point_add H)] [(.Point, Point_radd H)] .add (eCall (utils_integer_to_bytes H) [(eName v!"wif_prefix")] []) (eCall (utils_get_bytes H) [(eName v!"private_key")] [])) env

/-- `bip38/wif.py:50`: `wif_compressed_payload: bytes = (` -/
@[src] def wif_encode_wif_L50 (H : Host) : Stmt := fun env =>
  sAssign (.name v!"wif_compressed_payload") (eBin [(.Point, Point_add H)] [(.Point, Point_radd H)] .add (eBin [(.Point, Point_add H)] [(.Point, Point_radd H)] .add (eCall (utils_integer_to_bytes H) [(eName v!"wif_prefix")] []) (eCall (utils_get_bytes H) [(eName v!"private_key")] [])) (eCall (utils_integer_to_bytes H) [(eGlobal (const_COMPRESSED_PRIVATE_KEY_PREFIX H))] [])) env

/-- `bip38/wif.py:53`: `return (` -/
@[src] def wif_encode_wif_L53 (H : Host) : Stmt := fun env =>
  sReturn (eTuple [(eCall (base58_encode H) [(eBin [(.Point, Point_add H)] [(.Point, Point_radd H)] .add (eName v!"wif_payload") (eCall (crypto_get_checksum H) [(eName v!"wif_payload")] []))] []), (eCall (base58_encode H) [(eBin [(.Point, Point_add H)] [(.Point, Point_radd H)] .add (eName v!"wif_compressed_payload") (eCall (crypto_get_checksum H) [(eName v!"wif_compressed_payload")] []))] [])]) env

/-- `bip38/wif.py:29-56` `encode_wif` -/
def wif_encode_wif (H : Host) : Fn :=
  defun [⟨v!"private_key", none⟩, ⟨v!"wif_prefix", some ((eIndex (eIndex (eAttr (eConst (.coin (.coin Coins.Bitcoin))) v!"NETWORKS") (eConst (.str "mainnet".toList))) (eConst (.str "wif_prefix".toList))) Env.empty)⟩] none
    [wif_encode_wif_L44 H, wif_encode_wif_L47 H, wif_encode_wif_L50 H, wif_encode_wif_L53 H]

/-- `bip38/wif.py:74`: `raw: bytes = decode(wif)` -/
@[src] def wif_decode_wif_L74 (H : Host) : Stmt := fun env =>
  sAssign (.name v!"raw") (eCall (base58_decode H) [(eName v!"wif")] []) env

/-- `bip38/wif.py:76`: `raise WIFError(f"Invalid Wallet Import Format (WIF)")` -/
@[src] def wif_decode_wif_L76 (H : Host) : Stmt := fun env =>
  sRaise (Error_str H) (eCall (Error_init H .wifError) [(eFormat [.lit "Invalid Wallet Import Format (WIF)"])] []) env

/-- `bip38/wif.py:75`: `if not raw.startswith(integer_to_bytes(wif_prefix)):` -/
@[src] def wif_decode_wif_L75 (H : Host) : Stmt := fun env =>
  sIf (eNot (eMethod [] mStartswith (eName v!"raw") [(eCall (utils_integer_to_bytes H) [(eName v!"wif_prefix")] [])] [])) [wif_decode_wif_L76 H] [] env

/-- `bip38/wif.py:78`: `prefix_length: int = len(integer_to_bytes(wif_prefix))` -/
@[src] def wif_decode_wif_L78 (H : Host) : Stmt := fun env =>
  sAssign (.name v!"prefix_length") (eCall pyLen [(eCall (utils_integer_to_bytes H) [(eName v!"wif_prefix")] [])] []) env

/-- `bip38/wif.py:79`: `prefix_got: bytes = raw[:prefix_length]` -/
@[src] def wif_decode_wif_L79 (H : Host) : Stmt := fun env =>
  sAssign (.name v!"prefix_got") (eSlice (eName v!"raw") none (some (eName v!"prefix_length"))) env

/-- `bip38/wif.py:81`: `raise WIFError("Invalid WIF prefix", expected=prefix_length, got=prefix_got)` -/
@[src] def wif_decode_wif_L81 (H : Host) : Stmt := fun env =>
  sRaise (Error_str H) (eCall (Error_init H .wifError) [(eConst (.str "Invalid WIF prefix".toList))] [(v!"expected", (eName v!"prefix_length")), (v!"got", (eName v!"prefix_got"))]) env

/-- `bip38/wif.py:80`: `if integer_to_bytes(wif_prefix) != prefix_got:` -/
@[src] def wif_decode_wif_L80 (H : Host) : Stmt := fun env =>
  sIf (eCompare (eCall (utils_integer_to_bytes H) [(eName v!"wif_prefix")] []) [(.ne, (eName v!"prefix_got"))]) [wif_decode_wif_L81 H] [] env

/-- `bip38/wif.py:83`: `raw_without_prefix: bytes = raw[prefix_length:]` -/
@[src] def wif_decode_wif_L83 (H : Host) : Stmt := fun env =>
  sAssign (.name v!"raw_without_prefix") (eSlice (eName v!"raw") (some (eName v!"prefix_length")) none) env

/-- `bip38/wif.py:84`: `checksum: bytes = raw_without_prefix[-1 * 4:]` -/
@[src] def wif_decode_wif_L84 (H : Host) : Stmt := fun env =>
  sAssign (.name v!"checksum") (eSlice (eName v!"raw_without_prefix") (some (eBin [(.Point, Point_mul H)] [(.Point, Point_rmul H)] .mul (eNeg (eConst (.int 1))) (eConst (.int 4)))) none) env

/-- `bip38/wif.py:85`: `private_key: bytes = raw_without_prefix[:-1 * 4]` -/
@[src] def wif_decode_wif_L85 (H : Host) : Stmt := fun env =>
  sAssign (.name v!"private_key") (eSlice (eName v!"raw_without_prefix") none (some (eBin [(.Point, Point_mul H)] [(.Point, Point_rmul H)] .mul (eNeg (eConst (.int 1))) (eConst (.int 4))))) env

/-- `bip38/wif.py:86`: `wif_type: str = "wif"` -/
@[src] def wif_decode_wif_L86 (H : Host) : Stmt := fun env =>
  sAssign (.name v!"wif_type") (eConst (.str "wif".toList)) env

/-- `bip38/wif.py:89`: `raise WIFError(f"Invalid Wallet Import Format (WIF)")` -/
@[src] def wif_decode_wif_L89 (H : Host) : Stmt := fun env =>
  sRaise (Error_str H) (eCall (Error_init H .wifError) [(eFormat [.lit "Invalid Wallet Import Format (WIF)"])] []) env

/-- `bip38/wif.py:91`: `private_key = private_key[:-len(integer_to_bytes(COMPRESSED_PRIVATE_KEY_PREFIX))]` -/
@[src] def wif_decode_wif_L91 (H : Host) : Stmt := fun env =>
  sAssign (.name v!"private_key") (eSlice (eName v!"private_key") none (some (eNeg (eCall pyLen [(eCall (utils_integer_to_bytes H) [(eGlobal (const_COMPRESSED_PRIVATE_KEY_PREFIX H))] [])] [])))) env

/-- `bip38/wif.py:92`: `wif_type = "wif-compressed"` -/
@[src] def wif_decode_wif_L92 (H : Host) : Stmt := fun env =>
  sAssign (.name v!"wif_type") (eConst (.str "wif-compressed".toList)) env

/-- `bip38/wif.py:90`: `elif len(private_key) == 33:` -/
@[src] def wif_decode_wif_L90 (H : Host) : Stmt := fun env =>
  sIf (eCompare (eCall pyLen [(eName v!"private_key")] []) [(.eq, (eConst (.int 33)))]) [wif_decode_wif_L91 H, wif_decode_wif_L92 H] [] env

/-- `bip38/wif.py:88`: `if len(private_key) not in [33, 32]:` -/
@[src] def wif_decode_wif_L88 (H : Host) : Stmt := fun env =>
  sIf (eCompare (eCall pyLen [(eName v!"private_key")] []) [(.notIn, (eList [(eConst (.int 33)), (eConst (.int 32))]))]) [wif_decode_wif_L89 H] [wif_decode_wif_L90 H] env

/-- `bip38/wif.py:94`: `return private_key, wif_type, checksum` -/
@[src] def wif_decode_wif_L94 (H : Host) : Stmt := fun env =>
  sReturn (eTuple [(eName v!"private_key"), (eName v!"wif_type"), (eName v!"checksum")]) env

/-- `bip38/wif.py:59-94` `decode_wif` -/
def wif_decode_wif (H : Host) : Fn :=
  defun [⟨v!"wif", none⟩, ⟨v!"wif_prefix", some ((eIndex (eIndex (eAttr (eConst (.coin (.coin Coins.Bitcoin))) v!"NETWORKS") (eConst (.str "mainnet".toList))) (eConst (.str "wif_prefix".toList))) Env.empty)⟩] none
    [wif_decode_wif_L74 H, wif_decode_wif_L75 H, wif_decode_wif_L78 H, wif_decode_wif_L79 H, wif_decode_wif_L80 H, wif_decode_wif_L83 H, wif_decode_wif_L84 H, wif_decode_wif_L85 H, wif_decode_wif_L86 H, wif_decode_wif_L88 H, wif_decode_wif_L94 H]

/-- `bip38/wif.py:120`: `raise WIFError("Wrong WIF type", expected=WIF_TYPES, got=wif_type)` -/
@[src] def wif_private_key_to_wif_L120 (H : Host) : Stmt := fun env =>
  sRaise (Error_str H) (eCall (Error_init H .wifError) [(eConst (.str "Wrong WIF type".toList))] [(v!"expected", (eGlobal (const_WIF_TYPES H))), (v!"got", (eName v!"wif_type"))]) env

/-- `bip38/wif.py:119`: `if wif_type not in WIF_TYPES:` -/
@[src] def wif_private_key_to_wif_L119 (H : Host) : Stmt := fun env =>
  sIf (eCompare (eName v!"wif_type") [(.notIn, (eGlobal (const_WIF_TYPES H)))]) [wif_private_key_to_wif_L120 H] [] env

/-- `bip38/wif.py:121`: `wif, wif_compressed = encode_wif(` -/
@[src] def wif_private_key_to_wif_L121 (H : Host) : Stmt := fun env =>
  sUnpack [.name v!"wif", .name v!"wif_compressed"] (eCall (wif_encode_wif H) [] [(v!"private_key", (eName v!"private_key")), (v!"wif_prefix", (eIndex (eIndex (eAttr (eName v!"cryptocurrency") v!"NETWORKS") (eName v!"network")) (eConst (.str "wif_prefix".toList))))]) env

/-- `bip38/wif.py:124`: `return wif if wif_type == "wif" else wif_compressed` -/
@[src] def wif_private_key_to_wif_L124 (H : Host) : Stmt := fun env =>
  sReturn (eIf (eCompare (eName v!"wif_type") [(.eq, (eConst (.str "wif".toList)))]) (eName v!"wif") (eName v!"wif_compressed")) env

/-- `bip38/wif.py:97-124` `private_key_to_wif` -/
def wif_private_key_to_wif (H : Host) : Fn :=
  defun [⟨v!"private_key", none⟩, ⟨v!"wif_type", some ((eConst (.str "wif-compressed".toList)) Env.empty)⟩, ⟨v!"cryptocurrency", some ((eConst (.coin (.coin Coins.Bitcoin))) Env.empty)⟩, ⟨v!"network", some ((eConst (.str "mainnet".toList)) Env.empty)⟩] none
    [wif_private_key_to_wif_L119 H, wif_private_key_to_wif_L121 H, wif_private_key_to_wif_L124 H]

/-- `bip38/wif.py:144`: `return bytes_to_string(decode_wif(` -/
@[src] def wif_wif_to_private_key_L144 (H : Host) : Stmt := fun env =>
  sReturn (eCall (utils_bytes_to_string H) [(eIndex (eCall (wif_decode_wif H) [] [(v!"wif", (eName v!"wif")), (v!"wif_prefix", (eIndex (eIndex (eAttr (eName v!"cryptocurrency") v!"NETWORKS") (eName v!"network")) (eConst (.str "wif_prefix".toList))))]) (eConst (.int 0)))] []) env

/-- `bip38/wif.py:127-146` `wif_to_private_key` -/
def wif_wif_to_private_key (H : Host) : Fn :=
  defun [⟨v!"wif", none⟩, ⟨v!"cryptocurrency", some ((eConst (.coin (.coin Coins.Bitcoin))) Env.empty)⟩, ⟨v!"network", some ((eConst (.str "mainnet".toList)) Env.empty)⟩] none
    [wif_wif_to_private_key_L144 H]

/-- `bip38/wif.py:166`: `return decode_wif(` -/
@[src] def wif_get_wif_type_L166 (H : Host) : Stmt := fun env =>
  sReturn (eIndex (eCall (wif_decode_wif H) [] [(v!"wif", (eName v!"wif")), (v!"wif_prefix", (eIndex (eIndex (eAttr (eName v!"cryptocurrency") v!"NETWORKS") (eName v!"network")) (eConst (.str "wif_prefix".toList))))]) (eConst (.int 1))) env

/-- `bip38/wif.py:149-168` `get_wif_type` -/
def wif_get_wif_type (H : Host) : Fn :=
  defun [⟨v!"wif", none⟩, ⟨v!"cryptocurrency", some ((eConst (.coin (.coin Coins.Bitcoin))) Env.empty)⟩, ⟨v!"network", some ((eConst (.str "mainnet".toList)) Env.empty)⟩] none
    [wif_get_wif_type_L166 H]

/-- `bip38/wif.py:188`: `return bytes_to_string(decode_wif(` -/
@[src] def wif_get_wif_checksum_L188 (H : Host) : Stmt := fun env =>
  sReturn (eCall (utils_bytes_to_string H) [(eIndex (eCall (wif_decode_wif H) [] [(v!"wif", (eName v!"wif")), (v!"wif_prefix", (eIndex (eIndex (eAttr (eName v!"cryptocurrency") v!"NETWORKS") (eName v!"network")) (eConst (.str "wif_prefix".toList))))]) (eConst (.int 2)))] []) env

/-- `bip38/wif.py:171-190` `get_wif_checksum` -/
def wif_get_wif_checksum (H : Host) : Fn :=
  defun [⟨v!"wif", none⟩, ⟨v!"cryptocurrency", some ((eConst (.coin (.coin Coins.Bitcoin))) Env.empty)⟩, ⟨v!"network", some ((eConst (.str "mainnet".toList)) Env.empty)⟩] none
    [wif_get_wif_checksum_L188 H]

end Bip38.Src
