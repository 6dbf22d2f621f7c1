import Verif.SrcX.Crypto
import Verif.SrcX.Base58
import Verif.SrcX.PublicKey
/-!
# `bip38/p2pkh_address.py` (generated by `tools/gen_src.py` and `tools/gen_sim.py`, do not edit)
-/
set_option linter.unusedVariables false
set_option linter.style.longLine false
namespace Bip38.SrcX

open Bip38.Src

/-- `bip38/p2pkh_address.py:25` `address_prefix` -/
def P2PKHAddress_address_prefix (H : Host) : Run Val :=
  (eIndex (eIndex (eAttr (eConst (.coin (.coin Coins.Bitcoin))) v!"NETWORKS") (eConst (.str "mainnet".toList))) (eConst (.str "address_prefix".toList))) Env.empty

/-- `bip38/p2pkh_address.py:26` `alphabet` -/
def P2PKHAddress_alphabet (H : Host) : Run Val :=
  (eAttr (eConst (.coin (.coin Coins.Bitcoin))) v!"ALPHABET") Env.empty

/-- `bip38/p2pkh_address.py:45`: `address_prefix: bytes = integer_to_bytes(` -/
def P2PKHAddress_encode_L45 (H : Host) : Stmt := fun env =>
  sAssign (.name v!"address_prefix") (eCall (utils_integer_to_bytes H) [(eKwargsGet (eName v!"kwargs") v!"address_prefix" (eGlobal (P2PKHAddress_address_prefix H)))] []) env

/-- `bip38/p2pkh_address.py:50`: `public_key: PublicKey = PublicKey.from_bytes(get_bytes(public_key))` -/
def P2PKHAddress_encode_L50 (H : Host) : Stmt := fun env =>
  sAssign (.name v!"public_key") (eCall (PublicKey_from_bytes H) [(eCall (utils_get_bytes H) [(eName v!"public_key")] [])] []) env

/-- `bip38/p2pkh_address.py:49`: `if not isinstance(public_key, PublicKey):` -/
def P2PKHAddress_encode_L49 (H : Host) : Stmt := fun env =>
  sIf (eNot (eCall pyIsinstance [(eName v!"public_key"), (eConst (.type (.cls .PublicKey)))] [])) [P2PKHAddress_encode_L50 H] [] env

/-- `bip38/p2pkh_address.py:52`: `public_key_hash: bytes = hash160(` -/
def P2PKHAddress_encode_L52 (H : Host) : Stmt := fun env =>
  sAssign (.name v!"public_key_hash") (eCall (crypto_hash160 H) [(eIf (eCompare (eKwargsGet (eName v!"kwargs") v!"public_key_type" (eConst (.str "compressed".toList))) [(.eq, (eConst (.str "compressed".toList)))]) (eMethod [(.PublicKey, PublicKey_raw_compressed H)] noMethod (eName v!"public_key") [] []) (eMethod [(.PublicKey, PublicKey_raw_uncompressed H)] noMethod (eName v!"public_key") [] []))] []) env

/-- `bip38/p2pkh_address.py:58`: `return ensure_string(check_encode(` -/
def P2PKHAddress_encode_L58 (H : Host) : Stmt := fun env =>
  sReturn (eCall (base58_ensure_string H) [(eCall (base58_check_encode H) [(eBin [(.Point, Point_add H)] [(.Point, Point_radd H)] .add (eName v!"address_prefix") (eName v!"public_key_hash"))] [(v!"alphabet", (eKwargsGet (eName v!"kwargs") v!"alphabet" (eGlobal (P2PKHAddress_alphabet H))))])] []) env

/-- `bip38/p2pkh_address.py:29-62` `P2PKHAddress.encode` -/
def P2PKHAddress_encode (H : Host) : Fn :=
  defun [⟨v!"public_key", none⟩] (some v!"kwargs")
    [P2PKHAddress_encode_L45 H, P2PKHAddress_encode_L49 H, P2PKHAddress_encode_L52 H, P2PKHAddress_encode_L58 H]

/-- `bip38/p2pkh_address.py:80`: `address_prefix: bytes = integer_to_bytes(` -/
def P2PKHAddress_decode_L80 (H : Host) : Stmt := fun env =>
  sAssign (.name v!"address_prefix") (eCall (utils_integer_to_bytes H) [(eKwargsGet (eName v!"kwargs") v!"address_prefix" (eGlobal (P2PKHAddress_address_prefix H)))] []) env

/-- `bip38/p2pkh_address.py:83`: `address_decode: bytes = check_decode(` -/
def P2PKHAddress_decode_L83 (H : Host) : Stmt := fun env =>
  sAssign (.name v!"address_decode") (eCall (base58_check_decode H) [(eName v!"address")] [(v!"alphabet", (eKwargsGet (eName v!"kwargs") v!"alphabet" (eGlobal (P2PKHAddress_alphabet H))))]) env

/-- `bip38/p2pkh_address.py:89`: `expected_length: int = 20 + len(address_prefix)` -/
def P2PKHAddress_decode_L89 (H : Host) : Stmt := fun env =>
  sAssign (.name v!"expected_length") (eBin [(.Point, Point_add H)] [(.Point, Point_radd H)] .add (eConst (.int 20)) (eCall pyLen [(eName v!"address_prefix")] [])) env

/-- `bip38/p2pkh_address.py:91`: `raise AddressError(f"Invalid length (expected: {expected_length}, got: {len(address_decode)})")` -/
def P2PKHAddress_decode_L91 (H : Host) : Stmt := fun env =>
  sRaise (Error_str H) (eCall (Error_init H .addressError) [(eFormat [.lit "Invalid length (expected: ", .val (eName v!"expected_length"), .lit ", got: ", .val (eCall pyLen [(eName v!"address_decode")] []), .lit ")"])] []) env

/-- `bip38/p2pkh_address.py:90`: `if len(address_decode) != expected_length:` -/
def P2PKHAddress_decode_L90 (H : Host) : Stmt := fun env =>
  sIf (eCompare (eCall pyLen [(eName v!"address_decode")] []) [(.ne, (eName v!"expected_length"))]) [P2PKHAddress_decode_L91 H] [] env

/-- `bip38/p2pkh_address.py:93`: `prefix_got: bytes = address_decode[:len(address_prefix)]` -/
def P2PKHAddress_decode_L93 (H : Host) : Stmt := fun env =>
  sAssign (.name v!"prefix_got") (eSlice (eName v!"address_decode") none (some (eCall pyLen [(eName v!"address_prefix")] []))) env

/-- `bip38/p2pkh_address.py:95`: `raise AddressError(f"Invalid prefix (expected: {address_prefix}, got: {prefix_got})")` -/
def P2PKHAddress_decode_L95 (H : Host) : Stmt := fun env =>
  sRaise (Error_str H) (eCall (Error_init H .addressError) [(eFormat [.lit "Invalid prefix (expected: ", .val (eName v!"address_prefix"), .lit ", got: ", .val (eName v!"prefix_got"), .lit ")"])] []) env

/-- `bip38/p2pkh_address.py:94`: `if address_prefix != prefix_got:` -/
def P2PKHAddress_decode_L94 (H : Host) : Stmt := fun env =>
  sIf (eCompare (eName v!"address_prefix") [(.ne, (eName v!"prefix_got"))]) [P2PKHAddress_decode_L95 H] [] env

/-- `bip38/p2pkh_address.py:97`: `return bytes_to_string(address_decode[len(address_prefix):])` -/
def P2PKHAddress_decode_L97 (H : Host) : Stmt := fun env =>
  sReturn (eCall (utils_bytes_to_string H) [(eSlice (eName v!"address_decode") (some (eCall pyLen [(eName v!"address_prefix")] [])) none)] []) env

/-- `bip38/p2pkh_address.py:65-97` `P2PKHAddress.decode` -/
def P2PKHAddress_decode (H : Host) : Fn :=
  defun [⟨v!"address", none⟩] (some v!"kwargs")
    [P2PKHAddress_decode_L80 H, P2PKHAddress_decode_L83 H, P2PKHAddress_decode_L89 H, P2PKHAddress_decode_L90 H, P2PKHAddress_decode_L93 H, P2PKHAddress_decode_L94 H, P2PKHAddress_decode_L97 H]

end Bip38.SrcX
