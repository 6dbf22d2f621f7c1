import Verif.Model.Crypto
import Verif.Model.Coins
import Verif.Model.Exceptions
/-!
# Model of `bip38/wif.py`

The parameters `cryptocurrency` and `network` only serve to look up `NETWORKS[network]["wif_prefix"]`; an unknown
network is Python's `KeyError`.
-/
namespace Bip38

variable (P : Prims)

/-- `len(x)` of `bytes` or `str`. -/
def Data.len : Data → Nat
  | .bytes b => b.length
  | .str s => s.length
  | _ => 0

/-- `bip38/wif.py:29-56` `encode_wif`.  When the length is wrong, the error text needs `len(private_key)`, which is a
`TypeError` for `None`. -/
def encodeWif (privateKey : Data) (wifPrefix : Int := 0x80) : Py (Str × Str) := do
  let key ← getBytes privateKey
  raiseIf (key.length ≠ 32 ∧ privateKey = .none) .typeError "object of type 'NoneType' has no len()"
  raiseIf (key.length ≠ 32) .secp256k1Error
    (errText "Invalid private key length" (.one true "64".toList) (toString privateKey.len))
  let pre ← integerToBytes wifPrefix
  let one ← integerToBytes COMPRESSED_PRIVATE_KEY_PREFIX
  let payload := pre ++ key
  let compressedPayload := pre ++ key ++ one
  let chk ← getChecksum P (.bytes payload)
  let chkC ← getChecksum P (.bytes compressedPayload)
  .ok (b58encode (payload ++ chk), b58encode (compressedPayload ++ chkC))

/-- `bip38/wif.py:59-94` `decode_wif`: private key, WIF type, checksum. -/
def decodeWif (wif : Str) (wifPrefix : Int := 0x80) : Py (Bytes × String × Bytes) := do
  let raw ← b58decode wif
  let pre ← integerToBytes wifPrefix
  raiseIf (¬ pre.isPrefixOf raw) .wifError "Invalid Wallet Import Format (WIF)"
  let prefixLength := pre.length
  let prefixGot := raw.take prefixLength
  raiseIf (pre ≠ prefixGot) .wifError
    (errText "Invalid WIF prefix" (.one true (toString prefixLength).toList) (String.ofList (bytesRepr prefixGot)))
  let rawWithoutPrefix := raw.drop prefixLength
  let checksum := lastN 4 rawWithoutPrefix
  let privateKey := dropLastN 4 rawWithoutPrefix
  let one ← integerToBytes COMPRESSED_PRIVATE_KEY_PREFIX
  if privateKey.length ≠ 33 ∧ privateKey.length ≠ 32 then
    raise .wifError "Invalid Wallet Import Format (WIF)"
  else if privateKey.length = 33 then
    .ok (dropLastN one.length privateKey, "wif-compressed", checksum)
  else .ok (privateKey, "wif", checksum)

/-- `cryptocurrency.NETWORKS[network]`: an unknown network raises Python's `KeyError`. -/
def lookupNet (c : Coin) (network : String) : Py Net :=
  match c.net? network with
  | some n => .ok n
  | none => raise .keyError network

/-- `bip38/wif.py:97-124` `private_key_to_wif`. -/
def privateKeyToWif (privateKey : Data) (wifType : String := "wif-compressed") (coin : Coin := Coins.Bitcoin)
    (network : String := "mainnet") : Py Str := do
  raiseIf (wifType ∉ WIF_TYPES) .wifError (errText "Wrong WIF type" (.list (WIF_TYPES.map String.toList)) wifType)
  let net ← lookupNet coin network
  let (wif, wifCompressed) ← encodeWif P privateKey net.wifPrefix
  .ok (if wifType = "wif" then wif else wifCompressed)

/-- `bip38/wif.py:127-146` `wif_to_private_key`. -/
def wifToPrivateKey (wif : Str) (coin : Coin := Coins.Bitcoin) (network : String := "mainnet") : Py Str := do
  let net ← lookupNet coin network
  let (key, _, _) ← decodeWif wif net.wifPrefix
  bytesToString (.bytes key)

/-- `bip38/wif.py:149-168` `get_wif_type`. -/
def getWifType (wif : Str) (coin : Coin := Coins.Bitcoin) (network : String := "mainnet") : Py String := do
  let net ← lookupNet coin network
  let (_, type, _) ← decodeWif wif net.wifPrefix
  .ok type

/-- `bip38/wif.py:171-190` `get_wif_checksum`. -/
def getWifChecksum (wif : Str) (coin : Coin := Coins.Bitcoin) (network : String := "mainnet") : Py Str := do
  let net ← lookupNet coin network
  let (_, _, checksum) ← decodeWif wif net.wifPrefix
  bytesToString (.bytes checksum)

end Bip38
