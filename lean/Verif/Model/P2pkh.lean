import Verif.Model.Crypto
import Verif.Model.Coins
import Verif.Model.Exceptions
import Verif.Model.Secp256k1
/-!
# Model of `bip38/p2pkh_address.py`

Keyword arguments have the defaults of `bip38/p2pkh_address.py:25-26` (Bitcoin mainnet prefix, Bitcoin alphabet) and
`:54` (`"compressed"`).
-/
namespace Bip38

variable (P : Prims)

/-- The `public_key` argument: a `PublicKey` object, or bytes / hex text. -/
inductive PkArg
  | key (k : PublicKey)
  | data (d : Data)

/-- `bip38/p2pkh_address.py:28-62` `P2PKHAddress.encode`. -/
def p2pkhEncode (publicKey : PkArg) (addressPrefix : Int := 0x00) (publicKeyType : String := "compressed")
    (alphabet : Str := bitcoinAlphabet) : Py Str := do
  let pre ← integerToBytes addressPrefix
  let pk ← match publicKey with
    | .key k => (.ok k : Py PublicKey)
    | .data d => do PublicKey.fromBytes (← getBytes d)
  let publicKeyHash ← hash160 P (.bytes
    (if publicKeyType = "compressed" then pk.rawCompressed else pk.rawUncompressed))
  .ok (ensureString (checkEncode P.sha256 (pre ++ publicKeyHash) alphabet))

/-- `bip38/p2pkh_address.py:64-97` `P2PKHAddress.decode`. -/
def p2pkhDecode (address : Str) (addressPrefix : Int := 0x00) (alphabet : Str := bitcoinAlphabet) : Py Str := do
  let pre ← integerToBytes addressPrefix
  let addressDecode ← checkDecode P.sha256 address alphabet
  let expectedLength := 20 + pre.length
  raiseIf (addressDecode.length ≠ expectedLength) .addressError
    ("Invalid length (expected: " ++ toString expectedLength ++ ", got: " ++ toString addressDecode.length ++ ")")
  let prefixGot := addressDecode.take pre.length
  raiseIf (pre ≠ prefixGot) .addressError
    ("Invalid prefix (expected: " ++ String.ofList (bytesRepr pre) ++ ", got: " ++ String.ofList (bytesRepr prefixGot) ++ ")")
  bytesToString (.bytes (addressDecode.drop pre.length))

end Bip38
