import Verif.Spec.Crypto
/-! # Specification of the Wallet Import Format -/
namespace Bip38.Spec

/-- The two WIF types of the API. -/
def IsWifType (t : String) : Prop := t = "wif" ∨ t = "wif-compressed"

/-- Payload of a WIF: bytes of the network's prefix, key, and `01` for a compressed public key. -/
def wifPayload (wifPrefix : Nat) (key : Bytes) (type : String) : Bytes :=
  prefixBytes wifPrefix ++ key ++ (if type = "wif-compressed" then [1] else [])

end Bip38.Spec
