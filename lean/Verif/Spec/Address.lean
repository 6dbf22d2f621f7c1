import Verif.Spec.Crypto
import Verif.Model.Secp256k1
/-! # Specification of P2PKH addresses -/
namespace Bip38.Spec

/-- Public key serialisation selected by `public_key_type` (SEC1). -/
def sec1 (k : PublicKey) (type : String) : Bytes :=
  if type = "compressed" then [if k.y % 2 = 0 then 2 else 3] ++ toBE 32 k.x
  else [4] ++ toBE 32 k.x ++ toBE 32 k.y

/-- Payload of the P2PKH address of a public key. -/
def addressPayload (P : Prims) (addressPrefix : Nat) (k : PublicKey) (type : String) : Bytes :=
  prefixBytes addressPrefix ++ h160 P (sec1 k type)

end Bip38.Spec
