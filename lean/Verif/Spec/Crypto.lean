import Verif.Model.Crypto
import Verif.Spec.Bytes
/-! # Specification vocabulary: hashes of byte strings, WIF payloads, address payloads -/
namespace Bip38.Spec

variable (P : Prims)

/-- SHA-256 applied twice. -/
def dsha (b : Bytes) : Bytes := P.sha256 (P.sha256 b)

/-- The 4-byte checksum of Base58Check. -/
def checksum (b : Bytes) : Bytes := (dsha P b).take 4

/-- RIPEMD-160: the one of `hashlib` if there is one, else the bundled one. -/
def rip (b : Bytes) : Bytes :=
  match P.hashlibRipemd160 with
  | some f => f b
  | none => Ripemd.ripemd160 b

/-- HASH160. -/
def h160 (b : Bytes) : Bytes := rip P (P.sha256 b)

end Bip38.Spec
