import Verif.Model.Crypto
import Verif.Std.Scrypt
import Verif.Std.Aes
/-!
# The concrete external primitives
-/
namespace Bip38.Std

/-- The primitives of a real installation, up to Unicode normalisation (`nfc`) and the presence of ripemd160 in
`hashlib` (absent here, so that the bundled Python implementation is used). -/
def prims (nfc : Str → Str) : Prims where
  sha256 := sha256
  hashlibRipemd160 := none
  scrypt := scrypt
  aesEncrypt := aesEncrypt
  aesDecrypt := aesDecrypt
  nfc := nfc

end Bip38.Std
