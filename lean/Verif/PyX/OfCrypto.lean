import Verif.Py.OfCrypto
import Verif.PyX.Meaning
import Verif.SrcX.Exceptions
import Verif.SrcX.Crypto
import Verif.PyX.OfRipemd160
import Verif.PyX.OfConst
import Verif.PyX.OfUtils

/-!
# The text of `bip38/crypto.py`, with external calls as events (generated by `tools/gen_text.py`, do not edit)
-/
set_option maxRecDepth 100000
set_option linter.unusedVariables false
set_option linter.style.longLine false
namespace Bip38.SrcX.Text
open Bip38.Src Bip38.Py

/-- What `bip38/crypto.py` defines. -/
def CryptoDefs (H : Host) : Scope :=
  [(v!"ripemd160", .fn (crypto_ripemd160 H)),
   (v!"sha256", .fn (crypto_sha256 H)),
   (v!"double_sha256", .fn (crypto_double_sha256 H)),
   (v!"get_checksum", .fn (crypto_get_checksum H)),
   (v!"hash160", .fn (crypto_hash160 H))]

/-- The modules that `bip38/crypto.py` imports from. -/
def CryptoWorld (H : Host) : List (Nat × Scope) :=
  [(v!"bip38.libs.ripemd160", Ripemd160Defs H),
   (v!"bip38.const", ConstDefs H),
   (v!"bip38.utils", UtilsDefs H)]

theorem crypto_imports (H : Host) : imports [v!"bip38"] (CryptoWorld H) cryptoTree = some ((imports [v!"bip38"] (CryptoWorld H) cryptoTree).getD []) := by by_kernel

theorem crypto_definitions (H : Host) :
    definitions { lib := library H, scope := CryptoDefs H ++ (imports [v!"bip38"] (CryptoWorld H) cryptoTree).getD [], methods := (fun _ => []) 0, str := Error_str H }
      (fun _ => []) cryptoTree = some (CryptoDefs H) := by by_kernel

theorem crypto_defines (H : Host) :
    Defines H (Error_str H) [v!"bip38"] (CryptoWorld H) (fun _ => []) CryptoText (CryptoDefs H) :=
  ⟨cryptoTree, _, crypto_parse, crypto_imports H, crypto_definitions H⟩

end Bip38.SrcX.Text
