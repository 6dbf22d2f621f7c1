import Verif.Py.OfWif
import Verif.PyX.Meaning
import Verif.SrcX.Exceptions
import Verif.SrcX.Wif
import Verif.PyX.OfBase58
import Verif.PyX.OfConst
import Verif.PyX.OfCrypto
import Verif.PyX.OfExceptions
import Verif.PyX.OfUtils
import Verif.PyX.OfPoint
import Verif.PyX.OfPublicKey
import Verif.PyX.OfPrivateKey

/-!
# The text of `bip38/wif.py`, with external calls as events (generated by `tools/gen_text.py`, do not edit)
-/
set_option maxRecDepth 100000
set_option linter.unusedVariables false
set_option linter.style.longLine false
namespace Bip38.SrcX.Text
open Bip38.Src Bip38.Py

/-- What `bip38/wif.py` defines. -/
def WifDefs (H : Host) : Scope :=
  [(v!"encode_wif", .fn (wif_encode_wif H)),
   (v!"decode_wif", .fn (wif_decode_wif H)),
   (v!"private_key_to_wif", .fn (wif_private_key_to_wif H)),
   (v!"wif_to_private_key", .fn (wif_wif_to_private_key H)),
   (v!"get_wif_type", .fn (wif_get_wif_type H)),
   (v!"get_wif_checksum", .fn (wif_get_wif_checksum H))]

/-- The modules that `bip38/wif.py` imports from. -/
def WifWorld (H : Host) : List (Nat × Scope) :=
  [(v!"bip38.libs.base58", Base58Defs H),
   (v!"bip38.cryptocurrencies", [(v!"ICryptocurrency", .value (eConst (.coin .base))), (v!"Bitcoin", .value (eConst (.coin (.coin Coins.Bitcoin))))]),
   (v!"bip38.const", ConstDefs H),
   (v!"bip38.crypto", CryptoDefs H),
   (v!"bip38.exceptions", ExceptionsDefs H),
   (v!"bip38.utils", UtilsDefs H)]

theorem wif_imports (H : Host) : imports [v!"bip38"] (WifWorld H) wifTree = some ((imports [v!"bip38"] (WifWorld H) wifTree).getD []) := by by_kernel

theorem wif_definitions (H : Host) :
    definitions { lib := library H, scope := WifDefs H ++ (imports [v!"bip38"] (WifWorld H) wifTree).getD [], methods := (fun _ => allMethods (PointOrder H) ++ allMethods (PublicKeyOrder H) ++ allMethods (PrivateKeyOrder H)) 0, str := Error_str H }
      (fun _ => allMethods (PointOrder H) ++ allMethods (PublicKeyOrder H) ++ allMethods (PrivateKeyOrder H)) wifTree = some (WifDefs H) := by by_kernel

theorem wif_defines (H : Host) :
    Defines H (Error_str H) [v!"bip38"] (WifWorld H) (fun _ => allMethods (PointOrder H) ++ allMethods (PublicKeyOrder H) ++ allMethods (PrivateKeyOrder H)) WifText (WifDefs H) :=
  ⟨wifTree, _, wif_parse, wif_imports H, wif_definitions H⟩

end Bip38.SrcX.Text
