import Verif.Py.OfExceptions
import Verif.PyX.Meaning
import Verif.SrcX.Exceptions

/-!
# The text of `bip38/exceptions.py`, with external calls as events (generated by `tools/gen_text.py`, do not edit)
-/
set_option maxRecDepth 100000
set_option linter.unusedVariables false
set_option linter.style.longLine false
namespace Bip38.SrcX.Text
open Bip38.Src Bip38.Py

/-- What `bip38/exceptions.py` defines. -/
def ExceptionsDefs (H : Host) : Scope :=
  [(v!"Error", .exc .error (Error_init H) (Error_str H)),
   (v!"CryptocurrencyError", .exc .cryptocurrencyError (Error_init H) (Error_str H)),
   (v!"NetworkError", .exc .networkError (Error_init H) (Error_str H)),
   (v!"Secp256k1Error", .exc .secp256k1Error (Error_init H) (Error_str H)),
   (v!"AddressError", .exc .addressError (Error_init H) (Error_str H)),
   (v!"WIFError", .exc .wifError (Error_init H) (Error_str H)),
   (v!"PassphraseError", .exc .passphraseError (Error_init H) (Error_str H))]

/-- The modules that `bip38/exceptions.py` imports from. -/
def ExceptionsWorld (H : Host) : List (Nat × Scope) :=
  []

theorem exceptions_imports (H : Host) : imports [v!"bip38"] (ExceptionsWorld H) exceptionsTree = some ((imports [v!"bip38"] (ExceptionsWorld H) exceptionsTree).getD []) := by by_kernel

theorem exceptions_definitions (H : Host) :
    definitions { lib := library H, scope := ExceptionsDefs H ++ (imports [v!"bip38"] (ExceptionsWorld H) exceptionsTree).getD [], methods := (fun _ => []) 0, str := Error_str H }
      (fun _ => []) exceptionsTree = some (ExceptionsDefs H) := by by_kernel

theorem exceptions_defines (H : Host) :
    Defines H (Error_str H) [v!"bip38"] (ExceptionsWorld H) (fun _ => []) ExceptionsText (ExceptionsDefs H) :=
  ⟨exceptionsTree, _, exceptions_parse, exceptions_imports H, exceptions_definitions H⟩

end Bip38.SrcX.Text
