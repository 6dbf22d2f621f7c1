import Verif.Py.OfBase58
import Verif.PyX.Meaning
import Verif.SrcX.Exceptions
import Verif.SrcX.Base58

/-!
# The text of `bip38/libs/base58.py`, with external calls as events (generated by `tools/gen_text.py`, do not edit)
-/
set_option maxRecDepth 100000
set_option linter.unusedVariables false
set_option linter.style.longLine false
namespace Bip38.SrcX.Text
open Bip38.Src Bip38.Py

/-- What `bip38/libs/base58.py` defines. -/
def Base58Defs (H : Host) : Scope :=
  [(v!"__base58_alphabet", .value (eGlobal (base58_base58_alphabet H))),
   (v!"string_to_int", .fn (base58_string_to_int H)),
   (v!"ensure_string", .fn (base58_ensure_string H)),
   (v!"encode", .fn (base58_encode H)),
   (v!"check_encode", .fn (base58_check_encode H)),
   (v!"decode", .fn (base58_decode H)),
   (v!"check_decode", .fn (base58_check_decode H))]

/-- The modules that `bip38/libs/base58.py` imports from. -/
def Base58World (H : Host) : List (Nat × Scope) :=
  []

theorem base58_imports (H : Host) : imports [v!"bip38.libs", v!"bip38"] (Base58World H) base58Tree = some ((imports [v!"bip38.libs", v!"bip38"] (Base58World H) base58Tree).getD []) := by by_kernel

theorem base58_definitions (H : Host) :
    definitions { lib := library H, scope := Base58Defs H ++ (imports [v!"bip38.libs", v!"bip38"] (Base58World H) base58Tree).getD [], methods := (fun _ => []) 0, str := Error_str H }
      (fun _ => []) base58Tree = some (Base58Defs H) := by by_kernel

theorem base58_defines (H : Host) :
    Defines H (Error_str H) [v!"bip38.libs", v!"bip38"] (Base58World H) (fun _ => []) Base58Text (Base58Defs H) :=
  ⟨base58Tree, _, base58_parse, base58_imports H, base58_definitions H⟩

end Bip38.SrcX.Text
