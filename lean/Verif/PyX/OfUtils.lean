import Verif.Py.OfUtils
import Verif.PyX.Meaning
import Verif.SrcX.Exceptions
import Verif.SrcX.Utils

/-!
# The text of `bip38/utils.py`, with external calls as events (generated by `tools/gen_text.py`, do not edit)
-/
set_option maxRecDepth 100000
set_option linter.unusedVariables false
set_option linter.style.longLine false
namespace Bip38.SrcX.Text
open Bip38.Src Bip38.Py

/-- What `bip38/utils.py` defines. -/
def UtilsDefs (H : Host) : Scope :=
  [(v!"get_bytes", .fn (utils_get_bytes H)),
   (v!"bytes_reverse", .fn (utils_bytes_reverse H)),
   (v!"bytes_to_string", .fn (utils_bytes_to_string H)),
   (v!"bytes_to_integer", .fn (utils_bytes_to_integer H)),
   (v!"integer_to_bytes", .fn (utils_integer_to_bytes H))]

/-- The modules that `bip38/utils.py` imports from. -/
def UtilsWorld (H : Host) : List (Nat × Scope) :=
  []

theorem utils_imports (H : Host) : imports [v!"bip38"] (UtilsWorld H) utilsTree = some ((imports [v!"bip38"] (UtilsWorld H) utilsTree).getD []) := by by_kernel

theorem utils_definitions (H : Host) :
    definitions { lib := library H, scope := UtilsDefs H ++ (imports [v!"bip38"] (UtilsWorld H) utilsTree).getD [], methods := (fun _ => []) 0, str := Error_str H }
      (fun _ => []) utilsTree = some (UtilsDefs H) := by by_kernel

theorem utils_defines (H : Host) :
    Defines H (Error_str H) [v!"bip38"] (UtilsWorld H) (fun _ => []) UtilsText (UtilsDefs H) :=
  ⟨utilsTree, _, utils_parse, utils_imports H, utils_definitions H⟩

end Bip38.SrcX.Text
