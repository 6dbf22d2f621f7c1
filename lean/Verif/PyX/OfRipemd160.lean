import Verif.Py.OfRipemd160
import Verif.PyX.Meaning
import Verif.SrcX.Exceptions
import Verif.SrcX.Ripemd160

/-!
# The text of `bip38/libs/ripemd160.py`, with external calls as events (generated by `tools/gen_text.py`, do not edit)
-/
set_option maxRecDepth 100000
set_option linter.unusedVariables false
set_option linter.style.longLine false
namespace Bip38.SrcX.Text
open Bip38.Src Bip38.Py

/-- What `bip38/libs/ripemd160.py` defines. -/
def Ripemd160Defs (H : Host) : Scope :=
  [(v!"ML", .value (eGlobal (ripemd160_ML H))),
   (v!"MR", .value (eGlobal (ripemd160_MR H))),
   (v!"RL", .value (eGlobal (ripemd160_RL H))),
   (v!"RR", .value (eGlobal (ripemd160_RR H))),
   (v!"KL", .value (eGlobal (ripemd160_KL H))),
   (v!"KR", .value (eGlobal (ripemd160_KR H))),
   (v!"fi", .fn (ripemd160_fi H)),
   (v!"rol", .fn (ripemd160_rol H)),
   (v!"compress", .fn (ripemd160_compress H)),
   (v!"ripemd160", .fn (ripemd160_ripemd160 H))]

/-- The modules that `bip38/libs/ripemd160.py` imports from. -/
def Ripemd160World (H : Host) : List (Nat × Scope) :=
  []

theorem ripemd160_imports (H : Host) : imports [v!"bip38.libs", v!"bip38"] (Ripemd160World H) ripemd160Tree = some ((imports [v!"bip38.libs", v!"bip38"] (Ripemd160World H) ripemd160Tree).getD []) := by by_kernel

theorem ripemd160_definitions (H : Host) :
    definitions { lib := library H, scope := Ripemd160Defs H ++ (imports [v!"bip38.libs", v!"bip38"] (Ripemd160World H) ripemd160Tree).getD [], methods := (fun _ => []) 0, str := Error_str H }
      (fun _ => []) ripemd160Tree = some (Ripemd160Defs H) := by by_kernel

theorem ripemd160_defines (H : Host) :
    Defines H (Error_str H) [v!"bip38.libs", v!"bip38"] (Ripemd160World H) (fun _ => []) Ripemd160Text (Ripemd160Defs H) :=
  ⟨ripemd160Tree, _, ripemd160_parse, ripemd160_imports H, ripemd160_definitions H⟩

end Bip38.SrcX.Text
