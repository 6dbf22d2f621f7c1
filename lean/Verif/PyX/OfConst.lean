import Verif.Py.OfConst
import Verif.PyX.Meaning
import Verif.SrcX.Exceptions
import Verif.SrcX.Const

/-!
# The text of `bip38/const.py`, with external calls as events (generated by `tools/gen_text.py`, do not edit)
-/
set_option maxRecDepth 100000
set_option linter.unusedVariables false
set_option linter.style.longLine false
namespace Bip38.SrcX.Text
open Bip38.Src Bip38.Py

/-- What `bip38/const.py` defines. -/
def ConstDefs (H : Host) : Scope :=
  [(v!"NO_EC_MULTIPLIED_PRIVATE_KEY_PREFIX", .value (eGlobal (const_NO_EC_MULTIPLIED_PRIVATE_KEY_PREFIX H))),
   (v!"EC_MULTIPLIED_PRIVATE_KEY_PREFIX", .value (eGlobal (const_EC_MULTIPLIED_PRIVATE_KEY_PREFIX H))),
   (v!"NO_EC_MULTIPLIED_WIF_FLAG", .value (eGlobal (const_NO_EC_MULTIPLIED_WIF_FLAG H))),
   (v!"NO_EC_MULTIPLIED_WIF_COMPRESSED_FLAG", .value (eGlobal (const_NO_EC_MULTIPLIED_WIF_COMPRESSED_FLAG H))),
   (v!"MAGIC_LOT_AND_SEQUENCE", .value (eGlobal (const_MAGIC_LOT_AND_SEQUENCE H))),
   (v!"MAGIC_NO_LOT_AND_SEQUENCE", .value (eGlobal (const_MAGIC_NO_LOT_AND_SEQUENCE H))),
   (v!"MAGIC_LOT_AND_SEQUENCE_UNCOMPRESSED_FLAG", .value (eGlobal (const_MAGIC_LOT_AND_SEQUENCE_UNCOMPRESSED_FLAG H))),
   (v!"MAGIC_LOT_AND_SEQUENCE_COMPRESSED_FLAG", .value (eGlobal (const_MAGIC_LOT_AND_SEQUENCE_COMPRESSED_FLAG H))),
   (v!"MAGIC_NO_LOT_AND_SEQUENCE_UNCOMPRESSED_FLAG", .value (eGlobal (const_MAGIC_NO_LOT_AND_SEQUENCE_UNCOMPRESSED_FLAG H))),
   (v!"MAGIC_NO_LOT_AND_SEQUENCE_COMPRESSED_FLAG", .value (eGlobal (const_MAGIC_NO_LOT_AND_SEQUENCE_COMPRESSED_FLAG H))),
   (v!"CONFIRMATION_CODE_PREFIX", .value (eGlobal (const_CONFIRMATION_CODE_PREFIX H))),
   (v!"N", .value (eGlobal (const_N H))),
   (v!"COORDINATE_POINT_LENGTH", .value (eGlobal (const_COORDINATE_POINT_LENGTH H))),
   (v!"PRIVATE_KEY_LENGTH", .value (eGlobal (const_PRIVATE_KEY_LENGTH H))),
   (v!"UNCOMPRESSED_PRIVATE_KEY_PREFIX", .value (eGlobal (const_UNCOMPRESSED_PRIVATE_KEY_PREFIX H))),
   (v!"COMPRESSED_PRIVATE_KEY_PREFIX", .value (eGlobal (const_COMPRESSED_PRIVATE_KEY_PREFIX H))),
   (v!"COMPRESSED_PUBLIC_KEY_LENGTH", .value (eGlobal (const_COMPRESSED_PUBLIC_KEY_LENGTH H))),
   (v!"UNCOMPRESSED_PUBLIC_KEY_LENGTH", .value (eGlobal (const_UNCOMPRESSED_PUBLIC_KEY_LENGTH H))),
   (v!"EVEN_COMPRESSED_PUBLIC_KEY_PREFIX", .value (eGlobal (const_EVEN_COMPRESSED_PUBLIC_KEY_PREFIX H))),
   (v!"ODD_COMPRESSED_PUBLIC_KEY_PREFIX", .value (eGlobal (const_ODD_COMPRESSED_PUBLIC_KEY_PREFIX H))),
   (v!"UNCOMPRESSED_PUBLIC_KEY_PREFIX", .value (eGlobal (const_UNCOMPRESSED_PUBLIC_KEY_PREFIX H))),
   (v!"CHECKSUM_BYTE_LENGTH", .value (eGlobal (const_CHECKSUM_BYTE_LENGTH H))),
   (v!"WIF_TYPES", .value (eGlobal (const_WIF_TYPES H))),
   (v!"PUBLIC_KEY_TYPES", .value (eGlobal (const_PUBLIC_KEY_TYPES H))),
   (v!"FLAGS", .value (eGlobal (const_FLAGS H)))]

/-- The modules that `bip38/const.py` imports from. -/
def ConstWorld (H : Host) : List (Nat × Scope) :=
  []

theorem const_imports (H : Host) : imports [v!"bip38"] (ConstWorld H) constTree = some ((imports [v!"bip38"] (ConstWorld H) constTree).getD []) := by by_kernel

theorem const_definitions (H : Host) :
    definitions { lib := library H, scope := ConstDefs H ++ (imports [v!"bip38"] (ConstWorld H) constTree).getD [], methods := (fun _ => []) 0, str := Error_str H }
      (fun _ => []) constTree = some (ConstDefs H) := by by_kernel

theorem const_defines (H : Host) :
    Defines H (Error_str H) [v!"bip38"] (ConstWorld H) (fun _ => []) ConstText (ConstDefs H) :=
  ⟨constTree, _, const_parse, const_imports H, const_definitions H⟩

end Bip38.SrcX.Text
