import Verif.Py.OfPoint
import Verif.PyX.Meaning
import Verif.SrcX.Exceptions
import Verif.SrcX.Point
import Verif.PyX.OfConst
import Verif.PyX.OfExceptions
import Verif.PyX.OfUtils

/-!
# The text of `bip38/secp256k1/point.py`, with external calls as events (generated by `tools/gen_text.py`, do not edit)
-/
set_option maxRecDepth 100000
set_option linter.unusedVariables false
set_option linter.style.longLine false
namespace Bip38.SrcX.Text
open Bip38.Src Bip38.Py

/-- What `bip38/secp256k1/point.py` defines. -/
def PointDefs (H : Host) : Scope :=
  [(v!"Point", .cls (some .Point)
    [(v!"__init__", .ctor (Point_init H)),
     (v!"from_bytes", .fn (Point_from_bytes H)),
     (v!"from_coordinates", .fn (Point_from_coordinates H)),
     (v!"underlying_object", .method (Point_underlying_object H)),
     (v!"x", .method (Point_x H)),
     (v!"y", .method (Point_y H)),
     (v!"raw", .method (Point_raw H)),
     (v!"raw_encoded", .method (Point_raw_encoded H)),
     (v!"raw_decoded", .method (Point_raw_decoded H)),
     (v!"__add__", .method (Point_add H)),
     (v!"__radd__", .method (Point_radd H)),
     (v!"__mul__", .method (Point_mul H)),
     (v!"__rmul__", .method (Point_rmul H))])]

/-- The functions of the class in `bip38/secp256k1/point.py`. -/
def PointOrder (H : Host) : List (Nat × Option (Cls × Fn)) :=
  [(v!"__init__", none),
   (v!"from_coordinates", none),
   (v!"from_bytes", none),
   (v!"underlying_object", some (.Point, Point_underlying_object H)),
   (v!"x", some (.Point, Point_x H)),
   (v!"y", some (.Point, Point_y H)),
   (v!"raw_encoded", some (.Point, Point_raw_encoded H)),
   (v!"raw_decoded", some (.Point, Point_raw_decoded H)),
   (v!"raw", some (.Point, Point_raw H)),
   (v!"__add__", some (.Point, Point_add H)),
   (v!"__radd__", some (.Point, Point_radd H)),
   (v!"__mul__", some (.Point, Point_mul H)),
   (v!"__rmul__", some (.Point, Point_rmul H))]

/-- The modules that `bip38/secp256k1/point.py` imports from. -/
def PointWorld (H : Host) : List (Nat × Scope) :=
  [(v!"bip38.const", ConstDefs H),
   (v!"bip38.exceptions", ExceptionsDefs H),
   (v!"bip38.utils", UtilsDefs H)]

theorem point_imports (H : Host) : imports [v!"bip38.secp256k1", v!"bip38"] (PointWorld H) pointTree = some ((imports [v!"bip38.secp256k1", v!"bip38"] (PointWorld H) pointTree).getD []) := by by_kernel

theorem point_definitions (H : Host) :
    definitions { lib := library H, scope := PointDefs H ++ (imports [v!"bip38.secp256k1", v!"bip38"] (PointWorld H) pointTree).getD [], methods := (fun n => methodsBefore n (PointOrder H)) 0, str := Error_str H }
      (fun n => methodsBefore n (PointOrder H)) pointTree = some (PointDefs H) := by by_kernel

theorem point_defines (H : Host) :
    Defines H (Error_str H) [v!"bip38.secp256k1", v!"bip38"] (PointWorld H) (fun n => methodsBefore n (PointOrder H)) PointText (PointDefs H) :=
  ⟨pointTree, _, point_parse, point_imports H, point_definitions H⟩

end Bip38.SrcX.Text
