import Verif.Src.Utils
import Verif.Src.Const
/-!
# `bip38/secp256k1/point.py` (generated by `tools/gen_src.py`, do not edit)
-/
set_option linter.unusedVariables false
set_option linter.style.longLine false
namespace Bip38.Src

/-- `bip38/secp256k1/point.py:32`: `self.point = point_obj` -/
@[src] def Point_init_L32 (H : Host) : Stmt := fun env =>
  sAssign (.attr v!"self" v!"point") (eName v!"point_obj") env

/-- `bip38/secp256k1/point.py:25-32` `Point.__init__` -/
def Point_init (H : Host) : Fn :=
  defclass .Point [⟨v!"point_obj", none⟩]
    [Point_init_L32 H]

/-- `bip38/secp256k1/point.py:74`: `return cls(` -/
@[src] def Point_from_coordinates_L74 (H : Host) : Stmt := fun env =>
  sReturn (eCall (Point_init H) [(eCall xFromAffine [(eCall xPoint [(eConst .curve), (eName v!"x"), (eName v!"y")] [])] [])] []) env

/-- `bip38/secp256k1/point.py:61-78` `Point.from_coordinates` -/
def Point_from_coordinates (H : Host) : Fn :=
  defun [⟨v!"x", none⟩, ⟨v!"y", none⟩] none
    [Point_from_coordinates_L74 H]

/-- `bip38/secp256k1/point.py:47`: `return cls(` -/
@[src] def Point_from_bytes_L47 (H : Host) : Stmt := fun env =>
  sReturn (eCall (Point_init H) [(eCall (xPointFromBytes H) [(eConst .curve), (eName v!"point")] [])] []) env

/-- `bip38/secp256k1/point.py:53`: `raise Secp256k1Error("Invalid point key bytes") from ex` -/
@[src] def Point_from_bytes_L53 (H : Host) : Stmt := fun env =>
  sRaise (Error_str H) (eCall (Error_init H .secp256k1Error) [(eConst (.str "Invalid point key bytes".toList))] []) env

/-- `bip38/secp256k1/point.py:55`: `return cls.from_coordinates(` -/
@[src] def Point_from_bytes_L55 (H : Host) : Stmt := fun env =>
  sReturn (eCall (Point_from_coordinates H) [(eCall (utils_bytes_to_integer H) [(eSlice (eName v!"point") none (some (eGlobal (const_COORDINATE_POINT_LENGTH H))))] []), (eCall (utils_bytes_to_integer H) [(eSlice (eName v!"point") (some (eGlobal (const_COORDINATE_POINT_LENGTH H))) none)] [])] []) env

/-- `bip38/secp256k1/point.py:46`: `try:` -/
@[src] def Point_from_bytes_L46 (H : Host) : Stmt := fun env =>
  sTry [] [Point_from_bytes_L47 H] [([.malformedPoint], [Point_from_bytes_L53 H]), ([.attributeError], [Point_from_bytes_L55 H])] env

/-- `bip38/secp256k1/point.py:35-58` `Point.from_bytes` -/
def Point_from_bytes (H : Host) : Fn :=
  defun [⟨v!"point", none⟩] none
    [Point_from_bytes_L46 H]

/-- `bip38/secp256k1/point.py:88`: `return self.point` -/
@[src] def Point_underlying_object_L88 (H : Host) : Stmt := fun env =>
  sReturn (eAttr (eName v!"self") v!"point") env

/-- `bip38/secp256k1/point.py:80-88` `Point.underlying_object` -/
def Point_underlying_object (H : Host) : Fn :=
  defun [⟨v!"self", none⟩] none
    [Point_underlying_object_L88 H]

/-- `bip38/secp256k1/point.py:98`: `return self.point.x()` -/
@[src] def Point_x_L98 (H : Host) : Stmt := fun env =>
  sReturn (eMethod [] mX (eAttr (eName v!"self") v!"point") [] []) env

/-- `bip38/secp256k1/point.py:90-98` `Point.x` -/
def Point_x (H : Host) : Fn :=
  defun [⟨v!"self", none⟩] none
    [Point_x_L98 H]

/-- `bip38/secp256k1/point.py:108`: `return self.point.y()` -/
@[src] def Point_y_L108 (H : Host) : Stmt := fun env =>
  sReturn (eMethod [] mY (eAttr (eName v!"self") v!"point") [] []) env

/-- `bip38/secp256k1/point.py:100-108` `Point.y` -/
def Point_y (H : Host) : Fn :=
  defun [⟨v!"self", none⟩] none
    [Point_y_L108 H]

/-- `bip38/secp256k1/point.py:129`: `return self.point.to_bytes("compressed")` -/
@[src] def Point_raw_encoded_L129 (H : Host) : Stmt := fun env =>
  sReturn (eMethod [] (mToBytes H) (eAttr (eName v!"self") v!"point") [(eConst (.str "compressed".toList))] []) env

/-- `bip38/secp256k1/point.py:131`: `x: bytes = integer_to_bytes(` -/
@[src] def Point_raw_encoded_L131 (H : Host) : Stmt := fun env =>
  sAssign (.name v!"x") (eCall (utils_integer_to_bytes H) [(eMethod [(.Point, Point_x H)] mX (eAttr (eName v!"self") v!"point") [] []), (eGlobal (const_COORDINATE_POINT_LENGTH H))] []) env

/-- `bip38/secp256k1/point.py:134`: `return b"\x03" + x if self.point.y() & 1 else b"\x02" + x` -/
@[src] def Point_raw_encoded_L134 (H : Host) : Stmt := fun env =>
  sReturn (eIf (eBin [] [] .and (eMethod [(.Point, Point_y H)] mY (eAttr (eName v!"self") v!"point") [] []) (eConst (.int 1))) (eBin [] [] .add (eConst (.bytes [3])) (eName v!"x")) (eBin [] [] .add (eConst (.bytes [2])) (eName v!"x"))) env

/-- `bip38/secp256k1/point.py:128`: `try:` -/
@[src] def Point_raw_encoded_L128 (H : Host) : Stmt := fun env =>
  sTry [] [Point_raw_encoded_L129 H] [([.attributeError], [Point_raw_encoded_L131 H, Point_raw_encoded_L134 H])] env

/-- `bip38/secp256k1/point.py:120-134` `Point.raw_encoded` -/
def Point_raw_encoded (H : Host) : Fn :=
  defun [⟨v!"self", none⟩] none
    [Point_raw_encoded_L128 H]

/-- `bip38/secp256k1/point.py:145`: `return self.point.to_bytes()` -/
@[src] def Point_raw_decoded_L145 (H : Host) : Stmt := fun env =>
  sReturn (eMethod [] (mToBytes H) (eAttr (eName v!"self") v!"point") [] []) env

/-- `bip38/secp256k1/point.py:147`: `x: bytes = integer_to_bytes(` -/
@[src] def Point_raw_decoded_L147 (H : Host) : Stmt := fun env =>
  sAssign (.name v!"x") (eCall (utils_integer_to_bytes H) [(eMethod [(.Point, Point_x H)] mX (eAttr (eName v!"self") v!"point") [] []), (eGlobal (const_COORDINATE_POINT_LENGTH H))] []) env

/-- `bip38/secp256k1/point.py:150`: `y: bytes = integer_to_bytes(` -/
@[src] def Point_raw_decoded_L150 (H : Host) : Stmt := fun env =>
  sAssign (.name v!"y") (eCall (utils_integer_to_bytes H) [(eMethod [(.Point, Point_y H)] mY (eAttr (eName v!"self") v!"point") [] []), (eGlobal (const_COORDINATE_POINT_LENGTH H))] []) env

/-- `bip38/secp256k1/point.py:153`: `return x + y` -/
@[src] def Point_raw_decoded_L153 (H : Host) : Stmt := fun env =>
  sReturn (eBin [] [] .add (eName v!"x") (eName v!"y")) env

/-- `bip38/secp256k1/point.py:144`: `try:` -/
@[src] def Point_raw_decoded_L144 (H : Host) : Stmt := fun env =>
  sTry [] [Point_raw_decoded_L145 H] [([.attributeError], [Point_raw_decoded_L147 H, Point_raw_decoded_L150 H, Point_raw_decoded_L153 H])] env

/-- `bip38/secp256k1/point.py:136-153` `Point.raw_decoded` -/
def Point_raw_decoded (H : Host) : Fn :=
  defun [⟨v!"self", none⟩] none
    [Point_raw_decoded_L144 H]

/-- `bip38/secp256k1/point.py:118`: `return self.raw_decoded()` -/
@[src] def Point_raw_L118 (H : Host) : Stmt := fun env =>
  sReturn (eCall (Point_raw_decoded H) [(eName v!"self")] []) env

/-- `bip38/secp256k1/point.py:110-118` `Point.raw` -/
def Point_raw (H : Host) : Fn :=
  defun [⟨v!"self", none⟩] none
    [Point_raw_L118 H]

/-- `bip38/secp256k1/point.py:166`: `return self.__class__(self.point + point.underlying_object())` -/
@[src] def Point_add_L166 (H : Host) : Stmt := fun env =>
  sReturn (eCall (Point_init H) [(eBin [] [] .add (eAttr (eName v!"self") v!"point") (eMethod [(.Point, Point_underlying_object H)] noMethod (eName v!"point") [] []))] []) env

/-- `bip38/secp256k1/point.py:155-166` `Point.__add__` -/
def Point_add (H : Host) : Fn :=
  defun [⟨v!"self", none⟩, ⟨v!"point", none⟩] none
    [Point_add_L166 H]

/-- `bip38/secp256k1/point.py:179`: `return self + point` -/
@[src] def Point_radd_L179 (H : Host) : Stmt := fun env =>
  sReturn (eBin [(.Point, Point_add H)] [] .add (eName v!"self") (eName v!"point")) env

/-- `bip38/secp256k1/point.py:168-179` `Point.__radd__` -/
def Point_radd (H : Host) : Fn :=
  defun [⟨v!"self", none⟩, ⟨v!"point", none⟩] none
    [Point_radd_L179 H]

/-- `bip38/secp256k1/point.py:192`: `return self.__class__(self.point * scalar)` -/
@[src] def Point_mul_L192 (H : Host) : Stmt := fun env =>
  sReturn (eCall (Point_init H) [(eBin [] [] .mul (eAttr (eName v!"self") v!"point") (eName v!"scalar"))] []) env

/-- `bip38/secp256k1/point.py:181-192` `Point.__mul__` -/
def Point_mul (H : Host) : Fn :=
  defun [⟨v!"self", none⟩, ⟨v!"scalar", none⟩] none
    [Point_mul_L192 H]

/-- `bip38/secp256k1/point.py:205`: `return self * scalar` -/
@[src] def Point_rmul_L205 (H : Host) : Stmt := fun env =>
  sReturn (eBin [(.Point, Point_mul H)] [] .mul (eName v!"self") (eName v!"scalar")) env

/-- `bip38/secp256k1/point.py:194-205` `Point.__rmul__` -/
def Point_rmul (H : Host) : Fn :=
  defun [⟨v!"self", none⟩, ⟨v!"scalar", none⟩] none
    [Point_rmul_L205 H]

end Bip38.Src
