import Verif.Src.Point
/-!
# `bip38/secp256k1/public_key.py` (generated by `tools/gen_src.py`, do not edit)
-/
set_option linter.unusedVariables false
set_option linter.style.longLine false
namespace Bip38.Src

/-- `bip38/secp256k1/public_key.py:33`: `self.verify_key = verify_key` -/
@[src] def PublicKey_init_L33 (H : Host) : Stmt := fun env =>
  sAssign (.attr v!"self" v!"verify_key") (eName v!"verify_key") env

/-- `bip38/secp256k1/public_key.py:25-33` `PublicKey.__init__` -/
def PublicKey_init (H : Host) : Fn :=
  defclass .PublicKey [⟨v!"verify_key", none⟩]
    [PublicKey_init_L33 H]

/-- `bip38/secp256k1/public_key.py:48`: `return cls(` -/
@[src] def PublicKey_from_bytes_L48 (H : Host) : Stmt := fun env =>
  sReturn (eCall (PublicKey_init H) [(eCall xVerifyingFromString [(eName v!"public_key")] [(v!"curve", (eConst .curve))])] []) env

/-- `bip38/secp256k1/public_key.py:54`: `raise Secp256k1Error("Invalid public key bytes") from ex` -/
@[src] def PublicKey_from_bytes_L54 (H : Host) : Stmt := fun env =>
  sRaise (Error_str H) (eCall (Error_init H .secp256k1Error) [(eConst (.str "Invalid public key bytes".toList))] []) env

/-- `bip38/secp256k1/public_key.py:47`: `try:` -/
@[src] def PublicKey_from_bytes_L47 (H : Host) : Stmt := fun env =>
  sTry [] [PublicKey_from_bytes_L48 H] [([.malformedPoint], [PublicKey_from_bytes_L54 H])] env

/-- `bip38/secp256k1/public_key.py:36-54` `PublicKey.from_bytes` -/
def PublicKey_from_bytes (H : Host) : Fn :=
  defun [⟨v!"public_key", none⟩] none
    [PublicKey_from_bytes_L47 H]

/-- `bip38/secp256k1/public_key.py:69`: `return cls(` -/
@[src] def PublicKey_from_point_L69 (H : Host) : Stmt := fun env =>
  sReturn (eCall (PublicKey_init H) [(eCall xVerifyingFromPoint [(eCall xPoint [(eConst .curve), (eMethod [(.Point, Point_x H)] mX (eName v!"point") [] []), (eMethod [(.Point, Point_y H)] mY (eName v!"point") [] [])] [])] [(v!"curve", (eConst .curve))])] []) env

/-- `bip38/secp256k1/public_key.py:78`: `raise Secp256k1Error("Invalid public key point") from ex` -/
@[src] def PublicKey_from_point_L78 (H : Host) : Stmt := fun env =>
  sRaise (Error_str H) (eCall (Error_init H .secp256k1Error) [(eConst (.str "Invalid public key point".toList))] []) env

/-- `bip38/secp256k1/public_key.py:68`: `try:` -/
@[src] def PublicKey_from_point_L68 (H : Host) : Stmt := fun env =>
  sTry [] [PublicKey_from_point_L69 H] [([.malformedPoint], [PublicKey_from_point_L78 H])] env

/-- `bip38/secp256k1/public_key.py:57-78` `PublicKey.from_point` -/
def PublicKey_from_point (H : Host) : Fn :=
  defun [⟨v!"point", none⟩] none
    [PublicKey_from_point_L68 H]

/-- `bip38/secp256k1/public_key.py:89`: `return COMPRESSED_PUBLIC_KEY_LENGTH` -/
@[src] def PublicKey_compressed_length_L89 (H : Host) : Stmt := fun env =>
  sReturn (eGlobal (const_COMPRESSED_PUBLIC_KEY_LENGTH H)) env

/-- `bip38/secp256k1/public_key.py:81-89` `PublicKey.compressed_length` -/
def PublicKey_compressed_length (H : Host) : Fn :=
  defun [] none
    [PublicKey_compressed_length_L89 H]

/-- `bip38/secp256k1/public_key.py:100`: `return UNCOMPRESSED_PUBLIC_KEY_LENGTH` -/
@[src] def PublicKey_uncompressed_length_L100 (H : Host) : Stmt := fun env =>
  sReturn (eGlobal (const_UNCOMPRESSED_PUBLIC_KEY_LENGTH H)) env

/-- `bip38/secp256k1/public_key.py:92-100` `PublicKey.uncompressed_length` -/
def PublicKey_uncompressed_length (H : Host) : Fn :=
  defun [] none
    [PublicKey_uncompressed_length_L100 H]

/-- `bip38/secp256k1/public_key.py:110`: `return self.verify_key` -/
@[src] def PublicKey_underlying_object_L110 (H : Host) : Stmt := fun env =>
  sReturn (eAttr (eName v!"self") v!"verify_key") env

/-- `bip38/secp256k1/public_key.py:102-110` `PublicKey.underlying_object` -/
def PublicKey_underlying_object (H : Host) : Fn :=
  defun [⟨v!"self", none⟩] none
    [PublicKey_underlying_object_L110 H]

/-- `bip38/secp256k1/public_key.py:130`: `return self.verify_key.to_string("compressed")` -/
@[src] def PublicKey_raw_compressed_L130 (H : Host) : Stmt := fun env =>
  sReturn (eMethod [] mToString (eAttr (eName v!"self") v!"verify_key") [(eConst (.str "compressed".toList))] []) env

/-- `bip38/secp256k1/public_key.py:122-130` `PublicKey.raw_compressed` -/
def PublicKey_raw_compressed (H : Host) : Fn :=
  defun [⟨v!"self", none⟩] none
    [PublicKey_raw_compressed_L130 H]

/-- `bip38/secp256k1/public_key.py:140`: `return self.verify_key.to_string("uncompressed")` -/
@[src] def PublicKey_raw_uncompressed_L140 (H : Host) : Stmt := fun env =>
  sReturn (eMethod [] mToString (eAttr (eName v!"self") v!"verify_key") [(eConst (.str "uncompressed".toList))] []) env

/-- `bip38/secp256k1/public_key.py:132-140` `PublicKey.raw_uncompressed` -/
def PublicKey_raw_uncompressed (H : Host) : Fn :=
  defun [⟨v!"self", none⟩] none
    [PublicKey_raw_uncompressed_L140 H]

/-- `bip38/secp256k1/public_key.py:120`: `return self.raw_compressed() if public_key_type == "compressed" else self.raw_uncompressed()` -/
@[src] def PublicKey_raw_L120 (H : Host) : Stmt := fun env =>
  sReturn (eIf (eCompare (eName v!"public_key_type") [(.eq, (eConst (.str "compressed".toList)))]) (eCall (PublicKey_raw_compressed H) [(eName v!"self")] []) (eCall (PublicKey_raw_uncompressed H) [(eName v!"self")] [])) env

/-- `bip38/secp256k1/public_key.py:112-120` `PublicKey.raw` -/
def PublicKey_raw (H : Host) : Fn :=
  defun [⟨v!"self", none⟩, ⟨v!"public_key_type", none⟩] none
    [PublicKey_raw_L120 H]

/-- `bip38/secp256k1/public_key.py:150`: `return Point(self.verify_key.pubkey.point)` -/
@[src] def PublicKey_point_L150 (H : Host) : Stmt := fun env =>
  sReturn (eCall (Point_init H) [(eAttr (eAttr (eAttr (eName v!"self") v!"verify_key") v!"pubkey") v!"point")] []) env

/-- `bip38/secp256k1/public_key.py:142-150` `PublicKey.point` -/
def PublicKey_point (H : Host) : Fn :=
  defun [⟨v!"self", none⟩] none
    [PublicKey_point_L150 H]

end Bip38.Src
