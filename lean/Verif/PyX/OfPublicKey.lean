import Verif.Py.OfPublicKey
import Verif.PyX.Meaning
import Verif.SrcX.Exceptions
import Verif.SrcX.PublicKey
import Verif.PyX.OfConst
import Verif.PyX.OfExceptions
import Verif.PyX.OfPoint

/-!
# The text of `bip38/secp256k1/public_key.py`, with external calls as events (generated by `tools/gen_text.py`, do not edit)
-/
set_option maxRecDepth 100000
set_option linter.unusedVariables false
set_option linter.style.longLine false
namespace Bip38.SrcX.Text
open Bip38.Src Bip38.Py

/-- What `bip38/secp256k1/public_key.py` defines. -/
def PublicKeyDefs (H : Host) : Scope :=
  [(v!"PublicKey", .cls (some .PublicKey)
    [(v!"__init__", .ctor (PublicKey_init H)),
     (v!"from_bytes", .fn (PublicKey_from_bytes H)),
     (v!"from_point", .fn (PublicKey_from_point H)),
     (v!"compressed_length", .fn (PublicKey_compressed_length H)),
     (v!"uncompressed_length", .fn (PublicKey_uncompressed_length H)),
     (v!"underlying_object", .method (PublicKey_underlying_object H)),
     (v!"raw", .method (PublicKey_raw H)),
     (v!"raw_compressed", .method (PublicKey_raw_compressed H)),
     (v!"raw_uncompressed", .method (PublicKey_raw_uncompressed H)),
     (v!"point", .method (PublicKey_point H))])]

/-- The functions of the class in `bip38/secp256k1/public_key.py`. -/
def PublicKeyOrder (H : Host) : List (Nat × Option (Cls × Fn)) :=
  [(v!"__init__", none),
   (v!"from_bytes", none),
   (v!"from_point", none),
   (v!"compressed_length", none),
   (v!"uncompressed_length", none),
   (v!"underlying_object", some (.PublicKey, PublicKey_underlying_object H)),
   (v!"raw_compressed", some (.PublicKey, PublicKey_raw_compressed H)),
   (v!"raw_uncompressed", some (.PublicKey, PublicKey_raw_uncompressed H)),
   (v!"raw", some (.PublicKey, PublicKey_raw H)),
   (v!"point", some (.PublicKey, PublicKey_point H))]

/-- The modules that `bip38/secp256k1/public_key.py` imports from. -/
def PublicKeyWorld (H : Host) : List (Nat × Scope) :=
  [(v!"bip38.const", ConstDefs H),
   (v!"bip38.exceptions", ExceptionsDefs H),
   (v!"bip38.secp256k1.point", PointDefs H)]

theorem publicKey_imports (H : Host) : imports [v!"bip38.secp256k1", v!"bip38"] (PublicKeyWorld H) publicKeyTree = some ((imports [v!"bip38.secp256k1", v!"bip38"] (PublicKeyWorld H) publicKeyTree).getD []) := by by_kernel

theorem publicKey_definitions (H : Host) :
    definitions { lib := library H, scope := PublicKeyDefs H ++ (imports [v!"bip38.secp256k1", v!"bip38"] (PublicKeyWorld H) publicKeyTree).getD [], methods := (fun n => allMethods (PointOrder H) ++ methodsBefore n (PublicKeyOrder H)) 0, str := Error_str H }
      (fun n => allMethods (PointOrder H) ++ methodsBefore n (PublicKeyOrder H)) publicKeyTree = some (PublicKeyDefs H) := by by_kernel

theorem publicKey_defines (H : Host) :
    Defines H (Error_str H) [v!"bip38.secp256k1", v!"bip38"] (PublicKeyWorld H) (fun n => allMethods (PointOrder H) ++ methodsBefore n (PublicKeyOrder H)) PublicKeyText (PublicKeyDefs H) :=
  ⟨publicKeyTree, _, publicKey_parse, publicKey_imports H, publicKey_definitions H⟩

end Bip38.SrcX.Text
