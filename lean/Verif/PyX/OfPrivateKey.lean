import Verif.Py.OfPrivateKey
import Verif.PyX.Meaning
import Verif.SrcX.Exceptions
import Verif.SrcX.PrivateKey
import Verif.PyX.OfConst
import Verif.PyX.OfExceptions
import Verif.PyX.OfPublicKey
import Verif.PyX.OfPoint

/-!
# The text of `bip38/secp256k1/private_key.py`, with external calls as events (generated by `tools/gen_text.py`, do not edit)
-/
set_option maxRecDepth 100000
set_option linter.unusedVariables false
set_option linter.style.longLine false
namespace Bip38.SrcX.Text
open Bip38.Src Bip38.Py

/-- What `bip38/secp256k1/private_key.py` defines. -/
def PrivateKeyDefs (H : Host) : Scope :=
  [(v!"PrivateKey", .cls (some .PrivateKey)
    [(v!"__init__", .ctor (PrivateKey_init H)),
     (v!"from_bytes", .fn (PrivateKey_from_bytes H)),
     (v!"length", .fn (PrivateKey_length H)),
     (v!"underlying_object", .method (PrivateKey_underlying_object H)),
     (v!"raw", .method (PrivateKey_raw H)),
     (v!"public_key", .method (PrivateKey_public_key H))])]

/-- The functions of the class in `bip38/secp256k1/private_key.py`. -/
def PrivateKeyOrder (H : Host) : List (Nat × Option (Cls × Fn)) :=
  [(v!"__init__", none),
   (v!"from_bytes", none),
   (v!"length", none),
   (v!"underlying_object", some (.PrivateKey, PrivateKey_underlying_object H)),
   (v!"raw", some (.PrivateKey, PrivateKey_raw H)),
   (v!"public_key", some (.PrivateKey, PrivateKey_public_key H))]

/-- The modules that `bip38/secp256k1/private_key.py` imports from. -/
def PrivateKeyWorld (H : Host) : List (Nat × Scope) :=
  [(v!"bip38.const", ConstDefs H),
   (v!"bip38.exceptions", ExceptionsDefs H),
   (v!"bip38.secp256k1.public_key", PublicKeyDefs H)]

theorem privateKey_imports (H : Host) : imports [v!"bip38.secp256k1", v!"bip38"] (PrivateKeyWorld H) privateKeyTree = some ((imports [v!"bip38.secp256k1", v!"bip38"] (PrivateKeyWorld H) privateKeyTree).getD []) := by by_kernel

theorem privateKey_definitions (H : Host) :
    definitions { lib := library H, scope := PrivateKeyDefs H ++ (imports [v!"bip38.secp256k1", v!"bip38"] (PrivateKeyWorld H) privateKeyTree).getD [], methods := (fun n => allMethods (PointOrder H) ++ allMethods (PublicKeyOrder H) ++ methodsBefore n (PrivateKeyOrder H)) 0, str := Error_str H }
      (fun n => allMethods (PointOrder H) ++ allMethods (PublicKeyOrder H) ++ methodsBefore n (PrivateKeyOrder H)) privateKeyTree = some (PrivateKeyDefs H) := by by_kernel

theorem privateKey_defines (H : Host) :
    Defines H (Error_str H) [v!"bip38.secp256k1", v!"bip38"] (PrivateKeyWorld H) (fun n => allMethods (PointOrder H) ++ allMethods (PublicKeyOrder H) ++ methodsBefore n (PrivateKeyOrder H)) PrivateKeyText (PrivateKeyDefs H) :=
  ⟨privateKeyTree, _, privateKey_parse, privateKey_imports H, privateKey_definitions H⟩

end Bip38.SrcX.Text
