import Verif.Py.OfBip38
import Verif.PyX.Meaning
import Verif.SrcX.Exceptions
import Verif.SrcX.Bip38
import Verif.PyX.OfBase58
import Verif.PyX.OfPoint
import Verif.PyX.OfPublicKey
import Verif.PyX.OfPrivateKey
import Verif.PyX.OfP2pkhAddress
import Verif.PyX.OfCrypto
import Verif.PyX.OfConst
import Verif.PyX.OfExceptions
import Verif.PyX.OfUtils
import Verif.PyX.OfWif

/-!
# The text of `bip38/bip38.py`, with external calls as events (generated by `tools/gen_text.py`, do not edit)
-/
set_option maxRecDepth 100000
set_option linter.unusedVariables false
set_option linter.style.longLine false
namespace Bip38.SrcX.Text
open Bip38.Src Bip38.Py

/-- What `bip38/bip38.py` defines. -/
def Bip38Defs (H : Host) : Scope :=
  [(v!"BIP38", .cls (some .BIP38)
    [(v!"__init__", .ctor (BIP38_init H)),
     (v!"intermediate_code", .fn (BIP38_intermediate_code H)),
     (v!"encrypt", .method (BIP38_encrypt H)),
     (v!"create_new_encrypted_wif", .method (BIP38_create_new_encrypted_wif H)),
     (v!"confirm_code", .method (BIP38_confirm_code H)),
     (v!"decrypt", .method (BIP38_decrypt H))])]

/-- The functions of the class in `bip38/bip38.py`. -/
def Bip38Order (H : Host) : List (Nat × Option (Cls × Fn)) :=
  [(v!"__init__", none),
   (v!"intermediate_code", none),
   (v!"encrypt", some (.BIP38, BIP38_encrypt H)),
   (v!"create_new_encrypted_wif", some (.BIP38, BIP38_create_new_encrypted_wif H)),
   (v!"confirm_code", some (.BIP38, BIP38_confirm_code H)),
   (v!"decrypt", some (.BIP38, BIP38_decrypt H))]

/-- The modules that `bip38/bip38.py` imports from. -/
def Bip38World (H : Host) : List (Nat × Scope) :=
  [(v!"bip38.cryptocurrencies", [(v!"ICryptocurrency", .value (eConst (.coin .base))), (v!"Bitcoin", .value (eConst (.coin (.coin Coins.Bitcoin))))]),
   (v!"bip38.libs.base58", Base58Defs H),
   (v!"bip38.secp256k1", PointDefs H ++ PublicKeyDefs H ++ PrivateKeyDefs H),
   (v!"bip38.p2pkh_address", P2pkhAddressDefs H),
   (v!"bip38.crypto", CryptoDefs H),
   (v!"bip38.const", ConstDefs H),
   (v!"bip38.exceptions", ExceptionsDefs H),
   (v!"bip38.utils", UtilsDefs H),
   (v!"bip38.wif", WifDefs H)]

theorem bip38_imports (H : Host) : imports [v!"bip38"] (Bip38World H) bip38Tree = some ((imports [v!"bip38"] (Bip38World H) bip38Tree).getD []) := by by_kernel

theorem bip38_definitions (H : Host) :
    definitions { lib := library H, scope := Bip38Defs H ++ (imports [v!"bip38"] (Bip38World H) bip38Tree).getD [], methods := (fun n => allMethods (PointOrder H) ++ allMethods (PublicKeyOrder H) ++ allMethods (PrivateKeyOrder H) ++ allMethods (P2pkhAddressOrder H) ++ methodsBefore n (Bip38Order H)) 0, str := Error_str H }
      (fun n => allMethods (PointOrder H) ++ allMethods (PublicKeyOrder H) ++ allMethods (PrivateKeyOrder H) ++ allMethods (P2pkhAddressOrder H) ++ methodsBefore n (Bip38Order H)) bip38Tree = some (Bip38Defs H) := by by_kernel

theorem bip38_defines (H : Host) :
    Defines H (Error_str H) [v!"bip38"] (Bip38World H) (fun n => allMethods (PointOrder H) ++ allMethods (PublicKeyOrder H) ++ allMethods (PrivateKeyOrder H) ++ allMethods (P2pkhAddressOrder H) ++ methodsBefore n (Bip38Order H)) Bip38Text (Bip38Defs H) :=
  ⟨bip38Tree, _, bip38_parse, bip38_imports H, bip38_definitions H⟩

end Bip38.SrcX.Text
