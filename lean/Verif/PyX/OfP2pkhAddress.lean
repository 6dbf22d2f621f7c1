import Verif.Py.OfP2pkhAddress
import Verif.PyX.Meaning
import Verif.SrcX.Exceptions
import Verif.SrcX.P2pkhAddress
import Verif.PyX.OfBase58
import Verif.PyX.OfPoint
import Verif.PyX.OfPublicKey
import Verif.PyX.OfPrivateKey
import Verif.PyX.OfCrypto
import Verif.PyX.OfExceptions
import Verif.PyX.OfUtils

/-!
# The text of `bip38/p2pkh_address.py`, with external calls as events (generated by `tools/gen_text.py`, do not edit)
-/
set_option maxRecDepth 100000
set_option linter.unusedVariables false
set_option linter.style.longLine false
namespace Bip38.SrcX.Text
open Bip38.Src Bip38.Py

/-- What `bip38/p2pkh_address.py` defines. -/
def P2pkhAddressDefs (H : Host) : Scope :=
  [(v!"P2PKHAddress", .cls none
    [(v!"address_prefix", .attr (P2PKHAddress_address_prefix H)),
     (v!"alphabet", .attr (P2PKHAddress_alphabet H)),
     (v!"encode", .fn (P2PKHAddress_encode H)),
     (v!"decode", .fn (P2PKHAddress_decode H))])]

/-- The functions of the class in `bip38/p2pkh_address.py`. -/
def P2pkhAddressOrder (H : Host) : List (Nat × Option (Cls × Fn)) :=
  [(v!"encode", none),
   (v!"decode", none)]

/-- The modules that `bip38/p2pkh_address.py` imports from. -/
def P2pkhAddressWorld (H : Host) : List (Nat × Scope) :=
  [(v!"bip38.libs.base58", Base58Defs H),
   (v!"bip38.secp256k1", PointDefs H ++ PublicKeyDefs H ++ PrivateKeyDefs H),
   (v!"bip38.cryptocurrencies", [(v!"ICryptocurrency", .value (eConst (.coin .base))), (v!"Bitcoin", .value (eConst (.coin (.coin Coins.Bitcoin))))]),
   (v!"bip38.crypto", CryptoDefs H),
   (v!"bip38.exceptions", ExceptionsDefs H),
   (v!"bip38.utils", UtilsDefs H)]

theorem p2pkhAddress_imports (H : Host) : imports [v!"bip38"] (P2pkhAddressWorld H) p2pkhAddressTree = some ((imports [v!"bip38"] (P2pkhAddressWorld H) p2pkhAddressTree).getD []) := by by_kernel

theorem p2pkhAddress_definitions (H : Host) :
    definitions { lib := library H, scope := P2pkhAddressDefs H ++ (imports [v!"bip38"] (P2pkhAddressWorld H) p2pkhAddressTree).getD [], methods := (fun n => allMethods (PointOrder H) ++ allMethods (PublicKeyOrder H) ++ allMethods (PrivateKeyOrder H) ++ methodsBefore n (P2pkhAddressOrder H)) 0, str := Error_str H }
      (fun n => allMethods (PointOrder H) ++ allMethods (PublicKeyOrder H) ++ allMethods (PrivateKeyOrder H) ++ methodsBefore n (P2pkhAddressOrder H)) p2pkhAddressTree = some (P2pkhAddressDefs H) := by by_kernel

theorem p2pkhAddress_defines (H : Host) :
    Defines H (Error_str H) [v!"bip38"] (P2pkhAddressWorld H) (fun n => allMethods (PointOrder H) ++ allMethods (PublicKeyOrder H) ++ allMethods (PrivateKeyOrder H) ++ methodsBefore n (P2pkhAddressOrder H)) P2pkhAddressText (P2pkhAddressDefs H) :=
  ⟨p2pkhAddressTree, _, p2pkhAddress_parse, p2pkhAddress_imports H, p2pkhAddress_definitions H⟩

end Bip38.SrcX.Text
