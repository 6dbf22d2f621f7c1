import Verif.Py.Only
import Verif.Py.OfFiles
import Verif.Py.OfExceptions
import Verif.Py.OfWif
/-!
# The program as a whole

`Program` says of a list of definitions for each file that every text, under what the other files define, means its own list.  Nothing in it refers
to the terms of `Verif/Src`; but for `cryptocurrencies.py`, which C97 is about (`.value (eConst (.coin _))` is the class object).
-/
set_option linter.style.longLine false
namespace Bip38.Py
open Bip38.Src

/-- For every file, its definitions (for `secp256k1/__init__.py`, what it imports and so hands on). -/
structure Modules where
  exceptions : Scope
  const : Scope
  utils : Scope
  ripemd160 : Scope
  crypto : Scope
  base58 : Scope
  point : Scope
  publicKey : Scope
  privateKey : Scope
  secp256k1 : Scope
  wif : Scope
  p2pkhAddress : Scope
  bip38 : Scope

/-- The modules by their names. -/
def Modules.world (m : Modules) : List (Nat × Scope) :=
  [(v!"bip38.cryptocurrencies", [(v!"ICryptocurrency", .value (eConst (.coin .base))), (v!"Bitcoin", .value (eConst (.coin (.coin Coins.Bitcoin))))]),
   (v!"bip38.exceptions", m.exceptions), (v!"bip38.const", m.const), (v!"bip38.utils", m.utils), (v!"bip38.libs.ripemd160", m.ripemd160),
   (v!"bip38.crypto", m.crypto), (v!"bip38.libs.base58", m.base58), (v!"bip38.secp256k1.point", m.point),
   (v!"bip38.secp256k1.public_key", m.publicKey), (v!"bip38.secp256k1.private_key", m.privateKey), (v!"bip38.secp256k1", m.secp256k1),
   (v!"bip38.wif", m.wif), (v!"bip38.p2pkh_address", m.p2pkhAddress), (v!"bip38.bip38", m.bip38)]

/-- `__str__` of the first exception class. -/
def strOf : Scope → Fn
  | (_, .exc _ _ str) :: _ => str
  | _ => fun _ _ => .stuck

/-- The functions with these names of the class that a file defines: the methods with what they do, the others without. -/
def classMethods (names : List Nat) : Scope → List (Nat × Option (Cls × Fn))
  | [(_, .cls (some c) ms)] => names.map fun n => (n, match find? n ms with
    | some (.method f) => some (c, f)
    | _ => none)
  | _ => names.map fun n => (n, none)

/-- The functions of the classes, in an order in which no method calls a later one (see `methodsBefore`). -/
def pointNames : List Nat := [v!"__init__", v!"from_coordinates", v!"from_bytes", v!"underlying_object", v!"x", v!"y", v!"raw_encoded", v!"raw_decoded",
  v!"raw", v!"__add__", v!"__radd__", v!"__mul__", v!"__rmul__"]
def publicKeyNames : List Nat := [v!"__init__", v!"from_bytes", v!"from_point", v!"compressed_length", v!"uncompressed_length", v!"underlying_object",
  v!"raw_compressed", v!"raw_uncompressed", v!"raw", v!"point"]
def privateKeyNames : List Nat := [v!"__init__", v!"from_bytes", v!"length", v!"underlying_object", v!"raw", v!"public_key"]
def p2pkhAddressNames : List Nat := [v!"encode", v!"decode"]
def bip38Names : List Nat := [v!"__init__", v!"intermediate_code", v!"encrypt", v!"create_new_encrypted_wif", v!"confirm_code", v!"decrypt"]

/-- What a text imports. -/
def HandsOn (packages : List Nat) (world : List (Nat × Scope)) (source : String) (scope : Scope) : Prop :=
  ∃ tree, parseModule (source.toList.map Char.toNat) = some tree ∧ imports packages world tree = some scope

/-- The texts of the files mean these definitions. -/
structure Program (H : Host) (m : Modules) : Prop where
  exceptions : Defines H (strOf m.exceptions) [v!"bip38"] m.world (fun _ => []) ExceptionsText m.exceptions
  const : Defines H (strOf m.exceptions) [v!"bip38"] m.world (fun _ => []) ConstText m.const
  utils : Defines H (strOf m.exceptions) [v!"bip38"] m.world (fun _ => []) UtilsText m.utils
  ripemd160 : Defines H (strOf m.exceptions) [v!"bip38.libs", v!"bip38"] m.world (fun _ => []) Ripemd160Text m.ripemd160
  crypto : Defines H (strOf m.exceptions) [v!"bip38"] m.world (fun _ => []) CryptoText m.crypto
  base58 : Defines H (strOf m.exceptions) [v!"bip38.libs", v!"bip38"] m.world (fun _ => []) Base58Text m.base58
  point : Defines H (strOf m.exceptions) [v!"bip38.secp256k1", v!"bip38"] m.world
    (fun n => methodsBefore n (classMethods pointNames m.point)) PointText m.point
  publicKey : Defines H (strOf m.exceptions) [v!"bip38.secp256k1", v!"bip38"] m.world
    (fun n => allMethods (classMethods pointNames m.point) ++ methodsBefore n (classMethods publicKeyNames m.publicKey)) PublicKeyText m.publicKey
  privateKey : Defines H (strOf m.exceptions) [v!"bip38.secp256k1", v!"bip38"] m.world
    (fun n => allMethods (classMethods pointNames m.point) ++ allMethods (classMethods publicKeyNames m.publicKey) ++
      methodsBefore n (classMethods privateKeyNames m.privateKey)) PrivateKeyText m.privateKey
  secp256k1 : HandsOn [v!"bip38.secp256k1", v!"bip38"] m.world Secp256k1Text m.secp256k1
  wif : Defines H (strOf m.exceptions) [v!"bip38"] m.world
    (fun _ => allMethods (classMethods pointNames m.point) ++ allMethods (classMethods publicKeyNames m.publicKey) ++
      allMethods (classMethods privateKeyNames m.privateKey)) WifText m.wif
  p2pkhAddress : Defines H (strOf m.exceptions) [v!"bip38"] m.world
    (fun n => allMethods (classMethods pointNames m.point) ++ allMethods (classMethods publicKeyNames m.publicKey) ++
      allMethods (classMethods privateKeyNames m.privateKey) ++ methodsBefore n (classMethods p2pkhAddressNames m.p2pkhAddress)) P2pkhAddressText m.p2pkhAddress
  bip38 : Defines H (strOf m.exceptions) [v!"bip38"] m.world
    (fun n => allMethods (classMethods pointNames m.point) ++ allMethods (classMethods publicKeyNames m.publicKey) ++
      allMethods (classMethods privateKeyNames m.privateKey) ++ allMethods (classMethods p2pkhAddressNames m.p2pkhAddress) ++
      methodsBefore n (classMethods bip38Names m.bip38)) Bip38Text m.bip38

end Bip38.Py
