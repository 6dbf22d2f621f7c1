import Verif.Props.SourceFaults
import Verif.PyX.OfExceptions
import Verif.PyX.OfConst
import Verif.PyX.OfUtils
import Verif.PyX.OfCrypto
import Verif.PyX.OfBase58
import Verif.PyX.OfRipemd160
import Verif.PyX.OfPoint
import Verif.PyX.OfPublicKey
import Verif.PyX.OfPrivateKey
import Verif.PyX.OfWif
import Verif.PyX.OfP2pkhAddress
import Verif.PyX.OfBip38
import Verif.PyX.OnlyOf
import Verif.Py.OnlyOf
/-!
# Property C92: from the characters of the files to the text with external calls

As `Verif/Props/SourceText.lean`, for the second meaning of the text, in which every call of an external function may raise: the terms of
`Verif/SrcX`, which C92..C95, C98 and C99 are about, are what the characters of the files mean.
-/
namespace Bip38.Props
open Bip38 Spec Src Py
open _root_.Bip38.SrcX (PassesOn Uses Uncaught CaughtKey CaughtCreate CaughtConfirm)

variable (H : Host)

/-- C92: the text of `bip38/exceptions.py`. -/
theorem C92_characters_exceptions (defs : SrcX.Text.Scope) :
    SrcX.Text.Defines H (SrcX.Error_str H) [v!"bip38"] (SrcX.Text.ExceptionsWorld H) (fun _ => []) ExceptionsText defs ↔ defs = SrcX.Text.ExceptionsDefs H :=
  ⟨SrcX.Text.exceptions_only H, fun h => h ▸ SrcX.Text.exceptions_defines H⟩

/-- C92: the text of `bip38/const.py`. -/
theorem C92_characters_const (defs : SrcX.Text.Scope) :
    SrcX.Text.Defines H (SrcX.Error_str H) [v!"bip38"] (SrcX.Text.ConstWorld H) (fun _ => []) ConstText defs ↔ defs = SrcX.Text.ConstDefs H :=
  ⟨SrcX.Text.const_only H, fun h => h ▸ SrcX.Text.const_defines H⟩

/-- C92: the text of `bip38/utils.py`. -/
theorem C92_characters_utils (defs : SrcX.Text.Scope) :
    SrcX.Text.Defines H (SrcX.Error_str H) [v!"bip38"] (SrcX.Text.UtilsWorld H) (fun _ => []) UtilsText defs ↔ defs = SrcX.Text.UtilsDefs H :=
  ⟨SrcX.Text.utils_only H, fun h => h ▸ SrcX.Text.utils_defines H⟩

/-- C92: the text of `bip38/crypto.py`. -/
theorem C92_characters_crypto (defs : SrcX.Text.Scope) :
    SrcX.Text.Defines H (SrcX.Error_str H) [v!"bip38"] (SrcX.Text.CryptoWorld H) (fun _ => []) CryptoText defs ↔ defs = SrcX.Text.CryptoDefs H :=
  ⟨SrcX.Text.crypto_only H, fun h => h ▸ SrcX.Text.crypto_defines H⟩

/-- C92: the text of `bip38/libs/base58.py`. -/
theorem C92_characters_base58 (defs : SrcX.Text.Scope) :
    SrcX.Text.Defines H (SrcX.Error_str H) [v!"bip38.libs", v!"bip38"] (SrcX.Text.Base58World H) (fun _ => []) Base58Text defs ↔ defs = SrcX.Text.Base58Defs H :=
  ⟨SrcX.Text.base58_only H, fun h => h ▸ SrcX.Text.base58_defines H⟩

/-- C92: the text of `bip38/libs/ripemd160.py`. -/
theorem C92_characters_ripemd160 (defs : SrcX.Text.Scope) :
    SrcX.Text.Defines H (SrcX.Error_str H) [v!"bip38.libs", v!"bip38"] (SrcX.Text.Ripemd160World H) (fun _ => []) Ripemd160Text defs ↔ defs = SrcX.Text.Ripemd160Defs H :=
  ⟨SrcX.Text.ripemd160_only H, fun h => h ▸ SrcX.Text.ripemd160_defines H⟩

/-- C92: the text of `bip38/secp256k1/point.py`. -/
theorem C92_characters_point (defs : SrcX.Text.Scope) :
    SrcX.Text.Defines H (SrcX.Error_str H) [v!"bip38.secp256k1", v!"bip38"] (SrcX.Text.PointWorld H) (fun n => SrcX.Text.methodsBefore n (SrcX.Text.PointOrder H)) PointText defs ↔ defs = SrcX.Text.PointDefs H :=
  ⟨SrcX.Text.point_only H, fun h => h ▸ SrcX.Text.point_defines H⟩

/-- C92: the text of `bip38/secp256k1/public_key.py`. -/
theorem C92_characters_public_key (defs : SrcX.Text.Scope) :
    SrcX.Text.Defines H (SrcX.Error_str H) [v!"bip38.secp256k1", v!"bip38"] (SrcX.Text.PublicKeyWorld H) (fun n => SrcX.Text.allMethods (SrcX.Text.PointOrder H) ++ SrcX.Text.methodsBefore n (SrcX.Text.PublicKeyOrder H)) PublicKeyText defs ↔ defs = SrcX.Text.PublicKeyDefs H :=
  ⟨SrcX.Text.publicKey_only H, fun h => h ▸ SrcX.Text.publicKey_defines H⟩

/-- C92: the text of `bip38/secp256k1/private_key.py`. -/
theorem C92_characters_private_key (defs : SrcX.Text.Scope) :
    SrcX.Text.Defines H (SrcX.Error_str H) [v!"bip38.secp256k1", v!"bip38"] (SrcX.Text.PrivateKeyWorld H) (fun n => SrcX.Text.allMethods (SrcX.Text.PointOrder H) ++ SrcX.Text.allMethods (SrcX.Text.PublicKeyOrder H) ++ SrcX.Text.methodsBefore n (SrcX.Text.PrivateKeyOrder H)) PrivateKeyText defs ↔ defs = SrcX.Text.PrivateKeyDefs H :=
  ⟨SrcX.Text.privateKey_only H, fun h => h ▸ SrcX.Text.privateKey_defines H⟩

/-- C92: the text of `bip38/wif.py`. -/
theorem C92_characters_wif (defs : SrcX.Text.Scope) :
    SrcX.Text.Defines H (SrcX.Error_str H) [v!"bip38"] (SrcX.Text.WifWorld H) (fun _ => SrcX.Text.allMethods (SrcX.Text.PointOrder H) ++ SrcX.Text.allMethods (SrcX.Text.PublicKeyOrder H) ++ SrcX.Text.allMethods (SrcX.Text.PrivateKeyOrder H)) WifText defs ↔ defs = SrcX.Text.WifDefs H :=
  ⟨SrcX.Text.wif_only H, fun h => h ▸ SrcX.Text.wif_defines H⟩

/-- C92: the text of `bip38/p2pkh_address.py`. -/
theorem C92_characters_p2pkh_address (defs : SrcX.Text.Scope) :
    SrcX.Text.Defines H (SrcX.Error_str H) [v!"bip38"] (SrcX.Text.P2pkhAddressWorld H) (fun n => SrcX.Text.allMethods (SrcX.Text.PointOrder H) ++ SrcX.Text.allMethods (SrcX.Text.PublicKeyOrder H) ++ SrcX.Text.allMethods (SrcX.Text.PrivateKeyOrder H) ++ SrcX.Text.methodsBefore n (SrcX.Text.P2pkhAddressOrder H)) P2pkhAddressText defs ↔ defs = SrcX.Text.P2pkhAddressDefs H :=
  ⟨SrcX.Text.p2pkhAddress_only H, fun h => h ▸ SrcX.Text.p2pkhAddress_defines H⟩

/-- C92: the text of `bip38/bip38.py`. -/
theorem C92_characters_bip38 (defs : SrcX.Text.Scope) :
    SrcX.Text.Defines H (SrcX.Error_str H) [v!"bip38"] (SrcX.Text.Bip38World H) (fun n => SrcX.Text.allMethods (SrcX.Text.PointOrder H) ++ SrcX.Text.allMethods (SrcX.Text.PublicKeyOrder H) ++ SrcX.Text.allMethods (SrcX.Text.PrivateKeyOrder H) ++ SrcX.Text.allMethods (SrcX.Text.P2pkhAddressOrder H) ++ SrcX.Text.methodsBefore n (SrcX.Text.Bip38Order H)) Bip38Text defs ↔ defs = SrcX.Text.Bip38Defs H :=
  ⟨SrcX.Text.bip38_only H, fun h => h ▸ SrcX.Text.bip38_defines H⟩

/-- C92 (and C94), from the characters: `bip38/bip38.py` has one meaning without external faults and one with them; for every function of its class an
exception that an external function raises, and that is not among those caught, is passed on by the second, which otherwise does what the first does;
and the external calls of the second have these arguments. -/
theorem C92_characters : ∃ (new intermediate encrypt create confirm decrypt : Src.Fn) (new' intermediate' encrypt' create' confirm' decrypt' : SrcX.Fn),
    (∀ defs, Defines H (Error_str H) [v!"bip38"] (Bip38World H) (fun n => allMethods (PointOrder H) ++ allMethods (PublicKeyOrder H) ++ allMethods (PrivateKeyOrder H) ++ allMethods (P2pkhAddressOrder H) ++ methodsBefore n (Bip38Order H)) Bip38Text defs ↔ defs = [(v!"BIP38", .cls (some .BIP38) [(v!"__init__", .ctor new), (v!"intermediate_code", .fn intermediate), (v!"encrypt", .method encrypt),
      (v!"create_new_encrypted_wif", .method create), (v!"confirm_code", .method confirm), (v!"decrypt", .method decrypt)])]) ∧
    (∀ defs, SrcX.Text.Defines H (SrcX.Error_str H) [v!"bip38"] (SrcX.Text.Bip38World H) (fun n => SrcX.Text.allMethods (SrcX.Text.PointOrder H) ++ SrcX.Text.allMethods (SrcX.Text.PublicKeyOrder H) ++ SrcX.Text.allMethods (SrcX.Text.PrivateKeyOrder H) ++ SrcX.Text.allMethods (SrcX.Text.P2pkhAddressOrder H) ++ SrcX.Text.methodsBefore n (SrcX.Text.Bip38Order H)) Bip38Text defs ↔ defs = [(v!"BIP38", .cls (some .BIP38) [(v!"__init__", .ctor new'), (v!"intermediate_code", .fn intermediate'), (v!"encrypt", .method encrypt'),
      (v!"create_new_encrypted_wif", .method create'), (v!"confirm_code", .method confirm'), (v!"decrypt", .method decrypt')])]) ∧
    PassesOn Uncaught new' new ∧
    PassesOn CaughtKey intermediate' intermediate ∧
    PassesOn CaughtKey encrypt' encrypt ∧
    PassesOn CaughtCreate create' create ∧
    PassesOn CaughtConfirm confirm' confirm ∧
    PassesOn CaughtKey decrypt' decrypt ∧
    Uses [] new' ∧
    Uses [.nfc, .scryptOf 16384 8 8 32, .urandom 8] intermediate' ∧
    Uses [.nfc, .ripemd160, .scrypt 16384 8 8] encrypt' ∧
    Uses [.ripemd160, .scryptOf 1024 1 1 64, .urandom 24] create' ∧
    Uses [.nfc, .ripemd160, .scryptOf 1024 1 1 64, .scryptOf 16384 8 8 32] confirm' ∧
    Uses [.nfc, .ripemd160, .scrypt 16384 8 8, .scryptOf 1024 1 1 64, .scryptOf 16384 8 8 32] decrypt' :=
  ⟨_, _, _, _, _, _, _, _, _, _, _, _, fun defs => ⟨bip38_only H, fun h => h ▸ bip38_defines H⟩, C92_characters_bip38 H,
    (C92_bip38 H).1, (C92_bip38 H).2.1, (C92_bip38 H).2.2.1, (C92_bip38 H).2.2.2.1, (C92_bip38 H).2.2.2.2.1, (C92_bip38 H).2.2.2.2.2, C94_bip38 H⟩

end Bip38.Props
