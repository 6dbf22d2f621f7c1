import Verif.PyX.Only
import Verif.PyX.OfExceptions
import Verif.PyX.OfConst
import Verif.PyX.OfUtils
import Verif.PyX.OfRipemd160
import Verif.PyX.OfCrypto
import Verif.PyX.OfBase58
import Verif.PyX.OfWif
import Verif.PyX.OfPoint
import Verif.PyX.OfPublicKey
import Verif.PyX.OfPrivateKey
import Verif.PyX.OfP2pkhAddress
import Verif.PyX.OfBip38
/-!
# The definitions of the modules are determined, with external calls as events

What the text of a module defines (`Verif/PyX/Of*.lean`) is the only list of definitions that it defines.  Each definition is determined by those before it,
whatever the others are.

Generated by `tools/gen_only.py`.
-/
set_option linter.style.longLine false
set_option linter.unusedVariables false
namespace Bip38.SrcX.Text
open Bip38.Src Bip38.Py

/-! ### `bip38/exceptions.py` -/

theorem exceptions_shape : shape exceptionsTree = [(v!"Error", .exc .error), (v!"CryptocurrencyError", .exc .cryptocurrencyError), (v!"NetworkError", .exc .networkError), (v!"Secp256k1Error", .exc .secp256k1Error), (v!"AddressError", .exc .addressError), (v!"WIFError", .exc .wifError), (v!"PassphraseError", .exc .passphraseError)] := by by_kernel

theorem exceptions_Error_is (H : Host) (x0 : (ExcClass → Fn) × Fn) (x1 : (ExcClass → Fn) × Fn) (x2 : (ExcClass → Fn) × Fn) (x3 : (ExcClass → Fn) × Fn) (x4 : (ExcClass → Fn) × Fn) (x5 : (ExcClass → Fn) × Fn) (x6 : (ExcClass → Fn) × Fn) :
    excAt v!"Error" (definitions { lib := library H, scope := [(v!"Error", .exc .error x0.1 x0.2), (v!"CryptocurrencyError", .exc .cryptocurrencyError x1.1 x1.2), (v!"NetworkError", .exc .networkError x2.1 x2.2), (v!"Secp256k1Error", .exc .secp256k1Error x3.1 x3.2), (v!"AddressError", .exc .addressError x4.1 x4.2), (v!"WIFError", .exc .wifError x5.1 x5.2), (v!"PassphraseError", .exc .passphraseError x6.1 x6.2)] ++ (imports [v!"bip38"] (ExceptionsWorld H) exceptionsTree).getD [], methods := (fun _ => []) 0, str := Error_str H } (fun _ => []) exceptionsTree) = some ((Error_init H), (Error_str H)) := by
  by_kernel

theorem exceptions_CryptocurrencyError_is (H : Host) (x1 : (ExcClass → Fn) × Fn) (x2 : (ExcClass → Fn) × Fn) (x3 : (ExcClass → Fn) × Fn) (x4 : (ExcClass → Fn) × Fn) (x5 : (ExcClass → Fn) × Fn) (x6 : (ExcClass → Fn) × Fn) :
    excAt v!"CryptocurrencyError" (definitions { lib := library H, scope := [(v!"Error", .exc .error (Error_init H) (Error_str H)), (v!"CryptocurrencyError", .exc .cryptocurrencyError x1.1 x1.2), (v!"NetworkError", .exc .networkError x2.1 x2.2), (v!"Secp256k1Error", .exc .secp256k1Error x3.1 x3.2), (v!"AddressError", .exc .addressError x4.1 x4.2), (v!"WIFError", .exc .wifError x5.1 x5.2), (v!"PassphraseError", .exc .passphraseError x6.1 x6.2)] ++ (imports [v!"bip38"] (ExceptionsWorld H) exceptionsTree).getD [], methods := (fun _ => []) 0, str := Error_str H } (fun _ => []) exceptionsTree) = some ((Error_init H), (Error_str H)) := by
  by_kernel

theorem exceptions_NetworkError_is (H : Host) (x2 : (ExcClass → Fn) × Fn) (x3 : (ExcClass → Fn) × Fn) (x4 : (ExcClass → Fn) × Fn) (x5 : (ExcClass → Fn) × Fn) (x6 : (ExcClass → Fn) × Fn) :
    excAt v!"NetworkError" (definitions { lib := library H, scope := [(v!"Error", .exc .error (Error_init H) (Error_str H)), (v!"CryptocurrencyError", .exc .cryptocurrencyError (Error_init H) (Error_str H)), (v!"NetworkError", .exc .networkError x2.1 x2.2), (v!"Secp256k1Error", .exc .secp256k1Error x3.1 x3.2), (v!"AddressError", .exc .addressError x4.1 x4.2), (v!"WIFError", .exc .wifError x5.1 x5.2), (v!"PassphraseError", .exc .passphraseError x6.1 x6.2)] ++ (imports [v!"bip38"] (ExceptionsWorld H) exceptionsTree).getD [], methods := (fun _ => []) 0, str := Error_str H } (fun _ => []) exceptionsTree) = some ((Error_init H), (Error_str H)) := by
  by_kernel

theorem exceptions_Secp256k1Error_is (H : Host) (x3 : (ExcClass → Fn) × Fn) (x4 : (ExcClass → Fn) × Fn) (x5 : (ExcClass → Fn) × Fn) (x6 : (ExcClass → Fn) × Fn) :
    excAt v!"Secp256k1Error" (definitions { lib := library H, scope := [(v!"Error", .exc .error (Error_init H) (Error_str H)), (v!"CryptocurrencyError", .exc .cryptocurrencyError (Error_init H) (Error_str H)), (v!"NetworkError", .exc .networkError (Error_init H) (Error_str H)), (v!"Secp256k1Error", .exc .secp256k1Error x3.1 x3.2), (v!"AddressError", .exc .addressError x4.1 x4.2), (v!"WIFError", .exc .wifError x5.1 x5.2), (v!"PassphraseError", .exc .passphraseError x6.1 x6.2)] ++ (imports [v!"bip38"] (ExceptionsWorld H) exceptionsTree).getD [], methods := (fun _ => []) 0, str := Error_str H } (fun _ => []) exceptionsTree) = some ((Error_init H), (Error_str H)) := by
  by_kernel

theorem exceptions_AddressError_is (H : Host) (x4 : (ExcClass → Fn) × Fn) (x5 : (ExcClass → Fn) × Fn) (x6 : (ExcClass → Fn) × Fn) :
    excAt v!"AddressError" (definitions { lib := library H, scope := [(v!"Error", .exc .error (Error_init H) (Error_str H)), (v!"CryptocurrencyError", .exc .cryptocurrencyError (Error_init H) (Error_str H)), (v!"NetworkError", .exc .networkError (Error_init H) (Error_str H)), (v!"Secp256k1Error", .exc .secp256k1Error (Error_init H) (Error_str H)), (v!"AddressError", .exc .addressError x4.1 x4.2), (v!"WIFError", .exc .wifError x5.1 x5.2), (v!"PassphraseError", .exc .passphraseError x6.1 x6.2)] ++ (imports [v!"bip38"] (ExceptionsWorld H) exceptionsTree).getD [], methods := (fun _ => []) 0, str := Error_str H } (fun _ => []) exceptionsTree) = some ((Error_init H), (Error_str H)) := by
  by_kernel

theorem exceptions_WIFError_is (H : Host) (x5 : (ExcClass → Fn) × Fn) (x6 : (ExcClass → Fn) × Fn) :
    excAt v!"WIFError" (definitions { lib := library H, scope := [(v!"Error", .exc .error (Error_init H) (Error_str H)), (v!"CryptocurrencyError", .exc .cryptocurrencyError (Error_init H) (Error_str H)), (v!"NetworkError", .exc .networkError (Error_init H) (Error_str H)), (v!"Secp256k1Error", .exc .secp256k1Error (Error_init H) (Error_str H)), (v!"AddressError", .exc .addressError (Error_init H) (Error_str H)), (v!"WIFError", .exc .wifError x5.1 x5.2), (v!"PassphraseError", .exc .passphraseError x6.1 x6.2)] ++ (imports [v!"bip38"] (ExceptionsWorld H) exceptionsTree).getD [], methods := (fun _ => []) 0, str := Error_str H } (fun _ => []) exceptionsTree) = some ((Error_init H), (Error_str H)) := by
  by_kernel

theorem exceptions_PassphraseError_is (H : Host) (x6 : (ExcClass → Fn) × Fn) :
    excAt v!"PassphraseError" (definitions { lib := library H, scope := [(v!"Error", .exc .error (Error_init H) (Error_str H)), (v!"CryptocurrencyError", .exc .cryptocurrencyError (Error_init H) (Error_str H)), (v!"NetworkError", .exc .networkError (Error_init H) (Error_str H)), (v!"Secp256k1Error", .exc .secp256k1Error (Error_init H) (Error_str H)), (v!"AddressError", .exc .addressError (Error_init H) (Error_str H)), (v!"WIFError", .exc .wifError (Error_init H) (Error_str H)), (v!"PassphraseError", .exc .passphraseError x6.1 x6.2)] ++ (imports [v!"bip38"] (ExceptionsWorld H) exceptionsTree).getD [], methods := (fun _ => []) 0, str := Error_str H } (fun _ => []) exceptionsTree) = some ((Error_init H), (Error_str H)) := by
  by_kernel

/-- The text of `bip38/exceptions.py` defines this and nothing else. -/
theorem exceptions_only (H : Host) {defs : Scope} (h : Defines H (Error_str H) [v!"bip38"] (ExceptionsWorld H) (fun _ => []) ExceptionsText defs) : defs = ExceptionsDefs H := by
  obtain ⟨tree, ins, hp, hi, hd⟩ := h
  obtain rfl := Option.some.inj (exceptions_parse.symm.trans hp)
  obtain rfl := Option.some.inj ((exceptions_imports H).symm.trans hi)
  have hk0 := (exceptions_shape ▸ shape_eq hd : _ = _)
  obtain ⟨x0, d0, rfl, hk1⟩ := key_exc hk0
  obtain ⟨x1, d1, rfl, hk2⟩ := key_exc hk1
  obtain ⟨x2, d2, rfl, hk3⟩ := key_exc hk2
  obtain ⟨x3, d3, rfl, hk4⟩ := key_exc hk3
  obtain ⟨x4, d4, rfl, hk5⟩ := key_exc hk4
  obtain ⟨x5, d5, rfl, hk6⟩ := key_exc hk5
  obtain ⟨x6, d6, rfl, hk7⟩ := key_exc hk6
  obtain rfl := key_nil hk7
  obtain rfl : ((Error_init H), (Error_str H)) = x0 := Option.some.inj ((exceptions_Error_is H x0 x1 x2 x3 x4 x5 x6).symm.trans (congrArg (excAt v!"Error") hd))
  obtain rfl : ((Error_init H), (Error_str H)) = x1 := Option.some.inj ((exceptions_CryptocurrencyError_is H x1 x2 x3 x4 x5 x6).symm.trans (congrArg (excAt v!"CryptocurrencyError") hd))
  obtain rfl : ((Error_init H), (Error_str H)) = x2 := Option.some.inj ((exceptions_NetworkError_is H x2 x3 x4 x5 x6).symm.trans (congrArg (excAt v!"NetworkError") hd))
  obtain rfl : ((Error_init H), (Error_str H)) = x3 := Option.some.inj ((exceptions_Secp256k1Error_is H x3 x4 x5 x6).symm.trans (congrArg (excAt v!"Secp256k1Error") hd))
  obtain rfl : ((Error_init H), (Error_str H)) = x4 := Option.some.inj ((exceptions_AddressError_is H x4 x5 x6).symm.trans (congrArg (excAt v!"AddressError") hd))
  obtain rfl : ((Error_init H), (Error_str H)) = x5 := Option.some.inj ((exceptions_WIFError_is H x5 x6).symm.trans (congrArg (excAt v!"WIFError") hd))
  obtain rfl : ((Error_init H), (Error_str H)) = x6 := Option.some.inj ((exceptions_PassphraseError_is H x6).symm.trans (congrArg (excAt v!"PassphraseError") hd))
  rfl

/-! ### `bip38/const.py` -/

theorem const_shape : shape constTree = [(v!"NO_EC_MULTIPLIED_PRIVATE_KEY_PREFIX", .value), (v!"EC_MULTIPLIED_PRIVATE_KEY_PREFIX", .value), (v!"NO_EC_MULTIPLIED_WIF_FLAG", .value), (v!"NO_EC_MULTIPLIED_WIF_COMPRESSED_FLAG", .value), (v!"MAGIC_LOT_AND_SEQUENCE", .value), (v!"MAGIC_NO_LOT_AND_SEQUENCE", .value), (v!"MAGIC_LOT_AND_SEQUENCE_UNCOMPRESSED_FLAG", .value), (v!"MAGIC_LOT_AND_SEQUENCE_COMPRESSED_FLAG", .value), (v!"MAGIC_NO_LOT_AND_SEQUENCE_UNCOMPRESSED_FLAG", .value), (v!"MAGIC_NO_LOT_AND_SEQUENCE_COMPRESSED_FLAG", .value), (v!"CONFIRMATION_CODE_PREFIX", .value), (v!"N", .value), (v!"COORDINATE_POINT_LENGTH", .value), (v!"PRIVATE_KEY_LENGTH", .value), (v!"UNCOMPRESSED_PRIVATE_KEY_PREFIX", .value), (v!"COMPRESSED_PRIVATE_KEY_PREFIX", .value), (v!"COMPRESSED_PUBLIC_KEY_LENGTH", .value), (v!"UNCOMPRESSED_PUBLIC_KEY_LENGTH", .value), (v!"EVEN_COMPRESSED_PUBLIC_KEY_PREFIX", .value), (v!"ODD_COMPRESSED_PUBLIC_KEY_PREFIX", .value), (v!"UNCOMPRESSED_PUBLIC_KEY_PREFIX", .value), (v!"CHECKSUM_BYTE_LENGTH", .value), (v!"WIF_TYPES", .value), (v!"PUBLIC_KEY_TYPES", .value), (v!"FLAGS", .value)] := by by_kernel

theorem const_NO_EC_MULTIPLIED_PRIVATE_KEY_PREFIX_is (H : Host) (x0 : Expr) (x1 : Expr) (x2 : Expr) (x3 : Expr) (x4 : Expr) (x5 : Expr) (x6 : Expr) (x7 : Expr) (x8 : Expr) (x9 : Expr) (x10 : Expr) (x11 : Expr) (x12 : Expr) (x13 : Expr) (x14 : Expr) (x15 : Expr) (x16 : Expr) (x17 : Expr) (x18 : Expr) (x19 : Expr) (x20 : Expr) (x21 : Expr) (x22 : Expr) (x23 : Expr) (x24 : Expr) :
    valueOf v!"NO_EC_MULTIPLIED_PRIVATE_KEY_PREFIX" (definitions { lib := library H, scope := [(v!"NO_EC_MULTIPLIED_PRIVATE_KEY_PREFIX", .value x0), (v!"EC_MULTIPLIED_PRIVATE_KEY_PREFIX", .value x1), (v!"NO_EC_MULTIPLIED_WIF_FLAG", .value x2), (v!"NO_EC_MULTIPLIED_WIF_COMPRESSED_FLAG", .value x3), (v!"MAGIC_LOT_AND_SEQUENCE", .value x4), (v!"MAGIC_NO_LOT_AND_SEQUENCE", .value x5), (v!"MAGIC_LOT_AND_SEQUENCE_UNCOMPRESSED_FLAG", .value x6), (v!"MAGIC_LOT_AND_SEQUENCE_COMPRESSED_FLAG", .value x7), (v!"MAGIC_NO_LOT_AND_SEQUENCE_UNCOMPRESSED_FLAG", .value x8), (v!"MAGIC_NO_LOT_AND_SEQUENCE_COMPRESSED_FLAG", .value x9), (v!"CONFIRMATION_CODE_PREFIX", .value x10), (v!"N", .value x11), (v!"COORDINATE_POINT_LENGTH", .value x12), (v!"PRIVATE_KEY_LENGTH", .value x13), (v!"UNCOMPRESSED_PRIVATE_KEY_PREFIX", .value x14), (v!"COMPRESSED_PRIVATE_KEY_PREFIX", .value x15), (v!"COMPRESSED_PUBLIC_KEY_LENGTH", .value x16), (v!"UNCOMPRESSED_PUBLIC_KEY_LENGTH", .value x17), (v!"EVEN_COMPRESSED_PUBLIC_KEY_PREFIX", .value x18), (v!"ODD_COMPRESSED_PUBLIC_KEY_PREFIX", .value x19), (v!"UNCOMPRESSED_PUBLIC_KEY_PREFIX", .value x20), (v!"CHECKSUM_BYTE_LENGTH", .value x21), (v!"WIF_TYPES", .value x22), (v!"PUBLIC_KEY_TYPES", .value x23), (v!"FLAGS", .value x24)] ++ (imports [v!"bip38"] (ConstWorld H) constTree).getD [], methods := (fun _ => []) 0, str := Error_str H } (fun _ => []) constTree) = some (eGlobal (const_NO_EC_MULTIPLIED_PRIVATE_KEY_PREFIX H)) := by
  by_kernel

theorem const_EC_MULTIPLIED_PRIVATE_KEY_PREFIX_is (H : Host) (x1 : Expr) (x2 : Expr) (x3 : Expr) (x4 : Expr) (x5 : Expr) (x6 : Expr) (x7 : Expr) (x8 : Expr) (x9 : Expr) (x10 : Expr) (x11 : Expr) (x12 : Expr) (x13 : Expr) (x14 : Expr) (x15 : Expr) (x16 : Expr) (x17 : Expr) (x18 : Expr) (x19 : Expr) (x20 : Expr) (x21 : Expr) (x22 : Expr) (x23 : Expr) (x24 : Expr) :
    valueOf v!"EC_MULTIPLIED_PRIVATE_KEY_PREFIX" (definitions { lib := library H, scope := [(v!"NO_EC_MULTIPLIED_PRIVATE_KEY_PREFIX", .value (eGlobal (const_NO_EC_MULTIPLIED_PRIVATE_KEY_PREFIX H))), (v!"EC_MULTIPLIED_PRIVATE_KEY_PREFIX", .value x1), (v!"NO_EC_MULTIPLIED_WIF_FLAG", .value x2), (v!"NO_EC_MULTIPLIED_WIF_COMPRESSED_FLAG", .value x3), (v!"MAGIC_LOT_AND_SEQUENCE", .value x4), (v!"MAGIC_NO_LOT_AND_SEQUENCE", .value x5), (v!"MAGIC_LOT_AND_SEQUENCE_UNCOMPRESSED_FLAG", .value x6), (v!"MAGIC_LOT_AND_SEQUENCE_COMPRESSED_FLAG", .value x7), (v!"MAGIC_NO_LOT_AND_SEQUENCE_UNCOMPRESSED_FLAG", .value x8), (v!"MAGIC_NO_LOT_AND_SEQUENCE_COMPRESSED_FLAG", .value x9), (v!"CONFIRMATION_CODE_PREFIX", .value x10), (v!"N", .value x11), (v!"COORDINATE_POINT_LENGTH", .value x12), (v!"PRIVATE_KEY_LENGTH", .value x13), (v!"UNCOMPRESSED_PRIVATE_KEY_PREFIX", .value x14), (v!"COMPRESSED_PRIVATE_KEY_PREFIX", .value x15), (v!"COMPRESSED_PUBLIC_KEY_LENGTH", .value x16), (v!"UNCOMPRESSED_PUBLIC_KEY_LENGTH", .value x17), (v!"EVEN_COMPRESSED_PUBLIC_KEY_PREFIX", .value x18), (v!"ODD_COMPRESSED_PUBLIC_KEY_PREFIX", .value x19), (v!"UNCOMPRESSED_PUBLIC_KEY_PREFIX", .value x20), (v!"CHECKSUM_BYTE_LENGTH", .value x21), (v!"WIF_TYPES", .value x22), (v!"PUBLIC_KEY_TYPES", .value x23), (v!"FLAGS", .value x24)] ++ (imports [v!"bip38"] (ConstWorld H) constTree).getD [], methods := (fun _ => []) 0, str := Error_str H } (fun _ => []) constTree) = some (eGlobal (const_EC_MULTIPLIED_PRIVATE_KEY_PREFIX H)) := by
  by_kernel

theorem const_NO_EC_MULTIPLIED_WIF_FLAG_is (H : Host) (x2 : Expr) (x3 : Expr) (x4 : Expr) (x5 : Expr) (x6 : Expr) (x7 : Expr) (x8 : Expr) (x9 : Expr) (x10 : Expr) (x11 : Expr) (x12 : Expr) (x13 : Expr) (x14 : Expr) (x15 : Expr) (x16 : Expr) (x17 : Expr) (x18 : Expr) (x19 : Expr) (x20 : Expr) (x21 : Expr) (x22 : Expr) (x23 : Expr) (x24 : Expr) :
    valueOf v!"NO_EC_MULTIPLIED_WIF_FLAG" (definitions { lib := library H, scope := [(v!"NO_EC_MULTIPLIED_PRIVATE_KEY_PREFIX", .value (eGlobal (const_NO_EC_MULTIPLIED_PRIVATE_KEY_PREFIX H))), (v!"EC_MULTIPLIED_PRIVATE_KEY_PREFIX", .value (eGlobal (const_EC_MULTIPLIED_PRIVATE_KEY_PREFIX H))), (v!"NO_EC_MULTIPLIED_WIF_FLAG", .value x2), (v!"NO_EC_MULTIPLIED_WIF_COMPRESSED_FLAG", .value x3), (v!"MAGIC_LOT_AND_SEQUENCE", .value x4), (v!"MAGIC_NO_LOT_AND_SEQUENCE", .value x5), (v!"MAGIC_LOT_AND_SEQUENCE_UNCOMPRESSED_FLAG", .value x6), (v!"MAGIC_LOT_AND_SEQUENCE_COMPRESSED_FLAG", .value x7), (v!"MAGIC_NO_LOT_AND_SEQUENCE_UNCOMPRESSED_FLAG", .value x8), (v!"MAGIC_NO_LOT_AND_SEQUENCE_COMPRESSED_FLAG", .value x9), (v!"CONFIRMATION_CODE_PREFIX", .value x10), (v!"N", .value x11), (v!"COORDINATE_POINT_LENGTH", .value x12), (v!"PRIVATE_KEY_LENGTH", .value x13), (v!"UNCOMPRESSED_PRIVATE_KEY_PREFIX", .value x14), (v!"COMPRESSED_PRIVATE_KEY_PREFIX", .value x15), (v!"COMPRESSED_PUBLIC_KEY_LENGTH", .value x16), (v!"UNCOMPRESSED_PUBLIC_KEY_LENGTH", .value x17), (v!"EVEN_COMPRESSED_PUBLIC_KEY_PREFIX", .value x18), (v!"ODD_COMPRESSED_PUBLIC_KEY_PREFIX", .value x19), (v!"UNCOMPRESSED_PUBLIC_KEY_PREFIX", .value x20), (v!"CHECKSUM_BYTE_LENGTH", .value x21), (v!"WIF_TYPES", .value x22), (v!"PUBLIC_KEY_TYPES", .value x23), (v!"FLAGS", .value x24)] ++ (imports [v!"bip38"] (ConstWorld H) constTree).getD [], methods := (fun _ => []) 0, str := Error_str H } (fun _ => []) constTree) = some (eGlobal (const_NO_EC_MULTIPLIED_WIF_FLAG H)) := by
  by_kernel

theorem const_NO_EC_MULTIPLIED_WIF_COMPRESSED_FLAG_is (H : Host) (x3 : Expr) (x4 : Expr) (x5 : Expr) (x6 : Expr) (x7 : Expr) (x8 : Expr) (x9 : Expr) (x10 : Expr) (x11 : Expr) (x12 : Expr) (x13 : Expr) (x14 : Expr) (x15 : Expr) (x16 : Expr) (x17 : Expr) (x18 : Expr) (x19 : Expr) (x20 : Expr) (x21 : Expr) (x22 : Expr) (x23 : Expr) (x24 : Expr) :
    valueOf v!"NO_EC_MULTIPLIED_WIF_COMPRESSED_FLAG" (definitions { lib := library H, scope := [(v!"NO_EC_MULTIPLIED_PRIVATE_KEY_PREFIX", .value (eGlobal (const_NO_EC_MULTIPLIED_PRIVATE_KEY_PREFIX H))), (v!"EC_MULTIPLIED_PRIVATE_KEY_PREFIX", .value (eGlobal (const_EC_MULTIPLIED_PRIVATE_KEY_PREFIX H))), (v!"NO_EC_MULTIPLIED_WIF_FLAG", .value (eGlobal (const_NO_EC_MULTIPLIED_WIF_FLAG H))), (v!"NO_EC_MULTIPLIED_WIF_COMPRESSED_FLAG", .value x3), (v!"MAGIC_LOT_AND_SEQUENCE", .value x4), (v!"MAGIC_NO_LOT_AND_SEQUENCE", .value x5), (v!"MAGIC_LOT_AND_SEQUENCE_UNCOMPRESSED_FLAG", .value x6), (v!"MAGIC_LOT_AND_SEQUENCE_COMPRESSED_FLAG", .value x7), (v!"MAGIC_NO_LOT_AND_SEQUENCE_UNCOMPRESSED_FLAG", .value x8), (v!"MAGIC_NO_LOT_AND_SEQUENCE_COMPRESSED_FLAG", .value x9), (v!"CONFIRMATION_CODE_PREFIX", .value x10), (v!"N", .value x11), (v!"COORDINATE_POINT_LENGTH", .value x12), (v!"PRIVATE_KEY_LENGTH", .value x13), (v!"UNCOMPRESSED_PRIVATE_KEY_PREFIX", .value x14), (v!"COMPRESSED_PRIVATE_KEY_PREFIX", .value x15), (v!"COMPRESSED_PUBLIC_KEY_LENGTH", .value x16), (v!"UNCOMPRESSED_PUBLIC_KEY_LENGTH", .value x17), (v!"EVEN_COMPRESSED_PUBLIC_KEY_PREFIX", .value x18), (v!"ODD_COMPRESSED_PUBLIC_KEY_PREFIX", .value x19), (v!"UNCOMPRESSED_PUBLIC_KEY_PREFIX", .value x20), (v!"CHECKSUM_BYTE_LENGTH", .value x21), (v!"WIF_TYPES", .value x22), (v!"PUBLIC_KEY_TYPES", .value x23), (v!"FLAGS", .value x24)] ++ (imports [v!"bip38"] (ConstWorld H) constTree).getD [], methods := (fun _ => []) 0, str := Error_str H } (fun _ => []) constTree) = some (eGlobal (const_NO_EC_MULTIPLIED_WIF_COMPRESSED_FLAG H)) := by
  by_kernel

theorem const_MAGIC_LOT_AND_SEQUENCE_is (H : Host) (x4 : Expr) (x5 : Expr) (x6 : Expr) (x7 : Expr) (x8 : Expr) (x9 : Expr) (x10 : Expr) (x11 : Expr) (x12 : Expr) (x13 : Expr) (x14 : Expr) (x15 : Expr) (x16 : Expr) (x17 : Expr) (x18 : Expr) (x19 : Expr) (x20 : Expr) (x21 : Expr) (x22 : Expr) (x23 : Expr) (x24 : Expr) :
    valueOf v!"MAGIC_LOT_AND_SEQUENCE" (definitions { lib := library H, scope := [(v!"NO_EC_MULTIPLIED_PRIVATE_KEY_PREFIX", .value (eGlobal (const_NO_EC_MULTIPLIED_PRIVATE_KEY_PREFIX H))), (v!"EC_MULTIPLIED_PRIVATE_KEY_PREFIX", .value (eGlobal (const_EC_MULTIPLIED_PRIVATE_KEY_PREFIX H))), (v!"NO_EC_MULTIPLIED_WIF_FLAG", .value (eGlobal (const_NO_EC_MULTIPLIED_WIF_FLAG H))), (v!"NO_EC_MULTIPLIED_WIF_COMPRESSED_FLAG", .value (eGlobal (const_NO_EC_MULTIPLIED_WIF_COMPRESSED_FLAG H))), (v!"MAGIC_LOT_AND_SEQUENCE", .value x4), (v!"MAGIC_NO_LOT_AND_SEQUENCE", .value x5), (v!"MAGIC_LOT_AND_SEQUENCE_UNCOMPRESSED_FLAG", .value x6), (v!"MAGIC_LOT_AND_SEQUENCE_COMPRESSED_FLAG", .value x7), (v!"MAGIC_NO_LOT_AND_SEQUENCE_UNCOMPRESSED_FLAG", .value x8), (v!"MAGIC_NO_LOT_AND_SEQUENCE_COMPRESSED_FLAG", .value x9), (v!"CONFIRMATION_CODE_PREFIX", .value x10), (v!"N", .value x11), (v!"COORDINATE_POINT_LENGTH", .value x12), (v!"PRIVATE_KEY_LENGTH", .value x13), (v!"UNCOMPRESSED_PRIVATE_KEY_PREFIX", .value x14), (v!"COMPRESSED_PRIVATE_KEY_PREFIX", .value x15), (v!"COMPRESSED_PUBLIC_KEY_LENGTH", .value x16), (v!"UNCOMPRESSED_PUBLIC_KEY_LENGTH", .value x17), (v!"EVEN_COMPRESSED_PUBLIC_KEY_PREFIX", .value x18), (v!"ODD_COMPRESSED_PUBLIC_KEY_PREFIX", .value x19), (v!"UNCOMPRESSED_PUBLIC_KEY_PREFIX", .value x20), (v!"CHECKSUM_BYTE_LENGTH", .value x21), (v!"WIF_TYPES", .value x22), (v!"PUBLIC_KEY_TYPES", .value x23), (v!"FLAGS", .value x24)] ++ (imports [v!"bip38"] (ConstWorld H) constTree).getD [], methods := (fun _ => []) 0, str := Error_str H } (fun _ => []) constTree) = some (eGlobal (const_MAGIC_LOT_AND_SEQUENCE H)) := by
  by_kernel

theorem const_MAGIC_NO_LOT_AND_SEQUENCE_is (H : Host) (x5 : Expr) (x6 : Expr) (x7 : Expr) (x8 : Expr) (x9 : Expr) (x10 : Expr) (x11 : Expr) (x12 : Expr) (x13 : Expr) (x14 : Expr) (x15 : Expr) (x16 : Expr) (x17 : Expr) (x18 : Expr) (x19 : Expr) (x20 : Expr) (x21 : Expr) (x22 : Expr) (x23 : Expr) (x24 : Expr) :
    valueOf v!"MAGIC_NO_LOT_AND_SEQUENCE" (definitions { lib := library H, scope := [(v!"NO_EC_MULTIPLIED_PRIVATE_KEY_PREFIX", .value (eGlobal (const_NO_EC_MULTIPLIED_PRIVATE_KEY_PREFIX H))), (v!"EC_MULTIPLIED_PRIVATE_KEY_PREFIX", .value (eGlobal (const_EC_MULTIPLIED_PRIVATE_KEY_PREFIX H))), (v!"NO_EC_MULTIPLIED_WIF_FLAG", .value (eGlobal (const_NO_EC_MULTIPLIED_WIF_FLAG H))), (v!"NO_EC_MULTIPLIED_WIF_COMPRESSED_FLAG", .value (eGlobal (const_NO_EC_MULTIPLIED_WIF_COMPRESSED_FLAG H))), (v!"MAGIC_LOT_AND_SEQUENCE", .value (eGlobal (const_MAGIC_LOT_AND_SEQUENCE H))), (v!"MAGIC_NO_LOT_AND_SEQUENCE", .value x5), (v!"MAGIC_LOT_AND_SEQUENCE_UNCOMPRESSED_FLAG", .value x6), (v!"MAGIC_LOT_AND_SEQUENCE_COMPRESSED_FLAG", .value x7), (v!"MAGIC_NO_LOT_AND_SEQUENCE_UNCOMPRESSED_FLAG", .value x8), (v!"MAGIC_NO_LOT_AND_SEQUENCE_COMPRESSED_FLAG", .value x9), (v!"CONFIRMATION_CODE_PREFIX", .value x10), (v!"N", .value x11), (v!"COORDINATE_POINT_LENGTH", .value x12), (v!"PRIVATE_KEY_LENGTH", .value x13), (v!"UNCOMPRESSED_PRIVATE_KEY_PREFIX", .value x14), (v!"COMPRESSED_PRIVATE_KEY_PREFIX", .value x15), (v!"COMPRESSED_PUBLIC_KEY_LENGTH", .value x16), (v!"UNCOMPRESSED_PUBLIC_KEY_LENGTH", .value x17), (v!"EVEN_COMPRESSED_PUBLIC_KEY_PREFIX", .value x18), (v!"ODD_COMPRESSED_PUBLIC_KEY_PREFIX", .value x19), (v!"UNCOMPRESSED_PUBLIC_KEY_PREFIX", .value x20), (v!"CHECKSUM_BYTE_LENGTH", .value x21), (v!"WIF_TYPES", .value x22), (v!"PUBLIC_KEY_TYPES", .value x23), (v!"FLAGS", .value x24)] ++ (imports [v!"bip38"] (ConstWorld H) constTree).getD [], methods := (fun _ => []) 0, str := Error_str H } (fun _ => []) constTree) = some (eGlobal (const_MAGIC_NO_LOT_AND_SEQUENCE H)) := by
  by_kernel

theorem const_MAGIC_LOT_AND_SEQUENCE_UNCOMPRESSED_FLAG_is (H : Host) (x6 : Expr) (x7 : Expr) (x8 : Expr) (x9 : Expr) (x10 : Expr) (x11 : Expr) (x12 : Expr) (x13 : Expr) (x14 : Expr) (x15 : Expr) (x16 : Expr) (x17 : Expr) (x18 : Expr) (x19 : Expr) (x20 : Expr) (x21 : Expr) (x22 : Expr) (x23 : Expr) (x24 : Expr) :
    valueOf v!"MAGIC_LOT_AND_SEQUENCE_UNCOMPRESSED_FLAG" (definitions { lib := library H, scope := [(v!"NO_EC_MULTIPLIED_PRIVATE_KEY_PREFIX", .value (eGlobal (const_NO_EC_MULTIPLIED_PRIVATE_KEY_PREFIX H))), (v!"EC_MULTIPLIED_PRIVATE_KEY_PREFIX", .value (eGlobal (const_EC_MULTIPLIED_PRIVATE_KEY_PREFIX H))), (v!"NO_EC_MULTIPLIED_WIF_FLAG", .value (eGlobal (const_NO_EC_MULTIPLIED_WIF_FLAG H))), (v!"NO_EC_MULTIPLIED_WIF_COMPRESSED_FLAG", .value (eGlobal (const_NO_EC_MULTIPLIED_WIF_COMPRESSED_FLAG H))), (v!"MAGIC_LOT_AND_SEQUENCE", .value (eGlobal (const_MAGIC_LOT_AND_SEQUENCE H))), (v!"MAGIC_NO_LOT_AND_SEQUENCE", .value (eGlobal (const_MAGIC_NO_LOT_AND_SEQUENCE H))), (v!"MAGIC_LOT_AND_SEQUENCE_UNCOMPRESSED_FLAG", .value x6), (v!"MAGIC_LOT_AND_SEQUENCE_COMPRESSED_FLAG", .value x7), (v!"MAGIC_NO_LOT_AND_SEQUENCE_UNCOMPRESSED_FLAG", .value x8), (v!"MAGIC_NO_LOT_AND_SEQUENCE_COMPRESSED_FLAG", .value x9), (v!"CONFIRMATION_CODE_PREFIX", .value x10), (v!"N", .value x11), (v!"COORDINATE_POINT_LENGTH", .value x12), (v!"PRIVATE_KEY_LENGTH", .value x13), (v!"UNCOMPRESSED_PRIVATE_KEY_PREFIX", .value x14), (v!"COMPRESSED_PRIVATE_KEY_PREFIX", .value x15), (v!"COMPRESSED_PUBLIC_KEY_LENGTH", .value x16), (v!"UNCOMPRESSED_PUBLIC_KEY_LENGTH", .value x17), (v!"EVEN_COMPRESSED_PUBLIC_KEY_PREFIX", .value x18), (v!"ODD_COMPRESSED_PUBLIC_KEY_PREFIX", .value x19), (v!"UNCOMPRESSED_PUBLIC_KEY_PREFIX", .value x20), (v!"CHECKSUM_BYTE_LENGTH", .value x21), (v!"WIF_TYPES", .value x22), (v!"PUBLIC_KEY_TYPES", .value x23), (v!"FLAGS", .value x24)] ++ (imports [v!"bip38"] (ConstWorld H) constTree).getD [], methods := (fun _ => []) 0, str := Error_str H } (fun _ => []) constTree) = some (eGlobal (const_MAGIC_LOT_AND_SEQUENCE_UNCOMPRESSED_FLAG H)) := by
  by_kernel

theorem const_MAGIC_LOT_AND_SEQUENCE_COMPRESSED_FLAG_is (H : Host) (x7 : Expr) (x8 : Expr) (x9 : Expr) (x10 : Expr) (x11 : Expr) (x12 : Expr) (x13 : Expr) (x14 : Expr) (x15 : Expr) (x16 : Expr) (x17 : Expr) (x18 : Expr) (x19 : Expr) (x20 : Expr) (x21 : Expr) (x22 : Expr) (x23 : Expr) (x24 : Expr) :
    valueOf v!"MAGIC_LOT_AND_SEQUENCE_COMPRESSED_FLAG" (definitions { lib := library H, scope := [(v!"NO_EC_MULTIPLIED_PRIVATE_KEY_PREFIX", .value (eGlobal (const_NO_EC_MULTIPLIED_PRIVATE_KEY_PREFIX H))), (v!"EC_MULTIPLIED_PRIVATE_KEY_PREFIX", .value (eGlobal (const_EC_MULTIPLIED_PRIVATE_KEY_PREFIX H))), (v!"NO_EC_MULTIPLIED_WIF_FLAG", .value (eGlobal (const_NO_EC_MULTIPLIED_WIF_FLAG H))), (v!"NO_EC_MULTIPLIED_WIF_COMPRESSED_FLAG", .value (eGlobal (const_NO_EC_MULTIPLIED_WIF_COMPRESSED_FLAG H))), (v!"MAGIC_LOT_AND_SEQUENCE", .value (eGlobal (const_MAGIC_LOT_AND_SEQUENCE H))), (v!"MAGIC_NO_LOT_AND_SEQUENCE", .value (eGlobal (const_MAGIC_NO_LOT_AND_SEQUENCE H))), (v!"MAGIC_LOT_AND_SEQUENCE_UNCOMPRESSED_FLAG", .value (eGlobal (const_MAGIC_LOT_AND_SEQUENCE_UNCOMPRESSED_FLAG H))), (v!"MAGIC_LOT_AND_SEQUENCE_COMPRESSED_FLAG", .value x7), (v!"MAGIC_NO_LOT_AND_SEQUENCE_UNCOMPRESSED_FLAG", .value x8), (v!"MAGIC_NO_LOT_AND_SEQUENCE_COMPRESSED_FLAG", .value x9), (v!"CONFIRMATION_CODE_PREFIX", .value x10), (v!"N", .value x11), (v!"COORDINATE_POINT_LENGTH", .value x12), (v!"PRIVATE_KEY_LENGTH", .value x13), (v!"UNCOMPRESSED_PRIVATE_KEY_PREFIX", .value x14), (v!"COMPRESSED_PRIVATE_KEY_PREFIX", .value x15), (v!"COMPRESSED_PUBLIC_KEY_LENGTH", .value x16), (v!"UNCOMPRESSED_PUBLIC_KEY_LENGTH", .value x17), (v!"EVEN_COMPRESSED_PUBLIC_KEY_PREFIX", .value x18), (v!"ODD_COMPRESSED_PUBLIC_KEY_PREFIX", .value x19), (v!"UNCOMPRESSED_PUBLIC_KEY_PREFIX", .value x20), (v!"CHECKSUM_BYTE_LENGTH", .value x21), (v!"WIF_TYPES", .value x22), (v!"PUBLIC_KEY_TYPES", .value x23), (v!"FLAGS", .value x24)] ++ (imports [v!"bip38"] (ConstWorld H) constTree).getD [], methods := (fun _ => []) 0, str := Error_str H } (fun _ => []) constTree) = some (eGlobal (const_MAGIC_LOT_AND_SEQUENCE_COMPRESSED_FLAG H)) := by
  by_kernel

theorem const_MAGIC_NO_LOT_AND_SEQUENCE_UNCOMPRESSED_FLAG_is (H : Host) (x8 : Expr) (x9 : Expr) (x10 : Expr) (x11 : Expr) (x12 : Expr) (x13 : Expr) (x14 : Expr) (x15 : Expr) (x16 : Expr) (x17 : Expr) (x18 : Expr) (x19 : Expr) (x20 : Expr) (x21 : Expr) (x22 : Expr) (x23 : Expr) (x24 : Expr) :
    valueOf v!"MAGIC_NO_LOT_AND_SEQUENCE_UNCOMPRESSED_FLAG" (definitions { lib := library H, scope := [(v!"NO_EC_MULTIPLIED_PRIVATE_KEY_PREFIX", .value (eGlobal (const_NO_EC_MULTIPLIED_PRIVATE_KEY_PREFIX H))), (v!"EC_MULTIPLIED_PRIVATE_KEY_PREFIX", .value (eGlobal (const_EC_MULTIPLIED_PRIVATE_KEY_PREFIX H))), (v!"NO_EC_MULTIPLIED_WIF_FLAG", .value (eGlobal (const_NO_EC_MULTIPLIED_WIF_FLAG H))), (v!"NO_EC_MULTIPLIED_WIF_COMPRESSED_FLAG", .value (eGlobal (const_NO_EC_MULTIPLIED_WIF_COMPRESSED_FLAG H))), (v!"MAGIC_LOT_AND_SEQUENCE", .value (eGlobal (const_MAGIC_LOT_AND_SEQUENCE H))), (v!"MAGIC_NO_LOT_AND_SEQUENCE", .value (eGlobal (const_MAGIC_NO_LOT_AND_SEQUENCE H))), (v!"MAGIC_LOT_AND_SEQUENCE_UNCOMPRESSED_FLAG", .value (eGlobal (const_MAGIC_LOT_AND_SEQUENCE_UNCOMPRESSED_FLAG H))), (v!"MAGIC_LOT_AND_SEQUENCE_COMPRESSED_FLAG", .value (eGlobal (const_MAGIC_LOT_AND_SEQUENCE_COMPRESSED_FLAG H))), (v!"MAGIC_NO_LOT_AND_SEQUENCE_UNCOMPRESSED_FLAG", .value x8), (v!"MAGIC_NO_LOT_AND_SEQUENCE_COMPRESSED_FLAG", .value x9), (v!"CONFIRMATION_CODE_PREFIX", .value x10), (v!"N", .value x11), (v!"COORDINATE_POINT_LENGTH", .value x12), (v!"PRIVATE_KEY_LENGTH", .value x13), (v!"UNCOMPRESSED_PRIVATE_KEY_PREFIX", .value x14), (v!"COMPRESSED_PRIVATE_KEY_PREFIX", .value x15), (v!"COMPRESSED_PUBLIC_KEY_LENGTH", .value x16), (v!"UNCOMPRESSED_PUBLIC_KEY_LENGTH", .value x17), (v!"EVEN_COMPRESSED_PUBLIC_KEY_PREFIX", .value x18), (v!"ODD_COMPRESSED_PUBLIC_KEY_PREFIX", .value x19), (v!"UNCOMPRESSED_PUBLIC_KEY_PREFIX", .value x20), (v!"CHECKSUM_BYTE_LENGTH", .value x21), (v!"WIF_TYPES", .value x22), (v!"PUBLIC_KEY_TYPES", .value x23), (v!"FLAGS", .value x24)] ++ (imports [v!"bip38"] (ConstWorld H) constTree).getD [], methods := (fun _ => []) 0, str := Error_str H } (fun _ => []) constTree) = some (eGlobal (const_MAGIC_NO_LOT_AND_SEQUENCE_UNCOMPRESSED_FLAG H)) := by
  by_kernel

theorem const_MAGIC_NO_LOT_AND_SEQUENCE_COMPRESSED_FLAG_is (H : Host) (x9 : Expr) (x10 : Expr) (x11 : Expr) (x12 : Expr) (x13 : Expr) (x14 : Expr) (x15 : Expr) (x16 : Expr) (x17 : Expr) (x18 : Expr) (x19 : Expr) (x20 : Expr) (x21 : Expr) (x22 : Expr) (x23 : Expr) (x24 : Expr) :
    valueOf v!"MAGIC_NO_LOT_AND_SEQUENCE_COMPRESSED_FLAG" (definitions { lib := library H, scope := [(v!"NO_EC_MULTIPLIED_PRIVATE_KEY_PREFIX", .value (eGlobal (const_NO_EC_MULTIPLIED_PRIVATE_KEY_PREFIX H))), (v!"EC_MULTIPLIED_PRIVATE_KEY_PREFIX", .value (eGlobal (const_EC_MULTIPLIED_PRIVATE_KEY_PREFIX H))), (v!"NO_EC_MULTIPLIED_WIF_FLAG", .value (eGlobal (const_NO_EC_MULTIPLIED_WIF_FLAG H))), (v!"NO_EC_MULTIPLIED_WIF_COMPRESSED_FLAG", .value (eGlobal (const_NO_EC_MULTIPLIED_WIF_COMPRESSED_FLAG H))), (v!"MAGIC_LOT_AND_SEQUENCE", .value (eGlobal (const_MAGIC_LOT_AND_SEQUENCE H))), (v!"MAGIC_NO_LOT_AND_SEQUENCE", .value (eGlobal (const_MAGIC_NO_LOT_AND_SEQUENCE H))), (v!"MAGIC_LOT_AND_SEQUENCE_UNCOMPRESSED_FLAG", .value (eGlobal (const_MAGIC_LOT_AND_SEQUENCE_UNCOMPRESSED_FLAG H))), (v!"MAGIC_LOT_AND_SEQUENCE_COMPRESSED_FLAG", .value (eGlobal (const_MAGIC_LOT_AND_SEQUENCE_COMPRESSED_FLAG H))), (v!"MAGIC_NO_LOT_AND_SEQUENCE_UNCOMPRESSED_FLAG", .value (eGlobal (const_MAGIC_NO_LOT_AND_SEQUENCE_UNCOMPRESSED_FLAG H))), (v!"MAGIC_NO_LOT_AND_SEQUENCE_COMPRESSED_FLAG", .value x9), (v!"CONFIRMATION_CODE_PREFIX", .value x10), (v!"N", .value x11), (v!"COORDINATE_POINT_LENGTH", .value x12), (v!"PRIVATE_KEY_LENGTH", .value x13), (v!"UNCOMPRESSED_PRIVATE_KEY_PREFIX", .value x14), (v!"COMPRESSED_PRIVATE_KEY_PREFIX", .value x15), (v!"COMPRESSED_PUBLIC_KEY_LENGTH", .value x16), (v!"UNCOMPRESSED_PUBLIC_KEY_LENGTH", .value x17), (v!"EVEN_COMPRESSED_PUBLIC_KEY_PREFIX", .value x18), (v!"ODD_COMPRESSED_PUBLIC_KEY_PREFIX", .value x19), (v!"UNCOMPRESSED_PUBLIC_KEY_PREFIX", .value x20), (v!"CHECKSUM_BYTE_LENGTH", .value x21), (v!"WIF_TYPES", .value x22), (v!"PUBLIC_KEY_TYPES", .value x23), (v!"FLAGS", .value x24)] ++ (imports [v!"bip38"] (ConstWorld H) constTree).getD [], methods := (fun _ => []) 0, str := Error_str H } (fun _ => []) constTree) = some (eGlobal (const_MAGIC_NO_LOT_AND_SEQUENCE_COMPRESSED_FLAG H)) := by
  by_kernel

theorem const_CONFIRMATION_CODE_PREFIX_is (H : Host) (x10 : Expr) (x11 : Expr) (x12 : Expr) (x13 : Expr) (x14 : Expr) (x15 : Expr) (x16 : Expr) (x17 : Expr) (x18 : Expr) (x19 : Expr) (x20 : Expr) (x21 : Expr) (x22 : Expr) (x23 : Expr) (x24 : Expr) :
    valueOf v!"CONFIRMATION_CODE_PREFIX" (definitions { lib := library H, scope := [(v!"NO_EC_MULTIPLIED_PRIVATE_KEY_PREFIX", .value (eGlobal (const_NO_EC_MULTIPLIED_PRIVATE_KEY_PREFIX H))), (v!"EC_MULTIPLIED_PRIVATE_KEY_PREFIX", .value (eGlobal (const_EC_MULTIPLIED_PRIVATE_KEY_PREFIX H))), (v!"NO_EC_MULTIPLIED_WIF_FLAG", .value (eGlobal (const_NO_EC_MULTIPLIED_WIF_FLAG H))), (v!"NO_EC_MULTIPLIED_WIF_COMPRESSED_FLAG", .value (eGlobal (const_NO_EC_MULTIPLIED_WIF_COMPRESSED_FLAG H))), (v!"MAGIC_LOT_AND_SEQUENCE", .value (eGlobal (const_MAGIC_LOT_AND_SEQUENCE H))), (v!"MAGIC_NO_LOT_AND_SEQUENCE", .value (eGlobal (const_MAGIC_NO_LOT_AND_SEQUENCE H))), (v!"MAGIC_LOT_AND_SEQUENCE_UNCOMPRESSED_FLAG", .value (eGlobal (const_MAGIC_LOT_AND_SEQUENCE_UNCOMPRESSED_FLAG H))), (v!"MAGIC_LOT_AND_SEQUENCE_COMPRESSED_FLAG", .value (eGlobal (const_MAGIC_LOT_AND_SEQUENCE_COMPRESSED_FLAG H))), (v!"MAGIC_NO_LOT_AND_SEQUENCE_UNCOMPRESSED_FLAG", .value (eGlobal (const_MAGIC_NO_LOT_AND_SEQUENCE_UNCOMPRESSED_FLAG H))), (v!"MAGIC_NO_LOT_AND_SEQUENCE_COMPRESSED_FLAG", .value (eGlobal (const_MAGIC_NO_LOT_AND_SEQUENCE_COMPRESSED_FLAG H))), (v!"CONFIRMATION_CODE_PREFIX", .value x10), (v!"N", .value x11), (v!"COORDINATE_POINT_LENGTH", .value x12), (v!"PRIVATE_KEY_LENGTH", .value x13), (v!"UNCOMPRESSED_PRIVATE_KEY_PREFIX", .value x14), (v!"COMPRESSED_PRIVATE_KEY_PREFIX", .value x15), (v!"COMPRESSED_PUBLIC_KEY_LENGTH", .value x16), (v!"UNCOMPRESSED_PUBLIC_KEY_LENGTH", .value x17), (v!"EVEN_COMPRESSED_PUBLIC_KEY_PREFIX", .value x18), (v!"ODD_COMPRESSED_PUBLIC_KEY_PREFIX", .value x19), (v!"UNCOMPRESSED_PUBLIC_KEY_PREFIX", .value x20), (v!"CHECKSUM_BYTE_LENGTH", .value x21), (v!"WIF_TYPES", .value x22), (v!"PUBLIC_KEY_TYPES", .value x23), (v!"FLAGS", .value x24)] ++ (imports [v!"bip38"] (ConstWorld H) constTree).getD [], methods := (fun _ => []) 0, str := Error_str H } (fun _ => []) constTree) = some (eGlobal (const_CONFIRMATION_CODE_PREFIX H)) := by
  by_kernel

theorem const_N_is (H : Host) (x11 : Expr) (x12 : Expr) (x13 : Expr) (x14 : Expr) (x15 : Expr) (x16 : Expr) (x17 : Expr) (x18 : Expr) (x19 : Expr) (x20 : Expr) (x21 : Expr) (x22 : Expr) (x23 : Expr) (x24 : Expr) :
    valueOf v!"N" (definitions { lib := library H, scope := [(v!"NO_EC_MULTIPLIED_PRIVATE_KEY_PREFIX", .value (eGlobal (const_NO_EC_MULTIPLIED_PRIVATE_KEY_PREFIX H))), (v!"EC_MULTIPLIED_PRIVATE_KEY_PREFIX", .value (eGlobal (const_EC_MULTIPLIED_PRIVATE_KEY_PREFIX H))), (v!"NO_EC_MULTIPLIED_WIF_FLAG", .value (eGlobal (const_NO_EC_MULTIPLIED_WIF_FLAG H))), (v!"NO_EC_MULTIPLIED_WIF_COMPRESSED_FLAG", .value (eGlobal (const_NO_EC_MULTIPLIED_WIF_COMPRESSED_FLAG H))), (v!"MAGIC_LOT_AND_SEQUENCE", .value (eGlobal (const_MAGIC_LOT_AND_SEQUENCE H))), (v!"MAGIC_NO_LOT_AND_SEQUENCE", .value (eGlobal (const_MAGIC_NO_LOT_AND_SEQUENCE H))), (v!"MAGIC_LOT_AND_SEQUENCE_UNCOMPRESSED_FLAG", .value (eGlobal (const_MAGIC_LOT_AND_SEQUENCE_UNCOMPRESSED_FLAG H))), (v!"MAGIC_LOT_AND_SEQUENCE_COMPRESSED_FLAG", .value (eGlobal (const_MAGIC_LOT_AND_SEQUENCE_COMPRESSED_FLAG H))), (v!"MAGIC_NO_LOT_AND_SEQUENCE_UNCOMPRESSED_FLAG", .value (eGlobal (const_MAGIC_NO_LOT_AND_SEQUENCE_UNCOMPRESSED_FLAG H))), (v!"MAGIC_NO_LOT_AND_SEQUENCE_COMPRESSED_FLAG", .value (eGlobal (const_MAGIC_NO_LOT_AND_SEQUENCE_COMPRESSED_FLAG H))), (v!"CONFIRMATION_CODE_PREFIX", .value (eGlobal (const_CONFIRMATION_CODE_PREFIX H))), (v!"N", .value x11), (v!"COORDINATE_POINT_LENGTH", .value x12), (v!"PRIVATE_KEY_LENGTH", .value x13), (v!"UNCOMPRESSED_PRIVATE_KEY_PREFIX", .value x14), (v!"COMPRESSED_PRIVATE_KEY_PREFIX", .value x15), (v!"COMPRESSED_PUBLIC_KEY_LENGTH", .value x16), (v!"UNCOMPRESSED_PUBLIC_KEY_LENGTH", .value x17), (v!"EVEN_COMPRESSED_PUBLIC_KEY_PREFIX", .value x18), (v!"ODD_COMPRESSED_PUBLIC_KEY_PREFIX", .value x19), (v!"UNCOMPRESSED_PUBLIC_KEY_PREFIX", .value x20), (v!"CHECKSUM_BYTE_LENGTH", .value x21), (v!"WIF_TYPES", .value x22), (v!"PUBLIC_KEY_TYPES", .value x23), (v!"FLAGS", .value x24)] ++ (imports [v!"bip38"] (ConstWorld H) constTree).getD [], methods := (fun _ => []) 0, str := Error_str H } (fun _ => []) constTree) = some (eGlobal (const_N H)) := by
  by_kernel

theorem const_COORDINATE_POINT_LENGTH_is (H : Host) (x12 : Expr) (x13 : Expr) (x14 : Expr) (x15 : Expr) (x16 : Expr) (x17 : Expr) (x18 : Expr) (x19 : Expr) (x20 : Expr) (x21 : Expr) (x22 : Expr) (x23 : Expr) (x24 : Expr) :
    valueOf v!"COORDINATE_POINT_LENGTH" (definitions { lib := library H, scope := [(v!"NO_EC_MULTIPLIED_PRIVATE_KEY_PREFIX", .value (eGlobal (const_NO_EC_MULTIPLIED_PRIVATE_KEY_PREFIX H))), (v!"EC_MULTIPLIED_PRIVATE_KEY_PREFIX", .value (eGlobal (const_EC_MULTIPLIED_PRIVATE_KEY_PREFIX H))), (v!"NO_EC_MULTIPLIED_WIF_FLAG", .value (eGlobal (const_NO_EC_MULTIPLIED_WIF_FLAG H))), (v!"NO_EC_MULTIPLIED_WIF_COMPRESSED_FLAG", .value (eGlobal (const_NO_EC_MULTIPLIED_WIF_COMPRESSED_FLAG H))), (v!"MAGIC_LOT_AND_SEQUENCE", .value (eGlobal (const_MAGIC_LOT_AND_SEQUENCE H))), (v!"MAGIC_NO_LOT_AND_SEQUENCE", .value (eGlobal (const_MAGIC_NO_LOT_AND_SEQUENCE H))), (v!"MAGIC_LOT_AND_SEQUENCE_UNCOMPRESSED_FLAG", .value (eGlobal (const_MAGIC_LOT_AND_SEQUENCE_UNCOMPRESSED_FLAG H))), (v!"MAGIC_LOT_AND_SEQUENCE_COMPRESSED_FLAG", .value (eGlobal (const_MAGIC_LOT_AND_SEQUENCE_COMPRESSED_FLAG H))), (v!"MAGIC_NO_LOT_AND_SEQUENCE_UNCOMPRESSED_FLAG", .value (eGlobal (const_MAGIC_NO_LOT_AND_SEQUENCE_UNCOMPRESSED_FLAG H))), (v!"MAGIC_NO_LOT_AND_SEQUENCE_COMPRESSED_FLAG", .value (eGlobal (const_MAGIC_NO_LOT_AND_SEQUENCE_COMPRESSED_FLAG H))), (v!"CONFIRMATION_CODE_PREFIX", .value (eGlobal (const_CONFIRMATION_CODE_PREFIX H))), (v!"N", .value (eGlobal (const_N H))), (v!"COORDINATE_POINT_LENGTH", .value x12), (v!"PRIVATE_KEY_LENGTH", .value x13), (v!"UNCOMPRESSED_PRIVATE_KEY_PREFIX", .value x14), (v!"COMPRESSED_PRIVATE_KEY_PREFIX", .value x15), (v!"COMPRESSED_PUBLIC_KEY_LENGTH", .value x16), (v!"UNCOMPRESSED_PUBLIC_KEY_LENGTH", .value x17), (v!"EVEN_COMPRESSED_PUBLIC_KEY_PREFIX", .value x18), (v!"ODD_COMPRESSED_PUBLIC_KEY_PREFIX", .value x19), (v!"UNCOMPRESSED_PUBLIC_KEY_PREFIX", .value x20), (v!"CHECKSUM_BYTE_LENGTH", .value x21), (v!"WIF_TYPES", .value x22), (v!"PUBLIC_KEY_TYPES", .value x23), (v!"FLAGS", .value x24)] ++ (imports [v!"bip38"] (ConstWorld H) constTree).getD [], methods := (fun _ => []) 0, str := Error_str H } (fun _ => []) constTree) = some (eGlobal (const_COORDINATE_POINT_LENGTH H)) := by
  by_kernel

theorem const_PRIVATE_KEY_LENGTH_is (H : Host) (x13 : Expr) (x14 : Expr) (x15 : Expr) (x16 : Expr) (x17 : Expr) (x18 : Expr) (x19 : Expr) (x20 : Expr) (x21 : Expr) (x22 : Expr) (x23 : Expr) (x24 : Expr) :
    valueOf v!"PRIVATE_KEY_LENGTH" (definitions { lib := library H, scope := [(v!"NO_EC_MULTIPLIED_PRIVATE_KEY_PREFIX", .value (eGlobal (const_NO_EC_MULTIPLIED_PRIVATE_KEY_PREFIX H))), (v!"EC_MULTIPLIED_PRIVATE_KEY_PREFIX", .value (eGlobal (const_EC_MULTIPLIED_PRIVATE_KEY_PREFIX H))), (v!"NO_EC_MULTIPLIED_WIF_FLAG", .value (eGlobal (const_NO_EC_MULTIPLIED_WIF_FLAG H))), (v!"NO_EC_MULTIPLIED_WIF_COMPRESSED_FLAG", .value (eGlobal (const_NO_EC_MULTIPLIED_WIF_COMPRESSED_FLAG H))), (v!"MAGIC_LOT_AND_SEQUENCE", .value (eGlobal (const_MAGIC_LOT_AND_SEQUENCE H))), (v!"MAGIC_NO_LOT_AND_SEQUENCE", .value (eGlobal (const_MAGIC_NO_LOT_AND_SEQUENCE H))), (v!"MAGIC_LOT_AND_SEQUENCE_UNCOMPRESSED_FLAG", .value (eGlobal (const_MAGIC_LOT_AND_SEQUENCE_UNCOMPRESSED_FLAG H))), (v!"MAGIC_LOT_AND_SEQUENCE_COMPRESSED_FLAG", .value (eGlobal (const_MAGIC_LOT_AND_SEQUENCE_COMPRESSED_FLAG H))), (v!"MAGIC_NO_LOT_AND_SEQUENCE_UNCOMPRESSED_FLAG", .value (eGlobal (const_MAGIC_NO_LOT_AND_SEQUENCE_UNCOMPRESSED_FLAG H))), (v!"MAGIC_NO_LOT_AND_SEQUENCE_COMPRESSED_FLAG", .value (eGlobal (const_MAGIC_NO_LOT_AND_SEQUENCE_COMPRESSED_FLAG H))), (v!"CONFIRMATION_CODE_PREFIX", .value (eGlobal (const_CONFIRMATION_CODE_PREFIX H))), (v!"N", .value (eGlobal (const_N H))), (v!"COORDINATE_POINT_LENGTH", .value (eGlobal (const_COORDINATE_POINT_LENGTH H))), (v!"PRIVATE_KEY_LENGTH", .value x13), (v!"UNCOMPRESSED_PRIVATE_KEY_PREFIX", .value x14), (v!"COMPRESSED_PRIVATE_KEY_PREFIX", .value x15), (v!"COMPRESSED_PUBLIC_KEY_LENGTH", .value x16), (v!"UNCOMPRESSED_PUBLIC_KEY_LENGTH", .value x17), (v!"EVEN_COMPRESSED_PUBLIC_KEY_PREFIX", .value x18), (v!"ODD_COMPRESSED_PUBLIC_KEY_PREFIX", .value x19), (v!"UNCOMPRESSED_PUBLIC_KEY_PREFIX", .value x20), (v!"CHECKSUM_BYTE_LENGTH", .value x21), (v!"WIF_TYPES", .value x22), (v!"PUBLIC_KEY_TYPES", .value x23), (v!"FLAGS", .value x24)] ++ (imports [v!"bip38"] (ConstWorld H) constTree).getD [], methods := (fun _ => []) 0, str := Error_str H } (fun _ => []) constTree) = some (eGlobal (const_PRIVATE_KEY_LENGTH H)) := by
  by_kernel

theorem const_UNCOMPRESSED_PRIVATE_KEY_PREFIX_is (H : Host) (x14 : Expr) (x15 : Expr) (x16 : Expr) (x17 : Expr) (x18 : Expr) (x19 : Expr) (x20 : Expr) (x21 : Expr) (x22 : Expr) (x23 : Expr) (x24 : Expr) :
    valueOf v!"UNCOMPRESSED_PRIVATE_KEY_PREFIX" (definitions { lib := library H, scope := [(v!"NO_EC_MULTIPLIED_PRIVATE_KEY_PREFIX", .value (eGlobal (const_NO_EC_MULTIPLIED_PRIVATE_KEY_PREFIX H))), (v!"EC_MULTIPLIED_PRIVATE_KEY_PREFIX", .value (eGlobal (const_EC_MULTIPLIED_PRIVATE_KEY_PREFIX H))), (v!"NO_EC_MULTIPLIED_WIF_FLAG", .value (eGlobal (const_NO_EC_MULTIPLIED_WIF_FLAG H))), (v!"NO_EC_MULTIPLIED_WIF_COMPRESSED_FLAG", .value (eGlobal (const_NO_EC_MULTIPLIED_WIF_COMPRESSED_FLAG H))), (v!"MAGIC_LOT_AND_SEQUENCE", .value (eGlobal (const_MAGIC_LOT_AND_SEQUENCE H))), (v!"MAGIC_NO_LOT_AND_SEQUENCE", .value (eGlobal (const_MAGIC_NO_LOT_AND_SEQUENCE H))), (v!"MAGIC_LOT_AND_SEQUENCE_UNCOMPRESSED_FLAG", .value (eGlobal (const_MAGIC_LOT_AND_SEQUENCE_UNCOMPRESSED_FLAG H))), (v!"MAGIC_LOT_AND_SEQUENCE_COMPRESSED_FLAG", .value (eGlobal (const_MAGIC_LOT_AND_SEQUENCE_COMPRESSED_FLAG H))), (v!"MAGIC_NO_LOT_AND_SEQUENCE_UNCOMPRESSED_FLAG", .value (eGlobal (const_MAGIC_NO_LOT_AND_SEQUENCE_UNCOMPRESSED_FLAG H))), (v!"MAGIC_NO_LOT_AND_SEQUENCE_COMPRESSED_FLAG", .value (eGlobal (const_MAGIC_NO_LOT_AND_SEQUENCE_COMPRESSED_FLAG H))), (v!"CONFIRMATION_CODE_PREFIX", .value (eGlobal (const_CONFIRMATION_CODE_PREFIX H))), (v!"N", .value (eGlobal (const_N H))), (v!"COORDINATE_POINT_LENGTH", .value (eGlobal (const_COORDINATE_POINT_LENGTH H))), (v!"PRIVATE_KEY_LENGTH", .value (eGlobal (const_PRIVATE_KEY_LENGTH H))), (v!"UNCOMPRESSED_PRIVATE_KEY_PREFIX", .value x14), (v!"COMPRESSED_PRIVATE_KEY_PREFIX", .value x15), (v!"COMPRESSED_PUBLIC_KEY_LENGTH", .value x16), (v!"UNCOMPRESSED_PUBLIC_KEY_LENGTH", .value x17), (v!"EVEN_COMPRESSED_PUBLIC_KEY_PREFIX", .value x18), (v!"ODD_COMPRESSED_PUBLIC_KEY_PREFIX", .value x19), (v!"UNCOMPRESSED_PUBLIC_KEY_PREFIX", .value x20), (v!"CHECKSUM_BYTE_LENGTH", .value x21), (v!"WIF_TYPES", .value x22), (v!"PUBLIC_KEY_TYPES", .value x23), (v!"FLAGS", .value x24)] ++ (imports [v!"bip38"] (ConstWorld H) constTree).getD [], methods := (fun _ => []) 0, str := Error_str H } (fun _ => []) constTree) = some (eGlobal (const_UNCOMPRESSED_PRIVATE_KEY_PREFIX H)) := by
  by_kernel

theorem const_COMPRESSED_PRIVATE_KEY_PREFIX_is (H : Host) (x15 : Expr) (x16 : Expr) (x17 : Expr) (x18 : Expr) (x19 : Expr) (x20 : Expr) (x21 : Expr) (x22 : Expr) (x23 : Expr) (x24 : Expr) :
    valueOf v!"COMPRESSED_PRIVATE_KEY_PREFIX" (definitions { lib := library H, scope := [(v!"NO_EC_MULTIPLIED_PRIVATE_KEY_PREFIX", .value (eGlobal (const_NO_EC_MULTIPLIED_PRIVATE_KEY_PREFIX H))), (v!"EC_MULTIPLIED_PRIVATE_KEY_PREFIX", .value (eGlobal (const_EC_MULTIPLIED_PRIVATE_KEY_PREFIX H))), (v!"NO_EC_MULTIPLIED_WIF_FLAG", .value (eGlobal (const_NO_EC_MULTIPLIED_WIF_FLAG H))), (v!"NO_EC_MULTIPLIED_WIF_COMPRESSED_FLAG", .value (eGlobal (const_NO_EC_MULTIPLIED_WIF_COMPRESSED_FLAG H))), (v!"MAGIC_LOT_AND_SEQUENCE", .value (eGlobal (const_MAGIC_LOT_AND_SEQUENCE H))), (v!"MAGIC_NO_LOT_AND_SEQUENCE", .value (eGlobal (const_MAGIC_NO_LOT_AND_SEQUENCE H))), (v!"MAGIC_LOT_AND_SEQUENCE_UNCOMPRESSED_FLAG", .value (eGlobal (const_MAGIC_LOT_AND_SEQUENCE_UNCOMPRESSED_FLAG H))), (v!"MAGIC_LOT_AND_SEQUENCE_COMPRESSED_FLAG", .value (eGlobal (const_MAGIC_LOT_AND_SEQUENCE_COMPRESSED_FLAG H))), (v!"MAGIC_NO_LOT_AND_SEQUENCE_UNCOMPRESSED_FLAG", .value (eGlobal (const_MAGIC_NO_LOT_AND_SEQUENCE_UNCOMPRESSED_FLAG H))), (v!"MAGIC_NO_LOT_AND_SEQUENCE_COMPRESSED_FLAG", .value (eGlobal (const_MAGIC_NO_LOT_AND_SEQUENCE_COMPRESSED_FLAG H))), (v!"CONFIRMATION_CODE_PREFIX", .value (eGlobal (const_CONFIRMATION_CODE_PREFIX H))), (v!"N", .value (eGlobal (const_N H))), (v!"COORDINATE_POINT_LENGTH", .value (eGlobal (const_COORDINATE_POINT_LENGTH H))), (v!"PRIVATE_KEY_LENGTH", .value (eGlobal (const_PRIVATE_KEY_LENGTH H))), (v!"UNCOMPRESSED_PRIVATE_KEY_PREFIX", .value (eGlobal (const_UNCOMPRESSED_PRIVATE_KEY_PREFIX H))), (v!"COMPRESSED_PRIVATE_KEY_PREFIX", .value x15), (v!"COMPRESSED_PUBLIC_KEY_LENGTH", .value x16), (v!"UNCOMPRESSED_PUBLIC_KEY_LENGTH", .value x17), (v!"EVEN_COMPRESSED_PUBLIC_KEY_PREFIX", .value x18), (v!"ODD_COMPRESSED_PUBLIC_KEY_PREFIX", .value x19), (v!"UNCOMPRESSED_PUBLIC_KEY_PREFIX", .value x20), (v!"CHECKSUM_BYTE_LENGTH", .value x21), (v!"WIF_TYPES", .value x22), (v!"PUBLIC_KEY_TYPES", .value x23), (v!"FLAGS", .value x24)] ++ (imports [v!"bip38"] (ConstWorld H) constTree).getD [], methods := (fun _ => []) 0, str := Error_str H } (fun _ => []) constTree) = some (eGlobal (const_COMPRESSED_PRIVATE_KEY_PREFIX H)) := by
  by_kernel

theorem const_COMPRESSED_PUBLIC_KEY_LENGTH_is (H : Host) (x16 : Expr) (x17 : Expr) (x18 : Expr) (x19 : Expr) (x20 : Expr) (x21 : Expr) (x22 : Expr) (x23 : Expr) (x24 : Expr) :
    valueOf v!"COMPRESSED_PUBLIC_KEY_LENGTH" (definitions { lib := library H, scope := [(v!"NO_EC_MULTIPLIED_PRIVATE_KEY_PREFIX", .value (eGlobal (const_NO_EC_MULTIPLIED_PRIVATE_KEY_PREFIX H))), (v!"EC_MULTIPLIED_PRIVATE_KEY_PREFIX", .value (eGlobal (const_EC_MULTIPLIED_PRIVATE_KEY_PREFIX H))), (v!"NO_EC_MULTIPLIED_WIF_FLAG", .value (eGlobal (const_NO_EC_MULTIPLIED_WIF_FLAG H))), (v!"NO_EC_MULTIPLIED_WIF_COMPRESSED_FLAG", .value (eGlobal (const_NO_EC_MULTIPLIED_WIF_COMPRESSED_FLAG H))), (v!"MAGIC_LOT_AND_SEQUENCE", .value (eGlobal (const_MAGIC_LOT_AND_SEQUENCE H))), (v!"MAGIC_NO_LOT_AND_SEQUENCE", .value (eGlobal (const_MAGIC_NO_LOT_AND_SEQUENCE H))), (v!"MAGIC_LOT_AND_SEQUENCE_UNCOMPRESSED_FLAG", .value (eGlobal (const_MAGIC_LOT_AND_SEQUENCE_UNCOMPRESSED_FLAG H))), (v!"MAGIC_LOT_AND_SEQUENCE_COMPRESSED_FLAG", .value (eGlobal (const_MAGIC_LOT_AND_SEQUENCE_COMPRESSED_FLAG H))), (v!"MAGIC_NO_LOT_AND_SEQUENCE_UNCOMPRESSED_FLAG", .value (eGlobal (const_MAGIC_NO_LOT_AND_SEQUENCE_UNCOMPRESSED_FLAG H))), (v!"MAGIC_NO_LOT_AND_SEQUENCE_COMPRESSED_FLAG", .value (eGlobal (const_MAGIC_NO_LOT_AND_SEQUENCE_COMPRESSED_FLAG H))), (v!"CONFIRMATION_CODE_PREFIX", .value (eGlobal (const_CONFIRMATION_CODE_PREFIX H))), (v!"N", .value (eGlobal (const_N H))), (v!"COORDINATE_POINT_LENGTH", .value (eGlobal (const_COORDINATE_POINT_LENGTH H))), (v!"PRIVATE_KEY_LENGTH", .value (eGlobal (const_PRIVATE_KEY_LENGTH H))), (v!"UNCOMPRESSED_PRIVATE_KEY_PREFIX", .value (eGlobal (const_UNCOMPRESSED_PRIVATE_KEY_PREFIX H))), (v!"COMPRESSED_PRIVATE_KEY_PREFIX", .value (eGlobal (const_COMPRESSED_PRIVATE_KEY_PREFIX H))), (v!"COMPRESSED_PUBLIC_KEY_LENGTH", .value x16), (v!"UNCOMPRESSED_PUBLIC_KEY_LENGTH", .value x17), (v!"EVEN_COMPRESSED_PUBLIC_KEY_PREFIX", .value x18), (v!"ODD_COMPRESSED_PUBLIC_KEY_PREFIX", .value x19), (v!"UNCOMPRESSED_PUBLIC_KEY_PREFIX", .value x20), (v!"CHECKSUM_BYTE_LENGTH", .value x21), (v!"WIF_TYPES", .value x22), (v!"PUBLIC_KEY_TYPES", .value x23), (v!"FLAGS", .value x24)] ++ (imports [v!"bip38"] (ConstWorld H) constTree).getD [], methods := (fun _ => []) 0, str := Error_str H } (fun _ => []) constTree) = some (eGlobal (const_COMPRESSED_PUBLIC_KEY_LENGTH H)) := by
  by_kernel

theorem const_UNCOMPRESSED_PUBLIC_KEY_LENGTH_is (H : Host) (x17 : Expr) (x18 : Expr) (x19 : Expr) (x20 : Expr) (x21 : Expr) (x22 : Expr) (x23 : Expr) (x24 : Expr) :
    valueOf v!"UNCOMPRESSED_PUBLIC_KEY_LENGTH" (definitions { lib := library H, scope := [(v!"NO_EC_MULTIPLIED_PRIVATE_KEY_PREFIX", .value (eGlobal (const_NO_EC_MULTIPLIED_PRIVATE_KEY_PREFIX H))), (v!"EC_MULTIPLIED_PRIVATE_KEY_PREFIX", .value (eGlobal (const_EC_MULTIPLIED_PRIVATE_KEY_PREFIX H))), (v!"NO_EC_MULTIPLIED_WIF_FLAG", .value (eGlobal (const_NO_EC_MULTIPLIED_WIF_FLAG H))), (v!"NO_EC_MULTIPLIED_WIF_COMPRESSED_FLAG", .value (eGlobal (const_NO_EC_MULTIPLIED_WIF_COMPRESSED_FLAG H))), (v!"MAGIC_LOT_AND_SEQUENCE", .value (eGlobal (const_MAGIC_LOT_AND_SEQUENCE H))), (v!"MAGIC_NO_LOT_AND_SEQUENCE", .value (eGlobal (const_MAGIC_NO_LOT_AND_SEQUENCE H))), (v!"MAGIC_LOT_AND_SEQUENCE_UNCOMPRESSED_FLAG", .value (eGlobal (const_MAGIC_LOT_AND_SEQUENCE_UNCOMPRESSED_FLAG H))), (v!"MAGIC_LOT_AND_SEQUENCE_COMPRESSED_FLAG", .value (eGlobal (const_MAGIC_LOT_AND_SEQUENCE_COMPRESSED_FLAG H))), (v!"MAGIC_NO_LOT_AND_SEQUENCE_UNCOMPRESSED_FLAG", .value (eGlobal (const_MAGIC_NO_LOT_AND_SEQUENCE_UNCOMPRESSED_FLAG H))), (v!"MAGIC_NO_LOT_AND_SEQUENCE_COMPRESSED_FLAG", .value (eGlobal (const_MAGIC_NO_LOT_AND_SEQUENCE_COMPRESSED_FLAG H))), (v!"CONFIRMATION_CODE_PREFIX", .value (eGlobal (const_CONFIRMATION_CODE_PREFIX H))), (v!"N", .value (eGlobal (const_N H))), (v!"COORDINATE_POINT_LENGTH", .value (eGlobal (const_COORDINATE_POINT_LENGTH H))), (v!"PRIVATE_KEY_LENGTH", .value (eGlobal (const_PRIVATE_KEY_LENGTH H))), (v!"UNCOMPRESSED_PRIVATE_KEY_PREFIX", .value (eGlobal (const_UNCOMPRESSED_PRIVATE_KEY_PREFIX H))), (v!"COMPRESSED_PRIVATE_KEY_PREFIX", .value (eGlobal (const_COMPRESSED_PRIVATE_KEY_PREFIX H))), (v!"COMPRESSED_PUBLIC_KEY_LENGTH", .value (eGlobal (const_COMPRESSED_PUBLIC_KEY_LENGTH H))), (v!"UNCOMPRESSED_PUBLIC_KEY_LENGTH", .value x17), (v!"EVEN_COMPRESSED_PUBLIC_KEY_PREFIX", .value x18), (v!"ODD_COMPRESSED_PUBLIC_KEY_PREFIX", .value x19), (v!"UNCOMPRESSED_PUBLIC_KEY_PREFIX", .value x20), (v!"CHECKSUM_BYTE_LENGTH", .value x21), (v!"WIF_TYPES", .value x22), (v!"PUBLIC_KEY_TYPES", .value x23), (v!"FLAGS", .value x24)] ++ (imports [v!"bip38"] (ConstWorld H) constTree).getD [], methods := (fun _ => []) 0, str := Error_str H } (fun _ => []) constTree) = some (eGlobal (const_UNCOMPRESSED_PUBLIC_KEY_LENGTH H)) := by
  by_kernel

theorem const_EVEN_COMPRESSED_PUBLIC_KEY_PREFIX_is (H : Host) (x18 : Expr) (x19 : Expr) (x20 : Expr) (x21 : Expr) (x22 : Expr) (x23 : Expr) (x24 : Expr) :
    valueOf v!"EVEN_COMPRESSED_PUBLIC_KEY_PREFIX" (definitions { lib := library H, scope := [(v!"NO_EC_MULTIPLIED_PRIVATE_KEY_PREFIX", .value (eGlobal (const_NO_EC_MULTIPLIED_PRIVATE_KEY_PREFIX H))), (v!"EC_MULTIPLIED_PRIVATE_KEY_PREFIX", .value (eGlobal (const_EC_MULTIPLIED_PRIVATE_KEY_PREFIX H))), (v!"NO_EC_MULTIPLIED_WIF_FLAG", .value (eGlobal (const_NO_EC_MULTIPLIED_WIF_FLAG H))), (v!"NO_EC_MULTIPLIED_WIF_COMPRESSED_FLAG", .value (eGlobal (const_NO_EC_MULTIPLIED_WIF_COMPRESSED_FLAG H))), (v!"MAGIC_LOT_AND_SEQUENCE", .value (eGlobal (const_MAGIC_LOT_AND_SEQUENCE H))), (v!"MAGIC_NO_LOT_AND_SEQUENCE", .value (eGlobal (const_MAGIC_NO_LOT_AND_SEQUENCE H))), (v!"MAGIC_LOT_AND_SEQUENCE_UNCOMPRESSED_FLAG", .value (eGlobal (const_MAGIC_LOT_AND_SEQUENCE_UNCOMPRESSED_FLAG H))), (v!"MAGIC_LOT_AND_SEQUENCE_COMPRESSED_FLAG", .value (eGlobal (const_MAGIC_LOT_AND_SEQUENCE_COMPRESSED_FLAG H))), (v!"MAGIC_NO_LOT_AND_SEQUENCE_UNCOMPRESSED_FLAG", .value (eGlobal (const_MAGIC_NO_LOT_AND_SEQUENCE_UNCOMPRESSED_FLAG H))), (v!"MAGIC_NO_LOT_AND_SEQUENCE_COMPRESSED_FLAG", .value (eGlobal (const_MAGIC_NO_LOT_AND_SEQUENCE_COMPRESSED_FLAG H))), (v!"CONFIRMATION_CODE_PREFIX", .value (eGlobal (const_CONFIRMATION_CODE_PREFIX H))), (v!"N", .value (eGlobal (const_N H))), (v!"COORDINATE_POINT_LENGTH", .value (eGlobal (const_COORDINATE_POINT_LENGTH H))), (v!"PRIVATE_KEY_LENGTH", .value (eGlobal (const_PRIVATE_KEY_LENGTH H))), (v!"UNCOMPRESSED_PRIVATE_KEY_PREFIX", .value (eGlobal (const_UNCOMPRESSED_PRIVATE_KEY_PREFIX H))), (v!"COMPRESSED_PRIVATE_KEY_PREFIX", .value (eGlobal (const_COMPRESSED_PRIVATE_KEY_PREFIX H))), (v!"COMPRESSED_PUBLIC_KEY_LENGTH", .value (eGlobal (const_COMPRESSED_PUBLIC_KEY_LENGTH H))), (v!"UNCOMPRESSED_PUBLIC_KEY_LENGTH", .value (eGlobal (const_UNCOMPRESSED_PUBLIC_KEY_LENGTH H))), (v!"EVEN_COMPRESSED_PUBLIC_KEY_PREFIX", .value x18), (v!"ODD_COMPRESSED_PUBLIC_KEY_PREFIX", .value x19), (v!"UNCOMPRESSED_PUBLIC_KEY_PREFIX", .value x20), (v!"CHECKSUM_BYTE_LENGTH", .value x21), (v!"WIF_TYPES", .value x22), (v!"PUBLIC_KEY_TYPES", .value x23), (v!"FLAGS", .value x24)] ++ (imports [v!"bip38"] (ConstWorld H) constTree).getD [], methods := (fun _ => []) 0, str := Error_str H } (fun _ => []) constTree) = some (eGlobal (const_EVEN_COMPRESSED_PUBLIC_KEY_PREFIX H)) := by
  by_kernel

theorem const_ODD_COMPRESSED_PUBLIC_KEY_PREFIX_is (H : Host) (x19 : Expr) (x20 : Expr) (x21 : Expr) (x22 : Expr) (x23 : Expr) (x24 : Expr) :
    valueOf v!"ODD_COMPRESSED_PUBLIC_KEY_PREFIX" (definitions { lib := library H, scope := [(v!"NO_EC_MULTIPLIED_PRIVATE_KEY_PREFIX", .value (eGlobal (const_NO_EC_MULTIPLIED_PRIVATE_KEY_PREFIX H))), (v!"EC_MULTIPLIED_PRIVATE_KEY_PREFIX", .value (eGlobal (const_EC_MULTIPLIED_PRIVATE_KEY_PREFIX H))), (v!"NO_EC_MULTIPLIED_WIF_FLAG", .value (eGlobal (const_NO_EC_MULTIPLIED_WIF_FLAG H))), (v!"NO_EC_MULTIPLIED_WIF_COMPRESSED_FLAG", .value (eGlobal (const_NO_EC_MULTIPLIED_WIF_COMPRESSED_FLAG H))), (v!"MAGIC_LOT_AND_SEQUENCE", .value (eGlobal (const_MAGIC_LOT_AND_SEQUENCE H))), (v!"MAGIC_NO_LOT_AND_SEQUENCE", .value (eGlobal (const_MAGIC_NO_LOT_AND_SEQUENCE H))), (v!"MAGIC_LOT_AND_SEQUENCE_UNCOMPRESSED_FLAG", .value (eGlobal (const_MAGIC_LOT_AND_SEQUENCE_UNCOMPRESSED_FLAG H))), (v!"MAGIC_LOT_AND_SEQUENCE_COMPRESSED_FLAG", .value (eGlobal (const_MAGIC_LOT_AND_SEQUENCE_COMPRESSED_FLAG H))), (v!"MAGIC_NO_LOT_AND_SEQUENCE_UNCOMPRESSED_FLAG", .value (eGlobal (const_MAGIC_NO_LOT_AND_SEQUENCE_UNCOMPRESSED_FLAG H))), (v!"MAGIC_NO_LOT_AND_SEQUENCE_COMPRESSED_FLAG", .value (eGlobal (const_MAGIC_NO_LOT_AND_SEQUENCE_COMPRESSED_FLAG H))), (v!"CONFIRMATION_CODE_PREFIX", .value (eGlobal (const_CONFIRMATION_CODE_PREFIX H))), (v!"N", .value (eGlobal (const_N H))), (v!"COORDINATE_POINT_LENGTH", .value (eGlobal (const_COORDINATE_POINT_LENGTH H))), (v!"PRIVATE_KEY_LENGTH", .value (eGlobal (const_PRIVATE_KEY_LENGTH H))), (v!"UNCOMPRESSED_PRIVATE_KEY_PREFIX", .value (eGlobal (const_UNCOMPRESSED_PRIVATE_KEY_PREFIX H))), (v!"COMPRESSED_PRIVATE_KEY_PREFIX", .value (eGlobal (const_COMPRESSED_PRIVATE_KEY_PREFIX H))), (v!"COMPRESSED_PUBLIC_KEY_LENGTH", .value (eGlobal (const_COMPRESSED_PUBLIC_KEY_LENGTH H))), (v!"UNCOMPRESSED_PUBLIC_KEY_LENGTH", .value (eGlobal (const_UNCOMPRESSED_PUBLIC_KEY_LENGTH H))), (v!"EVEN_COMPRESSED_PUBLIC_KEY_PREFIX", .value (eGlobal (const_EVEN_COMPRESSED_PUBLIC_KEY_PREFIX H))), (v!"ODD_COMPRESSED_PUBLIC_KEY_PREFIX", .value x19), (v!"UNCOMPRESSED_PUBLIC_KEY_PREFIX", .value x20), (v!"CHECKSUM_BYTE_LENGTH", .value x21), (v!"WIF_TYPES", .value x22), (v!"PUBLIC_KEY_TYPES", .value x23), (v!"FLAGS", .value x24)] ++ (imports [v!"bip38"] (ConstWorld H) constTree).getD [], methods := (fun _ => []) 0, str := Error_str H } (fun _ => []) constTree) = some (eGlobal (const_ODD_COMPRESSED_PUBLIC_KEY_PREFIX H)) := by
  by_kernel

theorem const_UNCOMPRESSED_PUBLIC_KEY_PREFIX_is (H : Host) (x20 : Expr) (x21 : Expr) (x22 : Expr) (x23 : Expr) (x24 : Expr) :
    valueOf v!"UNCOMPRESSED_PUBLIC_KEY_PREFIX" (definitions { lib := library H, scope := [(v!"NO_EC_MULTIPLIED_PRIVATE_KEY_PREFIX", .value (eGlobal (const_NO_EC_MULTIPLIED_PRIVATE_KEY_PREFIX H))), (v!"EC_MULTIPLIED_PRIVATE_KEY_PREFIX", .value (eGlobal (const_EC_MULTIPLIED_PRIVATE_KEY_PREFIX H))), (v!"NO_EC_MULTIPLIED_WIF_FLAG", .value (eGlobal (const_NO_EC_MULTIPLIED_WIF_FLAG H))), (v!"NO_EC_MULTIPLIED_WIF_COMPRESSED_FLAG", .value (eGlobal (const_NO_EC_MULTIPLIED_WIF_COMPRESSED_FLAG H))), (v!"MAGIC_LOT_AND_SEQUENCE", .value (eGlobal (const_MAGIC_LOT_AND_SEQUENCE H))), (v!"MAGIC_NO_LOT_AND_SEQUENCE", .value (eGlobal (const_MAGIC_NO_LOT_AND_SEQUENCE H))), (v!"MAGIC_LOT_AND_SEQUENCE_UNCOMPRESSED_FLAG", .value (eGlobal (const_MAGIC_LOT_AND_SEQUENCE_UNCOMPRESSED_FLAG H))), (v!"MAGIC_LOT_AND_SEQUENCE_COMPRESSED_FLAG", .value (eGlobal (const_MAGIC_LOT_AND_SEQUENCE_COMPRESSED_FLAG H))), (v!"MAGIC_NO_LOT_AND_SEQUENCE_UNCOMPRESSED_FLAG", .value (eGlobal (const_MAGIC_NO_LOT_AND_SEQUENCE_UNCOMPRESSED_FLAG H))), (v!"MAGIC_NO_LOT_AND_SEQUENCE_COMPRESSED_FLAG", .value (eGlobal (const_MAGIC_NO_LOT_AND_SEQUENCE_COMPRESSED_FLAG H))), (v!"CONFIRMATION_CODE_PREFIX", .value (eGlobal (const_CONFIRMATION_CODE_PREFIX H))), (v!"N", .value (eGlobal (const_N H))), (v!"COORDINATE_POINT_LENGTH", .value (eGlobal (const_COORDINATE_POINT_LENGTH H))), (v!"PRIVATE_KEY_LENGTH", .value (eGlobal (const_PRIVATE_KEY_LENGTH H))), (v!"UNCOMPRESSED_PRIVATE_KEY_PREFIX", .value (eGlobal (const_UNCOMPRESSED_PRIVATE_KEY_PREFIX H))), (v!"COMPRESSED_PRIVATE_KEY_PREFIX", .value (eGlobal (const_COMPRESSED_PRIVATE_KEY_PREFIX H))), (v!"COMPRESSED_PUBLIC_KEY_LENGTH", .value (eGlobal (const_COMPRESSED_PUBLIC_KEY_LENGTH H))), (v!"UNCOMPRESSED_PUBLIC_KEY_LENGTH", .value (eGlobal (const_UNCOMPRESSED_PUBLIC_KEY_LENGTH H))), (v!"EVEN_COMPRESSED_PUBLIC_KEY_PREFIX", .value (eGlobal (const_EVEN_COMPRESSED_PUBLIC_KEY_PREFIX H))), (v!"ODD_COMPRESSED_PUBLIC_KEY_PREFIX", .value (eGlobal (const_ODD_COMPRESSED_PUBLIC_KEY_PREFIX H))), (v!"UNCOMPRESSED_PUBLIC_KEY_PREFIX", .value x20), (v!"CHECKSUM_BYTE_LENGTH", .value x21), (v!"WIF_TYPES", .value x22), (v!"PUBLIC_KEY_TYPES", .value x23), (v!"FLAGS", .value x24)] ++ (imports [v!"bip38"] (ConstWorld H) constTree).getD [], methods := (fun _ => []) 0, str := Error_str H } (fun _ => []) constTree) = some (eGlobal (const_UNCOMPRESSED_PUBLIC_KEY_PREFIX H)) := by
  by_kernel

theorem const_CHECKSUM_BYTE_LENGTH_is (H : Host) (x21 : Expr) (x22 : Expr) (x23 : Expr) (x24 : Expr) :
    valueOf v!"CHECKSUM_BYTE_LENGTH" (definitions { lib := library H, scope := [(v!"NO_EC_MULTIPLIED_PRIVATE_KEY_PREFIX", .value (eGlobal (const_NO_EC_MULTIPLIED_PRIVATE_KEY_PREFIX H))), (v!"EC_MULTIPLIED_PRIVATE_KEY_PREFIX", .value (eGlobal (const_EC_MULTIPLIED_PRIVATE_KEY_PREFIX H))), (v!"NO_EC_MULTIPLIED_WIF_FLAG", .value (eGlobal (const_NO_EC_MULTIPLIED_WIF_FLAG H))), (v!"NO_EC_MULTIPLIED_WIF_COMPRESSED_FLAG", .value (eGlobal (const_NO_EC_MULTIPLIED_WIF_COMPRESSED_FLAG H))), (v!"MAGIC_LOT_AND_SEQUENCE", .value (eGlobal (const_MAGIC_LOT_AND_SEQUENCE H))), (v!"MAGIC_NO_LOT_AND_SEQUENCE", .value (eGlobal (const_MAGIC_NO_LOT_AND_SEQUENCE H))), (v!"MAGIC_LOT_AND_SEQUENCE_UNCOMPRESSED_FLAG", .value (eGlobal (const_MAGIC_LOT_AND_SEQUENCE_UNCOMPRESSED_FLAG H))), (v!"MAGIC_LOT_AND_SEQUENCE_COMPRESSED_FLAG", .value (eGlobal (const_MAGIC_LOT_AND_SEQUENCE_COMPRESSED_FLAG H))), (v!"MAGIC_NO_LOT_AND_SEQUENCE_UNCOMPRESSED_FLAG", .value (eGlobal (const_MAGIC_NO_LOT_AND_SEQUENCE_UNCOMPRESSED_FLAG H))), (v!"MAGIC_NO_LOT_AND_SEQUENCE_COMPRESSED_FLAG", .value (eGlobal (const_MAGIC_NO_LOT_AND_SEQUENCE_COMPRESSED_FLAG H))), (v!"CONFIRMATION_CODE_PREFIX", .value (eGlobal (const_CONFIRMATION_CODE_PREFIX H))), (v!"N", .value (eGlobal (const_N H))), (v!"COORDINATE_POINT_LENGTH", .value (eGlobal (const_COORDINATE_POINT_LENGTH H))), (v!"PRIVATE_KEY_LENGTH", .value (eGlobal (const_PRIVATE_KEY_LENGTH H))), (v!"UNCOMPRESSED_PRIVATE_KEY_PREFIX", .value (eGlobal (const_UNCOMPRESSED_PRIVATE_KEY_PREFIX H))), (v!"COMPRESSED_PRIVATE_KEY_PREFIX", .value (eGlobal (const_COMPRESSED_PRIVATE_KEY_PREFIX H))), (v!"COMPRESSED_PUBLIC_KEY_LENGTH", .value (eGlobal (const_COMPRESSED_PUBLIC_KEY_LENGTH H))), (v!"UNCOMPRESSED_PUBLIC_KEY_LENGTH", .value (eGlobal (const_UNCOMPRESSED_PUBLIC_KEY_LENGTH H))), (v!"EVEN_COMPRESSED_PUBLIC_KEY_PREFIX", .value (eGlobal (const_EVEN_COMPRESSED_PUBLIC_KEY_PREFIX H))), (v!"ODD_COMPRESSED_PUBLIC_KEY_PREFIX", .value (eGlobal (const_ODD_COMPRESSED_PUBLIC_KEY_PREFIX H))), (v!"UNCOMPRESSED_PUBLIC_KEY_PREFIX", .value (eGlobal (const_UNCOMPRESSED_PUBLIC_KEY_PREFIX H))), (v!"CHECKSUM_BYTE_LENGTH", .value x21), (v!"WIF_TYPES", .value x22), (v!"PUBLIC_KEY_TYPES", .value x23), (v!"FLAGS", .value x24)] ++ (imports [v!"bip38"] (ConstWorld H) constTree).getD [], methods := (fun _ => []) 0, str := Error_str H } (fun _ => []) constTree) = some (eGlobal (const_CHECKSUM_BYTE_LENGTH H)) := by
  by_kernel

theorem const_WIF_TYPES_is (H : Host) (x22 : Expr) (x23 : Expr) (x24 : Expr) :
    valueOf v!"WIF_TYPES" (definitions { lib := library H, scope := [(v!"NO_EC_MULTIPLIED_PRIVATE_KEY_PREFIX", .value (eGlobal (const_NO_EC_MULTIPLIED_PRIVATE_KEY_PREFIX H))), (v!"EC_MULTIPLIED_PRIVATE_KEY_PREFIX", .value (eGlobal (const_EC_MULTIPLIED_PRIVATE_KEY_PREFIX H))), (v!"NO_EC_MULTIPLIED_WIF_FLAG", .value (eGlobal (const_NO_EC_MULTIPLIED_WIF_FLAG H))), (v!"NO_EC_MULTIPLIED_WIF_COMPRESSED_FLAG", .value (eGlobal (const_NO_EC_MULTIPLIED_WIF_COMPRESSED_FLAG H))), (v!"MAGIC_LOT_AND_SEQUENCE", .value (eGlobal (const_MAGIC_LOT_AND_SEQUENCE H))), (v!"MAGIC_NO_LOT_AND_SEQUENCE", .value (eGlobal (const_MAGIC_NO_LOT_AND_SEQUENCE H))), (v!"MAGIC_LOT_AND_SEQUENCE_UNCOMPRESSED_FLAG", .value (eGlobal (const_MAGIC_LOT_AND_SEQUENCE_UNCOMPRESSED_FLAG H))), (v!"MAGIC_LOT_AND_SEQUENCE_COMPRESSED_FLAG", .value (eGlobal (const_MAGIC_LOT_AND_SEQUENCE_COMPRESSED_FLAG H))), (v!"MAGIC_NO_LOT_AND_SEQUENCE_UNCOMPRESSED_FLAG", .value (eGlobal (const_MAGIC_NO_LOT_AND_SEQUENCE_UNCOMPRESSED_FLAG H))), (v!"MAGIC_NO_LOT_AND_SEQUENCE_COMPRESSED_FLAG", .value (eGlobal (const_MAGIC_NO_LOT_AND_SEQUENCE_COMPRESSED_FLAG H))), (v!"CONFIRMATION_CODE_PREFIX", .value (eGlobal (const_CONFIRMATION_CODE_PREFIX H))), (v!"N", .value (eGlobal (const_N H))), (v!"COORDINATE_POINT_LENGTH", .value (eGlobal (const_COORDINATE_POINT_LENGTH H))), (v!"PRIVATE_KEY_LENGTH", .value (eGlobal (const_PRIVATE_KEY_LENGTH H))), (v!"UNCOMPRESSED_PRIVATE_KEY_PREFIX", .value (eGlobal (const_UNCOMPRESSED_PRIVATE_KEY_PREFIX H))), (v!"COMPRESSED_PRIVATE_KEY_PREFIX", .value (eGlobal (const_COMPRESSED_PRIVATE_KEY_PREFIX H))), (v!"COMPRESSED_PUBLIC_KEY_LENGTH", .value (eGlobal (const_COMPRESSED_PUBLIC_KEY_LENGTH H))), (v!"UNCOMPRESSED_PUBLIC_KEY_LENGTH", .value (eGlobal (const_UNCOMPRESSED_PUBLIC_KEY_LENGTH H))), (v!"EVEN_COMPRESSED_PUBLIC_KEY_PREFIX", .value (eGlobal (const_EVEN_COMPRESSED_PUBLIC_KEY_PREFIX H))), (v!"ODD_COMPRESSED_PUBLIC_KEY_PREFIX", .value (eGlobal (const_ODD_COMPRESSED_PUBLIC_KEY_PREFIX H))), (v!"UNCOMPRESSED_PUBLIC_KEY_PREFIX", .value (eGlobal (const_UNCOMPRESSED_PUBLIC_KEY_PREFIX H))), (v!"CHECKSUM_BYTE_LENGTH", .value (eGlobal (const_CHECKSUM_BYTE_LENGTH H))), (v!"WIF_TYPES", .value x22), (v!"PUBLIC_KEY_TYPES", .value x23), (v!"FLAGS", .value x24)] ++ (imports [v!"bip38"] (ConstWorld H) constTree).getD [], methods := (fun _ => []) 0, str := Error_str H } (fun _ => []) constTree) = some (eGlobal (const_WIF_TYPES H)) := by
  by_kernel

theorem const_PUBLIC_KEY_TYPES_is (H : Host) (x23 : Expr) (x24 : Expr) :
    valueOf v!"PUBLIC_KEY_TYPES" (definitions { lib := library H, scope := [(v!"NO_EC_MULTIPLIED_PRIVATE_KEY_PREFIX", .value (eGlobal (const_NO_EC_MULTIPLIED_PRIVATE_KEY_PREFIX H))), (v!"EC_MULTIPLIED_PRIVATE_KEY_PREFIX", .value (eGlobal (const_EC_MULTIPLIED_PRIVATE_KEY_PREFIX H))), (v!"NO_EC_MULTIPLIED_WIF_FLAG", .value (eGlobal (const_NO_EC_MULTIPLIED_WIF_FLAG H))), (v!"NO_EC_MULTIPLIED_WIF_COMPRESSED_FLAG", .value (eGlobal (const_NO_EC_MULTIPLIED_WIF_COMPRESSED_FLAG H))), (v!"MAGIC_LOT_AND_SEQUENCE", .value (eGlobal (const_MAGIC_LOT_AND_SEQUENCE H))), (v!"MAGIC_NO_LOT_AND_SEQUENCE", .value (eGlobal (const_MAGIC_NO_LOT_AND_SEQUENCE H))), (v!"MAGIC_LOT_AND_SEQUENCE_UNCOMPRESSED_FLAG", .value (eGlobal (const_MAGIC_LOT_AND_SEQUENCE_UNCOMPRESSED_FLAG H))), (v!"MAGIC_LOT_AND_SEQUENCE_COMPRESSED_FLAG", .value (eGlobal (const_MAGIC_LOT_AND_SEQUENCE_COMPRESSED_FLAG H))), (v!"MAGIC_NO_LOT_AND_SEQUENCE_UNCOMPRESSED_FLAG", .value (eGlobal (const_MAGIC_NO_LOT_AND_SEQUENCE_UNCOMPRESSED_FLAG H))), (v!"MAGIC_NO_LOT_AND_SEQUENCE_COMPRESSED_FLAG", .value (eGlobal (const_MAGIC_NO_LOT_AND_SEQUENCE_COMPRESSED_FLAG H))), (v!"CONFIRMATION_CODE_PREFIX", .value (eGlobal (const_CONFIRMATION_CODE_PREFIX H))), (v!"N", .value (eGlobal (const_N H))), (v!"COORDINATE_POINT_LENGTH", .value (eGlobal (const_COORDINATE_POINT_LENGTH H))), (v!"PRIVATE_KEY_LENGTH", .value (eGlobal (const_PRIVATE_KEY_LENGTH H))), (v!"UNCOMPRESSED_PRIVATE_KEY_PREFIX", .value (eGlobal (const_UNCOMPRESSED_PRIVATE_KEY_PREFIX H))), (v!"COMPRESSED_PRIVATE_KEY_PREFIX", .value (eGlobal (const_COMPRESSED_PRIVATE_KEY_PREFIX H))), (v!"COMPRESSED_PUBLIC_KEY_LENGTH", .value (eGlobal (const_COMPRESSED_PUBLIC_KEY_LENGTH H))), (v!"UNCOMPRESSED_PUBLIC_KEY_LENGTH", .value (eGlobal (const_UNCOMPRESSED_PUBLIC_KEY_LENGTH H))), (v!"EVEN_COMPRESSED_PUBLIC_KEY_PREFIX", .value (eGlobal (const_EVEN_COMPRESSED_PUBLIC_KEY_PREFIX H))), (v!"ODD_COMPRESSED_PUBLIC_KEY_PREFIX", .value (eGlobal (const_ODD_COMPRESSED_PUBLIC_KEY_PREFIX H))), (v!"UNCOMPRESSED_PUBLIC_KEY_PREFIX", .value (eGlobal (const_UNCOMPRESSED_PUBLIC_KEY_PREFIX H))), (v!"CHECKSUM_BYTE_LENGTH", .value (eGlobal (const_CHECKSUM_BYTE_LENGTH H))), (v!"WIF_TYPES", .value (eGlobal (const_WIF_TYPES H))), (v!"PUBLIC_KEY_TYPES", .value x23), (v!"FLAGS", .value x24)] ++ (imports [v!"bip38"] (ConstWorld H) constTree).getD [], methods := (fun _ => []) 0, str := Error_str H } (fun _ => []) constTree) = some (eGlobal (const_PUBLIC_KEY_TYPES H)) := by
  by_kernel

theorem const_FLAGS_is (H : Host) (x24 : Expr) :
    valueOf v!"FLAGS" (definitions { lib := library H, scope := [(v!"NO_EC_MULTIPLIED_PRIVATE_KEY_PREFIX", .value (eGlobal (const_NO_EC_MULTIPLIED_PRIVATE_KEY_PREFIX H))), (v!"EC_MULTIPLIED_PRIVATE_KEY_PREFIX", .value (eGlobal (const_EC_MULTIPLIED_PRIVATE_KEY_PREFIX H))), (v!"NO_EC_MULTIPLIED_WIF_FLAG", .value (eGlobal (const_NO_EC_MULTIPLIED_WIF_FLAG H))), (v!"NO_EC_MULTIPLIED_WIF_COMPRESSED_FLAG", .value (eGlobal (const_NO_EC_MULTIPLIED_WIF_COMPRESSED_FLAG H))), (v!"MAGIC_LOT_AND_SEQUENCE", .value (eGlobal (const_MAGIC_LOT_AND_SEQUENCE H))), (v!"MAGIC_NO_LOT_AND_SEQUENCE", .value (eGlobal (const_MAGIC_NO_LOT_AND_SEQUENCE H))), (v!"MAGIC_LOT_AND_SEQUENCE_UNCOMPRESSED_FLAG", .value (eGlobal (const_MAGIC_LOT_AND_SEQUENCE_UNCOMPRESSED_FLAG H))), (v!"MAGIC_LOT_AND_SEQUENCE_COMPRESSED_FLAG", .value (eGlobal (const_MAGIC_LOT_AND_SEQUENCE_COMPRESSED_FLAG H))), (v!"MAGIC_NO_LOT_AND_SEQUENCE_UNCOMPRESSED_FLAG", .value (eGlobal (const_MAGIC_NO_LOT_AND_SEQUENCE_UNCOMPRESSED_FLAG H))), (v!"MAGIC_NO_LOT_AND_SEQUENCE_COMPRESSED_FLAG", .value (eGlobal (const_MAGIC_NO_LOT_AND_SEQUENCE_COMPRESSED_FLAG H))), (v!"CONFIRMATION_CODE_PREFIX", .value (eGlobal (const_CONFIRMATION_CODE_PREFIX H))), (v!"N", .value (eGlobal (const_N H))), (v!"COORDINATE_POINT_LENGTH", .value (eGlobal (const_COORDINATE_POINT_LENGTH H))), (v!"PRIVATE_KEY_LENGTH", .value (eGlobal (const_PRIVATE_KEY_LENGTH H))), (v!"UNCOMPRESSED_PRIVATE_KEY_PREFIX", .value (eGlobal (const_UNCOMPRESSED_PRIVATE_KEY_PREFIX H))), (v!"COMPRESSED_PRIVATE_KEY_PREFIX", .value (eGlobal (const_COMPRESSED_PRIVATE_KEY_PREFIX H))), (v!"COMPRESSED_PUBLIC_KEY_LENGTH", .value (eGlobal (const_COMPRESSED_PUBLIC_KEY_LENGTH H))), (v!"UNCOMPRESSED_PUBLIC_KEY_LENGTH", .value (eGlobal (const_UNCOMPRESSED_PUBLIC_KEY_LENGTH H))), (v!"EVEN_COMPRESSED_PUBLIC_KEY_PREFIX", .value (eGlobal (const_EVEN_COMPRESSED_PUBLIC_KEY_PREFIX H))), (v!"ODD_COMPRESSED_PUBLIC_KEY_PREFIX", .value (eGlobal (const_ODD_COMPRESSED_PUBLIC_KEY_PREFIX H))), (v!"UNCOMPRESSED_PUBLIC_KEY_PREFIX", .value (eGlobal (const_UNCOMPRESSED_PUBLIC_KEY_PREFIX H))), (v!"CHECKSUM_BYTE_LENGTH", .value (eGlobal (const_CHECKSUM_BYTE_LENGTH H))), (v!"WIF_TYPES", .value (eGlobal (const_WIF_TYPES H))), (v!"PUBLIC_KEY_TYPES", .value (eGlobal (const_PUBLIC_KEY_TYPES H))), (v!"FLAGS", .value x24)] ++ (imports [v!"bip38"] (ConstWorld H) constTree).getD [], methods := (fun _ => []) 0, str := Error_str H } (fun _ => []) constTree) = some (eGlobal (const_FLAGS H)) := by
  by_kernel

/-- The text of `bip38/const.py` defines this and nothing else. -/
theorem const_only (H : Host) {defs : Scope} (h : Defines H (Error_str H) [v!"bip38"] (ConstWorld H) (fun _ => []) ConstText defs) : defs = ConstDefs H := by
  obtain ⟨tree, ins, hp, hi, hd⟩ := h
  obtain rfl := Option.some.inj (const_parse.symm.trans hp)
  obtain rfl := Option.some.inj ((const_imports H).symm.trans hi)
  have hk0 := (const_shape ▸ shape_eq hd : _ = _)
  obtain ⟨x0, d0, rfl, hk1⟩ := key_value hk0
  obtain ⟨x1, d1, rfl, hk2⟩ := key_value hk1
  obtain ⟨x2, d2, rfl, hk3⟩ := key_value hk2
  obtain ⟨x3, d3, rfl, hk4⟩ := key_value hk3
  obtain ⟨x4, d4, rfl, hk5⟩ := key_value hk4
  obtain ⟨x5, d5, rfl, hk6⟩ := key_value hk5
  obtain ⟨x6, d6, rfl, hk7⟩ := key_value hk6
  obtain ⟨x7, d7, rfl, hk8⟩ := key_value hk7
  obtain ⟨x8, d8, rfl, hk9⟩ := key_value hk8
  obtain ⟨x9, d9, rfl, hk10⟩ := key_value hk9
  obtain ⟨x10, d10, rfl, hk11⟩ := key_value hk10
  obtain ⟨x11, d11, rfl, hk12⟩ := key_value hk11
  obtain ⟨x12, d12, rfl, hk13⟩ := key_value hk12
  obtain ⟨x13, d13, rfl, hk14⟩ := key_value hk13
  obtain ⟨x14, d14, rfl, hk15⟩ := key_value hk14
  obtain ⟨x15, d15, rfl, hk16⟩ := key_value hk15
  obtain ⟨x16, d16, rfl, hk17⟩ := key_value hk16
  obtain ⟨x17, d17, rfl, hk18⟩ := key_value hk17
  obtain ⟨x18, d18, rfl, hk19⟩ := key_value hk18
  obtain ⟨x19, d19, rfl, hk20⟩ := key_value hk19
  obtain ⟨x20, d20, rfl, hk21⟩ := key_value hk20
  obtain ⟨x21, d21, rfl, hk22⟩ := key_value hk21
  obtain ⟨x22, d22, rfl, hk23⟩ := key_value hk22
  obtain ⟨x23, d23, rfl, hk24⟩ := key_value hk23
  obtain ⟨x24, d24, rfl, hk25⟩ := key_value hk24
  obtain rfl := key_nil hk25
  obtain rfl := Option.some.inj ((const_NO_EC_MULTIPLIED_PRIVATE_KEY_PREFIX_is H x0 x1 x2 x3 x4 x5 x6 x7 x8 x9 x10 x11 x12 x13 x14 x15 x16 x17 x18 x19 x20 x21 x22 x23 x24).symm.trans (congrArg (valueOf v!"NO_EC_MULTIPLIED_PRIVATE_KEY_PREFIX") hd))
  obtain rfl := Option.some.inj ((const_EC_MULTIPLIED_PRIVATE_KEY_PREFIX_is H x1 x2 x3 x4 x5 x6 x7 x8 x9 x10 x11 x12 x13 x14 x15 x16 x17 x18 x19 x20 x21 x22 x23 x24).symm.trans (congrArg (valueOf v!"EC_MULTIPLIED_PRIVATE_KEY_PREFIX") hd))
  obtain rfl := Option.some.inj ((const_NO_EC_MULTIPLIED_WIF_FLAG_is H x2 x3 x4 x5 x6 x7 x8 x9 x10 x11 x12 x13 x14 x15 x16 x17 x18 x19 x20 x21 x22 x23 x24).symm.trans (congrArg (valueOf v!"NO_EC_MULTIPLIED_WIF_FLAG") hd))
  obtain rfl := Option.some.inj ((const_NO_EC_MULTIPLIED_WIF_COMPRESSED_FLAG_is H x3 x4 x5 x6 x7 x8 x9 x10 x11 x12 x13 x14 x15 x16 x17 x18 x19 x20 x21 x22 x23 x24).symm.trans (congrArg (valueOf v!"NO_EC_MULTIPLIED_WIF_COMPRESSED_FLAG") hd))
  obtain rfl := Option.some.inj ((const_MAGIC_LOT_AND_SEQUENCE_is H x4 x5 x6 x7 x8 x9 x10 x11 x12 x13 x14 x15 x16 x17 x18 x19 x20 x21 x22 x23 x24).symm.trans (congrArg (valueOf v!"MAGIC_LOT_AND_SEQUENCE") hd))
  obtain rfl := Option.some.inj ((const_MAGIC_NO_LOT_AND_SEQUENCE_is H x5 x6 x7 x8 x9 x10 x11 x12 x13 x14 x15 x16 x17 x18 x19 x20 x21 x22 x23 x24).symm.trans (congrArg (valueOf v!"MAGIC_NO_LOT_AND_SEQUENCE") hd))
  obtain rfl := Option.some.inj ((const_MAGIC_LOT_AND_SEQUENCE_UNCOMPRESSED_FLAG_is H x6 x7 x8 x9 x10 x11 x12 x13 x14 x15 x16 x17 x18 x19 x20 x21 x22 x23 x24).symm.trans (congrArg (valueOf v!"MAGIC_LOT_AND_SEQUENCE_UNCOMPRESSED_FLAG") hd))
  obtain rfl := Option.some.inj ((const_MAGIC_LOT_AND_SEQUENCE_COMPRESSED_FLAG_is H x7 x8 x9 x10 x11 x12 x13 x14 x15 x16 x17 x18 x19 x20 x21 x22 x23 x24).symm.trans (congrArg (valueOf v!"MAGIC_LOT_AND_SEQUENCE_COMPRESSED_FLAG") hd))
  obtain rfl := Option.some.inj ((const_MAGIC_NO_LOT_AND_SEQUENCE_UNCOMPRESSED_FLAG_is H x8 x9 x10 x11 x12 x13 x14 x15 x16 x17 x18 x19 x20 x21 x22 x23 x24).symm.trans (congrArg (valueOf v!"MAGIC_NO_LOT_AND_SEQUENCE_UNCOMPRESSED_FLAG") hd))
  obtain rfl := Option.some.inj ((const_MAGIC_NO_LOT_AND_SEQUENCE_COMPRESSED_FLAG_is H x9 x10 x11 x12 x13 x14 x15 x16 x17 x18 x19 x20 x21 x22 x23 x24).symm.trans (congrArg (valueOf v!"MAGIC_NO_LOT_AND_SEQUENCE_COMPRESSED_FLAG") hd))
  obtain rfl := Option.some.inj ((const_CONFIRMATION_CODE_PREFIX_is H x10 x11 x12 x13 x14 x15 x16 x17 x18 x19 x20 x21 x22 x23 x24).symm.trans (congrArg (valueOf v!"CONFIRMATION_CODE_PREFIX") hd))
  obtain rfl := Option.some.inj ((const_N_is H x11 x12 x13 x14 x15 x16 x17 x18 x19 x20 x21 x22 x23 x24).symm.trans (congrArg (valueOf v!"N") hd))
  obtain rfl := Option.some.inj ((const_COORDINATE_POINT_LENGTH_is H x12 x13 x14 x15 x16 x17 x18 x19 x20 x21 x22 x23 x24).symm.trans (congrArg (valueOf v!"COORDINATE_POINT_LENGTH") hd))
  obtain rfl := Option.some.inj ((const_PRIVATE_KEY_LENGTH_is H x13 x14 x15 x16 x17 x18 x19 x20 x21 x22 x23 x24).symm.trans (congrArg (valueOf v!"PRIVATE_KEY_LENGTH") hd))
  obtain rfl := Option.some.inj ((const_UNCOMPRESSED_PRIVATE_KEY_PREFIX_is H x14 x15 x16 x17 x18 x19 x20 x21 x22 x23 x24).symm.trans (congrArg (valueOf v!"UNCOMPRESSED_PRIVATE_KEY_PREFIX") hd))
  obtain rfl := Option.some.inj ((const_COMPRESSED_PRIVATE_KEY_PREFIX_is H x15 x16 x17 x18 x19 x20 x21 x22 x23 x24).symm.trans (congrArg (valueOf v!"COMPRESSED_PRIVATE_KEY_PREFIX") hd))
  obtain rfl := Option.some.inj ((const_COMPRESSED_PUBLIC_KEY_LENGTH_is H x16 x17 x18 x19 x20 x21 x22 x23 x24).symm.trans (congrArg (valueOf v!"COMPRESSED_PUBLIC_KEY_LENGTH") hd))
  obtain rfl := Option.some.inj ((const_UNCOMPRESSED_PUBLIC_KEY_LENGTH_is H x17 x18 x19 x20 x21 x22 x23 x24).symm.trans (congrArg (valueOf v!"UNCOMPRESSED_PUBLIC_KEY_LENGTH") hd))
  obtain rfl := Option.some.inj ((const_EVEN_COMPRESSED_PUBLIC_KEY_PREFIX_is H x18 x19 x20 x21 x22 x23 x24).symm.trans (congrArg (valueOf v!"EVEN_COMPRESSED_PUBLIC_KEY_PREFIX") hd))
  obtain rfl := Option.some.inj ((const_ODD_COMPRESSED_PUBLIC_KEY_PREFIX_is H x19 x20 x21 x22 x23 x24).symm.trans (congrArg (valueOf v!"ODD_COMPRESSED_PUBLIC_KEY_PREFIX") hd))
  obtain rfl := Option.some.inj ((const_UNCOMPRESSED_PUBLIC_KEY_PREFIX_is H x20 x21 x22 x23 x24).symm.trans (congrArg (valueOf v!"UNCOMPRESSED_PUBLIC_KEY_PREFIX") hd))
  obtain rfl := Option.some.inj ((const_CHECKSUM_BYTE_LENGTH_is H x21 x22 x23 x24).symm.trans (congrArg (valueOf v!"CHECKSUM_BYTE_LENGTH") hd))
  obtain rfl := Option.some.inj ((const_WIF_TYPES_is H x22 x23 x24).symm.trans (congrArg (valueOf v!"WIF_TYPES") hd))
  obtain rfl := Option.some.inj ((const_PUBLIC_KEY_TYPES_is H x23 x24).symm.trans (congrArg (valueOf v!"PUBLIC_KEY_TYPES") hd))
  obtain rfl := Option.some.inj ((const_FLAGS_is H x24).symm.trans (congrArg (valueOf v!"FLAGS") hd))
  rfl

/-! ### `bip38/utils.py` -/

theorem utils_shape : shape utilsTree = [(v!"get_bytes", .fn), (v!"bytes_reverse", .fn), (v!"bytes_to_string", .fn), (v!"bytes_to_integer", .fn), (v!"integer_to_bytes", .fn)] := by by_kernel

theorem utils_get_bytes_is (H : Host) (x0 : Fn) (x1 : Fn) (x2 : Fn) (x3 : Fn) (x4 : Fn) :
    fnOf v!"get_bytes" (definitions { lib := library H, scope := [(v!"get_bytes", .fn x0), (v!"bytes_reverse", .fn x1), (v!"bytes_to_string", .fn x2), (v!"bytes_to_integer", .fn x3), (v!"integer_to_bytes", .fn x4)] ++ (imports [v!"bip38"] (UtilsWorld H) utilsTree).getD [], methods := (fun _ => []) 0, str := Error_str H } (fun _ => []) utilsTree) = some (utils_get_bytes H) := by
  by_kernel

theorem utils_bytes_reverse_is (H : Host) (x1 : Fn) (x2 : Fn) (x3 : Fn) (x4 : Fn) :
    fnOf v!"bytes_reverse" (definitions { lib := library H, scope := [(v!"get_bytes", .fn (utils_get_bytes H)), (v!"bytes_reverse", .fn x1), (v!"bytes_to_string", .fn x2), (v!"bytes_to_integer", .fn x3), (v!"integer_to_bytes", .fn x4)] ++ (imports [v!"bip38"] (UtilsWorld H) utilsTree).getD [], methods := (fun _ => []) 0, str := Error_str H } (fun _ => []) utilsTree) = some (utils_bytes_reverse H) := by
  by_kernel

theorem utils_bytes_to_string_is (H : Host) (x2 : Fn) (x3 : Fn) (x4 : Fn) :
    fnOf v!"bytes_to_string" (definitions { lib := library H, scope := [(v!"get_bytes", .fn (utils_get_bytes H)), (v!"bytes_reverse", .fn (utils_bytes_reverse H)), (v!"bytes_to_string", .fn x2), (v!"bytes_to_integer", .fn x3), (v!"integer_to_bytes", .fn x4)] ++ (imports [v!"bip38"] (UtilsWorld H) utilsTree).getD [], methods := (fun _ => []) 0, str := Error_str H } (fun _ => []) utilsTree) = some (utils_bytes_to_string H) := by
  by_kernel

theorem utils_bytes_to_integer_is (H : Host) (x3 : Fn) (x4 : Fn) :
    fnOf v!"bytes_to_integer" (definitions { lib := library H, scope := [(v!"get_bytes", .fn (utils_get_bytes H)), (v!"bytes_reverse", .fn (utils_bytes_reverse H)), (v!"bytes_to_string", .fn (utils_bytes_to_string H)), (v!"bytes_to_integer", .fn x3), (v!"integer_to_bytes", .fn x4)] ++ (imports [v!"bip38"] (UtilsWorld H) utilsTree).getD [], methods := (fun _ => []) 0, str := Error_str H } (fun _ => []) utilsTree) = some (utils_bytes_to_integer H) := by
  by_kernel

theorem utils_integer_to_bytes_is (H : Host) (x4 : Fn) :
    fnOf v!"integer_to_bytes" (definitions { lib := library H, scope := [(v!"get_bytes", .fn (utils_get_bytes H)), (v!"bytes_reverse", .fn (utils_bytes_reverse H)), (v!"bytes_to_string", .fn (utils_bytes_to_string H)), (v!"bytes_to_integer", .fn (utils_bytes_to_integer H)), (v!"integer_to_bytes", .fn x4)] ++ (imports [v!"bip38"] (UtilsWorld H) utilsTree).getD [], methods := (fun _ => []) 0, str := Error_str H } (fun _ => []) utilsTree) = some (utils_integer_to_bytes H) := by
  by_kernel

/-- The text of `bip38/utils.py` defines this and nothing else. -/
theorem utils_only (H : Host) {defs : Scope} (h : Defines H (Error_str H) [v!"bip38"] (UtilsWorld H) (fun _ => []) UtilsText defs) : defs = UtilsDefs H := by
  obtain ⟨tree, ins, hp, hi, hd⟩ := h
  obtain rfl := Option.some.inj (utils_parse.symm.trans hp)
  obtain rfl := Option.some.inj ((utils_imports H).symm.trans hi)
  have hk0 := (utils_shape ▸ shape_eq hd : _ = _)
  obtain ⟨x0, d0, rfl, hk1⟩ := key_fn hk0
  obtain ⟨x1, d1, rfl, hk2⟩ := key_fn hk1
  obtain ⟨x2, d2, rfl, hk3⟩ := key_fn hk2
  obtain ⟨x3, d3, rfl, hk4⟩ := key_fn hk3
  obtain ⟨x4, d4, rfl, hk5⟩ := key_fn hk4
  obtain rfl := key_nil hk5
  obtain rfl := Option.some.inj ((utils_get_bytes_is H x0 x1 x2 x3 x4).symm.trans (congrArg (fnOf v!"get_bytes") hd))
  obtain rfl := Option.some.inj ((utils_bytes_reverse_is H x1 x2 x3 x4).symm.trans (congrArg (fnOf v!"bytes_reverse") hd))
  obtain rfl := Option.some.inj ((utils_bytes_to_string_is H x2 x3 x4).symm.trans (congrArg (fnOf v!"bytes_to_string") hd))
  obtain rfl := Option.some.inj ((utils_bytes_to_integer_is H x3 x4).symm.trans (congrArg (fnOf v!"bytes_to_integer") hd))
  obtain rfl := Option.some.inj ((utils_integer_to_bytes_is H x4).symm.trans (congrArg (fnOf v!"integer_to_bytes") hd))
  rfl

/-! ### `bip38/libs/ripemd160.py` -/

theorem ripemd160_shape : shape ripemd160Tree = [(v!"ML", .value), (v!"MR", .value), (v!"RL", .value), (v!"RR", .value), (v!"KL", .value), (v!"KR", .value), (v!"fi", .fn), (v!"rol", .fn), (v!"compress", .fn), (v!"ripemd160", .fn)] := by by_kernel

theorem ripemd160_ML_is (H : Host) (x0 : Expr) (x1 : Expr) (x2 : Expr) (x3 : Expr) (x4 : Expr) (x5 : Expr) (x6 : Fn) (x7 : Fn) (x8 : Fn) (x9 : Fn) :
    valueOf v!"ML" (definitions { lib := library H, scope := [(v!"ML", .value x0), (v!"MR", .value x1), (v!"RL", .value x2), (v!"RR", .value x3), (v!"KL", .value x4), (v!"KR", .value x5), (v!"fi", .fn x6), (v!"rol", .fn x7), (v!"compress", .fn x8), (v!"ripemd160", .fn x9)] ++ (imports [v!"bip38.libs", v!"bip38"] (Ripemd160World H) ripemd160Tree).getD [], methods := (fun _ => []) 0, str := Error_str H } (fun _ => []) ripemd160Tree) = some (eGlobal (ripemd160_ML H)) := by
  by_kernel

theorem ripemd160_MR_is (H : Host) (x1 : Expr) (x2 : Expr) (x3 : Expr) (x4 : Expr) (x5 : Expr) (x6 : Fn) (x7 : Fn) (x8 : Fn) (x9 : Fn) :
    valueOf v!"MR" (definitions { lib := library H, scope := [(v!"ML", .value (eGlobal (ripemd160_ML H))), (v!"MR", .value x1), (v!"RL", .value x2), (v!"RR", .value x3), (v!"KL", .value x4), (v!"KR", .value x5), (v!"fi", .fn x6), (v!"rol", .fn x7), (v!"compress", .fn x8), (v!"ripemd160", .fn x9)] ++ (imports [v!"bip38.libs", v!"bip38"] (Ripemd160World H) ripemd160Tree).getD [], methods := (fun _ => []) 0, str := Error_str H } (fun _ => []) ripemd160Tree) = some (eGlobal (ripemd160_MR H)) := by
  by_kernel

theorem ripemd160_RL_is (H : Host) (x2 : Expr) (x3 : Expr) (x4 : Expr) (x5 : Expr) (x6 : Fn) (x7 : Fn) (x8 : Fn) (x9 : Fn) :
    valueOf v!"RL" (definitions { lib := library H, scope := [(v!"ML", .value (eGlobal (ripemd160_ML H))), (v!"MR", .value (eGlobal (ripemd160_MR H))), (v!"RL", .value x2), (v!"RR", .value x3), (v!"KL", .value x4), (v!"KR", .value x5), (v!"fi", .fn x6), (v!"rol", .fn x7), (v!"compress", .fn x8), (v!"ripemd160", .fn x9)] ++ (imports [v!"bip38.libs", v!"bip38"] (Ripemd160World H) ripemd160Tree).getD [], methods := (fun _ => []) 0, str := Error_str H } (fun _ => []) ripemd160Tree) = some (eGlobal (ripemd160_RL H)) := by
  by_kernel

theorem ripemd160_RR_is (H : Host) (x3 : Expr) (x4 : Expr) (x5 : Expr) (x6 : Fn) (x7 : Fn) (x8 : Fn) (x9 : Fn) :
    valueOf v!"RR" (definitions { lib := library H, scope := [(v!"ML", .value (eGlobal (ripemd160_ML H))), (v!"MR", .value (eGlobal (ripemd160_MR H))), (v!"RL", .value (eGlobal (ripemd160_RL H))), (v!"RR", .value x3), (v!"KL", .value x4), (v!"KR", .value x5), (v!"fi", .fn x6), (v!"rol", .fn x7), (v!"compress", .fn x8), (v!"ripemd160", .fn x9)] ++ (imports [v!"bip38.libs", v!"bip38"] (Ripemd160World H) ripemd160Tree).getD [], methods := (fun _ => []) 0, str := Error_str H } (fun _ => []) ripemd160Tree) = some (eGlobal (ripemd160_RR H)) := by
  by_kernel

theorem ripemd160_KL_is (H : Host) (x4 : Expr) (x5 : Expr) (x6 : Fn) (x7 : Fn) (x8 : Fn) (x9 : Fn) :
    valueOf v!"KL" (definitions { lib := library H, scope := [(v!"ML", .value (eGlobal (ripemd160_ML H))), (v!"MR", .value (eGlobal (ripemd160_MR H))), (v!"RL", .value (eGlobal (ripemd160_RL H))), (v!"RR", .value (eGlobal (ripemd160_RR H))), (v!"KL", .value x4), (v!"KR", .value x5), (v!"fi", .fn x6), (v!"rol", .fn x7), (v!"compress", .fn x8), (v!"ripemd160", .fn x9)] ++ (imports [v!"bip38.libs", v!"bip38"] (Ripemd160World H) ripemd160Tree).getD [], methods := (fun _ => []) 0, str := Error_str H } (fun _ => []) ripemd160Tree) = some (eGlobal (ripemd160_KL H)) := by
  by_kernel

theorem ripemd160_KR_is (H : Host) (x5 : Expr) (x6 : Fn) (x7 : Fn) (x8 : Fn) (x9 : Fn) :
    valueOf v!"KR" (definitions { lib := library H, scope := [(v!"ML", .value (eGlobal (ripemd160_ML H))), (v!"MR", .value (eGlobal (ripemd160_MR H))), (v!"RL", .value (eGlobal (ripemd160_RL H))), (v!"RR", .value (eGlobal (ripemd160_RR H))), (v!"KL", .value (eGlobal (ripemd160_KL H))), (v!"KR", .value x5), (v!"fi", .fn x6), (v!"rol", .fn x7), (v!"compress", .fn x8), (v!"ripemd160", .fn x9)] ++ (imports [v!"bip38.libs", v!"bip38"] (Ripemd160World H) ripemd160Tree).getD [], methods := (fun _ => []) 0, str := Error_str H } (fun _ => []) ripemd160Tree) = some (eGlobal (ripemd160_KR H)) := by
  by_kernel

theorem ripemd160_fi_is (H : Host) (x6 : Fn) (x7 : Fn) (x8 : Fn) (x9 : Fn) :
    fnOf v!"fi" (definitions { lib := library H, scope := [(v!"ML", .value (eGlobal (ripemd160_ML H))), (v!"MR", .value (eGlobal (ripemd160_MR H))), (v!"RL", .value (eGlobal (ripemd160_RL H))), (v!"RR", .value (eGlobal (ripemd160_RR H))), (v!"KL", .value (eGlobal (ripemd160_KL H))), (v!"KR", .value (eGlobal (ripemd160_KR H))), (v!"fi", .fn x6), (v!"rol", .fn x7), (v!"compress", .fn x8), (v!"ripemd160", .fn x9)] ++ (imports [v!"bip38.libs", v!"bip38"] (Ripemd160World H) ripemd160Tree).getD [], methods := (fun _ => []) 0, str := Error_str H } (fun _ => []) ripemd160Tree) = some (ripemd160_fi H) := by
  by_kernel

theorem ripemd160_rol_is (H : Host) (x7 : Fn) (x8 : Fn) (x9 : Fn) :
    fnOf v!"rol" (definitions { lib := library H, scope := [(v!"ML", .value (eGlobal (ripemd160_ML H))), (v!"MR", .value (eGlobal (ripemd160_MR H))), (v!"RL", .value (eGlobal (ripemd160_RL H))), (v!"RR", .value (eGlobal (ripemd160_RR H))), (v!"KL", .value (eGlobal (ripemd160_KL H))), (v!"KR", .value (eGlobal (ripemd160_KR H))), (v!"fi", .fn (ripemd160_fi H)), (v!"rol", .fn x7), (v!"compress", .fn x8), (v!"ripemd160", .fn x9)] ++ (imports [v!"bip38.libs", v!"bip38"] (Ripemd160World H) ripemd160Tree).getD [], methods := (fun _ => []) 0, str := Error_str H } (fun _ => []) ripemd160Tree) = some (ripemd160_rol H) := by
  by_kernel

theorem ripemd160_compress_is (H : Host) (x8 : Fn) (x9 : Fn) :
    fnOf v!"compress" (definitions { lib := library H, scope := [(v!"ML", .value (eGlobal (ripemd160_ML H))), (v!"MR", .value (eGlobal (ripemd160_MR H))), (v!"RL", .value (eGlobal (ripemd160_RL H))), (v!"RR", .value (eGlobal (ripemd160_RR H))), (v!"KL", .value (eGlobal (ripemd160_KL H))), (v!"KR", .value (eGlobal (ripemd160_KR H))), (v!"fi", .fn (ripemd160_fi H)), (v!"rol", .fn (ripemd160_rol H)), (v!"compress", .fn x8), (v!"ripemd160", .fn x9)] ++ (imports [v!"bip38.libs", v!"bip38"] (Ripemd160World H) ripemd160Tree).getD [], methods := (fun _ => []) 0, str := Error_str H } (fun _ => []) ripemd160Tree) = some (ripemd160_compress H) := by
  by_kernel

theorem ripemd160_ripemd160_is (H : Host) (x9 : Fn) :
    fnOf v!"ripemd160" (definitions { lib := library H, scope := [(v!"ML", .value (eGlobal (ripemd160_ML H))), (v!"MR", .value (eGlobal (ripemd160_MR H))), (v!"RL", .value (eGlobal (ripemd160_RL H))), (v!"RR", .value (eGlobal (ripemd160_RR H))), (v!"KL", .value (eGlobal (ripemd160_KL H))), (v!"KR", .value (eGlobal (ripemd160_KR H))), (v!"fi", .fn (ripemd160_fi H)), (v!"rol", .fn (ripemd160_rol H)), (v!"compress", .fn (ripemd160_compress H)), (v!"ripemd160", .fn x9)] ++ (imports [v!"bip38.libs", v!"bip38"] (Ripemd160World H) ripemd160Tree).getD [], methods := (fun _ => []) 0, str := Error_str H } (fun _ => []) ripemd160Tree) = some (ripemd160_ripemd160 H) := by
  by_kernel

/-- The text of `bip38/libs/ripemd160.py` defines this and nothing else. -/
theorem ripemd160_only (H : Host) {defs : Scope} (h : Defines H (Error_str H) [v!"bip38.libs", v!"bip38"] (Ripemd160World H) (fun _ => []) Ripemd160Text defs) : defs = Ripemd160Defs H := by
  obtain ⟨tree, ins, hp, hi, hd⟩ := h
  obtain rfl := Option.some.inj (ripemd160_parse.symm.trans hp)
  obtain rfl := Option.some.inj ((ripemd160_imports H).symm.trans hi)
  have hk0 := (ripemd160_shape ▸ shape_eq hd : _ = _)
  obtain ⟨x0, d0, rfl, hk1⟩ := key_value hk0
  obtain ⟨x1, d1, rfl, hk2⟩ := key_value hk1
  obtain ⟨x2, d2, rfl, hk3⟩ := key_value hk2
  obtain ⟨x3, d3, rfl, hk4⟩ := key_value hk3
  obtain ⟨x4, d4, rfl, hk5⟩ := key_value hk4
  obtain ⟨x5, d5, rfl, hk6⟩ := key_value hk5
  obtain ⟨x6, d6, rfl, hk7⟩ := key_fn hk6
  obtain ⟨x7, d7, rfl, hk8⟩ := key_fn hk7
  obtain ⟨x8, d8, rfl, hk9⟩ := key_fn hk8
  obtain ⟨x9, d9, rfl, hk10⟩ := key_fn hk9
  obtain rfl := key_nil hk10
  obtain rfl := Option.some.inj ((ripemd160_ML_is H x0 x1 x2 x3 x4 x5 x6 x7 x8 x9).symm.trans (congrArg (valueOf v!"ML") hd))
  obtain rfl := Option.some.inj ((ripemd160_MR_is H x1 x2 x3 x4 x5 x6 x7 x8 x9).symm.trans (congrArg (valueOf v!"MR") hd))
  obtain rfl := Option.some.inj ((ripemd160_RL_is H x2 x3 x4 x5 x6 x7 x8 x9).symm.trans (congrArg (valueOf v!"RL") hd))
  obtain rfl := Option.some.inj ((ripemd160_RR_is H x3 x4 x5 x6 x7 x8 x9).symm.trans (congrArg (valueOf v!"RR") hd))
  obtain rfl := Option.some.inj ((ripemd160_KL_is H x4 x5 x6 x7 x8 x9).symm.trans (congrArg (valueOf v!"KL") hd))
  obtain rfl := Option.some.inj ((ripemd160_KR_is H x5 x6 x7 x8 x9).symm.trans (congrArg (valueOf v!"KR") hd))
  obtain rfl := Option.some.inj ((ripemd160_fi_is H x6 x7 x8 x9).symm.trans (congrArg (fnOf v!"fi") hd))
  obtain rfl := Option.some.inj ((ripemd160_rol_is H x7 x8 x9).symm.trans (congrArg (fnOf v!"rol") hd))
  obtain rfl := Option.some.inj ((ripemd160_compress_is H x8 x9).symm.trans (congrArg (fnOf v!"compress") hd))
  obtain rfl := Option.some.inj ((ripemd160_ripemd160_is H x9).symm.trans (congrArg (fnOf v!"ripemd160") hd))
  rfl

/-! ### `bip38/crypto.py` -/

theorem crypto_shape : shape cryptoTree = [(v!"ripemd160", .fn), (v!"sha256", .fn), (v!"double_sha256", .fn), (v!"get_checksum", .fn), (v!"hash160", .fn)] := by by_kernel

theorem crypto_ripemd160_is (H : Host) (x0 : Fn) (x1 : Fn) (x2 : Fn) (x3 : Fn) (x4 : Fn) :
    fnOf v!"ripemd160" (definitions { lib := library H, scope := [(v!"ripemd160", .fn x0), (v!"sha256", .fn x1), (v!"double_sha256", .fn x2), (v!"get_checksum", .fn x3), (v!"hash160", .fn x4)] ++ (imports [v!"bip38"] (CryptoWorld H) cryptoTree).getD [], methods := (fun _ => []) 0, str := Error_str H } (fun _ => []) cryptoTree) = some (crypto_ripemd160 H) := by
  by_kernel

theorem crypto_sha256_is (H : Host) (x1 : Fn) (x2 : Fn) (x3 : Fn) (x4 : Fn) :
    fnOf v!"sha256" (definitions { lib := library H, scope := [(v!"ripemd160", .fn (crypto_ripemd160 H)), (v!"sha256", .fn x1), (v!"double_sha256", .fn x2), (v!"get_checksum", .fn x3), (v!"hash160", .fn x4)] ++ (imports [v!"bip38"] (CryptoWorld H) cryptoTree).getD [], methods := (fun _ => []) 0, str := Error_str H } (fun _ => []) cryptoTree) = some (crypto_sha256 H) := by
  by_kernel

theorem crypto_double_sha256_is (H : Host) (x2 : Fn) (x3 : Fn) (x4 : Fn) :
    fnOf v!"double_sha256" (definitions { lib := library H, scope := [(v!"ripemd160", .fn (crypto_ripemd160 H)), (v!"sha256", .fn (crypto_sha256 H)), (v!"double_sha256", .fn x2), (v!"get_checksum", .fn x3), (v!"hash160", .fn x4)] ++ (imports [v!"bip38"] (CryptoWorld H) cryptoTree).getD [], methods := (fun _ => []) 0, str := Error_str H } (fun _ => []) cryptoTree) = some (crypto_double_sha256 H) := by
  by_kernel

theorem crypto_get_checksum_is (H : Host) (x3 : Fn) (x4 : Fn) :
    fnOf v!"get_checksum" (definitions { lib := library H, scope := [(v!"ripemd160", .fn (crypto_ripemd160 H)), (v!"sha256", .fn (crypto_sha256 H)), (v!"double_sha256", .fn (crypto_double_sha256 H)), (v!"get_checksum", .fn x3), (v!"hash160", .fn x4)] ++ (imports [v!"bip38"] (CryptoWorld H) cryptoTree).getD [], methods := (fun _ => []) 0, str := Error_str H } (fun _ => []) cryptoTree) = some (crypto_get_checksum H) := by
  by_kernel

theorem crypto_hash160_is (H : Host) (x4 : Fn) :
    fnOf v!"hash160" (definitions { lib := library H, scope := [(v!"ripemd160", .fn (crypto_ripemd160 H)), (v!"sha256", .fn (crypto_sha256 H)), (v!"double_sha256", .fn (crypto_double_sha256 H)), (v!"get_checksum", .fn (crypto_get_checksum H)), (v!"hash160", .fn x4)] ++ (imports [v!"bip38"] (CryptoWorld H) cryptoTree).getD [], methods := (fun _ => []) 0, str := Error_str H } (fun _ => []) cryptoTree) = some (crypto_hash160 H) := by
  by_kernel

/-- The text of `bip38/crypto.py` defines this and nothing else. -/
theorem crypto_only (H : Host) {defs : Scope} (h : Defines H (Error_str H) [v!"bip38"] (CryptoWorld H) (fun _ => []) CryptoText defs) : defs = CryptoDefs H := by
  obtain ⟨tree, ins, hp, hi, hd⟩ := h
  obtain rfl := Option.some.inj (crypto_parse.symm.trans hp)
  obtain rfl := Option.some.inj ((crypto_imports H).symm.trans hi)
  have hk0 := (crypto_shape ▸ shape_eq hd : _ = _)
  obtain ⟨x0, d0, rfl, hk1⟩ := key_fn hk0
  obtain ⟨x1, d1, rfl, hk2⟩ := key_fn hk1
  obtain ⟨x2, d2, rfl, hk3⟩ := key_fn hk2
  obtain ⟨x3, d3, rfl, hk4⟩ := key_fn hk3
  obtain ⟨x4, d4, rfl, hk5⟩ := key_fn hk4
  obtain rfl := key_nil hk5
  obtain rfl := Option.some.inj ((crypto_ripemd160_is H x0 x1 x2 x3 x4).symm.trans (congrArg (fnOf v!"ripemd160") hd))
  obtain rfl := Option.some.inj ((crypto_sha256_is H x1 x2 x3 x4).symm.trans (congrArg (fnOf v!"sha256") hd))
  obtain rfl := Option.some.inj ((crypto_double_sha256_is H x2 x3 x4).symm.trans (congrArg (fnOf v!"double_sha256") hd))
  obtain rfl := Option.some.inj ((crypto_get_checksum_is H x3 x4).symm.trans (congrArg (fnOf v!"get_checksum") hd))
  obtain rfl := Option.some.inj ((crypto_hash160_is H x4).symm.trans (congrArg (fnOf v!"hash160") hd))
  rfl

/-! ### `bip38/libs/base58.py` -/

theorem base58_shape : shape base58Tree = [(v!"__base58_alphabet", .value), (v!"string_to_int", .fn), (v!"ensure_string", .fn), (v!"encode", .fn), (v!"check_encode", .fn), (v!"decode", .fn), (v!"check_decode", .fn)] := by by_kernel

theorem base58_base58_alphabet_is (H : Host) (x0 : Expr) (x1 : Fn) (x2 : Fn) (x3 : Fn) (x4 : Fn) (x5 : Fn) (x6 : Fn) :
    valueOf v!"__base58_alphabet" (definitions { lib := library H, scope := [(v!"__base58_alphabet", .value x0), (v!"string_to_int", .fn x1), (v!"ensure_string", .fn x2), (v!"encode", .fn x3), (v!"check_encode", .fn x4), (v!"decode", .fn x5), (v!"check_decode", .fn x6)] ++ (imports [v!"bip38.libs", v!"bip38"] (Base58World H) base58Tree).getD [], methods := (fun _ => []) 0, str := Error_str H } (fun _ => []) base58Tree) = some (eGlobal (base58_base58_alphabet H)) := by
  by_kernel

theorem base58_string_to_int_is (H : Host) (x1 : Fn) (x2 : Fn) (x3 : Fn) (x4 : Fn) (x5 : Fn) (x6 : Fn) :
    fnOf v!"string_to_int" (definitions { lib := library H, scope := [(v!"__base58_alphabet", .value (eGlobal (base58_base58_alphabet H))), (v!"string_to_int", .fn x1), (v!"ensure_string", .fn x2), (v!"encode", .fn x3), (v!"check_encode", .fn x4), (v!"decode", .fn x5), (v!"check_decode", .fn x6)] ++ (imports [v!"bip38.libs", v!"bip38"] (Base58World H) base58Tree).getD [], methods := (fun _ => []) 0, str := Error_str H } (fun _ => []) base58Tree) = some (base58_string_to_int H) := by
  by_kernel

theorem base58_ensure_string_is (H : Host) (x2 : Fn) (x3 : Fn) (x4 : Fn) (x5 : Fn) (x6 : Fn) :
    fnOf v!"ensure_string" (definitions { lib := library H, scope := [(v!"__base58_alphabet", .value (eGlobal (base58_base58_alphabet H))), (v!"string_to_int", .fn (base58_string_to_int H)), (v!"ensure_string", .fn x2), (v!"encode", .fn x3), (v!"check_encode", .fn x4), (v!"decode", .fn x5), (v!"check_decode", .fn x6)] ++ (imports [v!"bip38.libs", v!"bip38"] (Base58World H) base58Tree).getD [], methods := (fun _ => []) 0, str := Error_str H } (fun _ => []) base58Tree) = some (base58_ensure_string H) := by
  by_kernel

theorem base58_encode_is (H : Host) (x3 : Fn) (x4 : Fn) (x5 : Fn) (x6 : Fn) :
    fnOf v!"encode" (definitions { lib := library H, scope := [(v!"__base58_alphabet", .value (eGlobal (base58_base58_alphabet H))), (v!"string_to_int", .fn (base58_string_to_int H)), (v!"ensure_string", .fn (base58_ensure_string H)), (v!"encode", .fn x3), (v!"check_encode", .fn x4), (v!"decode", .fn x5), (v!"check_decode", .fn x6)] ++ (imports [v!"bip38.libs", v!"bip38"] (Base58World H) base58Tree).getD [], methods := (fun _ => []) 0, str := Error_str H } (fun _ => []) base58Tree) = some (base58_encode H) := by
  by_kernel

theorem base58_check_encode_is (H : Host) (x4 : Fn) (x5 : Fn) (x6 : Fn) :
    fnOf v!"check_encode" (definitions { lib := library H, scope := [(v!"__base58_alphabet", .value (eGlobal (base58_base58_alphabet H))), (v!"string_to_int", .fn (base58_string_to_int H)), (v!"ensure_string", .fn (base58_ensure_string H)), (v!"encode", .fn (base58_encode H)), (v!"check_encode", .fn x4), (v!"decode", .fn x5), (v!"check_decode", .fn x6)] ++ (imports [v!"bip38.libs", v!"bip38"] (Base58World H) base58Tree).getD [], methods := (fun _ => []) 0, str := Error_str H } (fun _ => []) base58Tree) = some (base58_check_encode H) := by
  by_kernel

theorem base58_decode_is (H : Host) (x5 : Fn) (x6 : Fn) :
    fnOf v!"decode" (definitions { lib := library H, scope := [(v!"__base58_alphabet", .value (eGlobal (base58_base58_alphabet H))), (v!"string_to_int", .fn (base58_string_to_int H)), (v!"ensure_string", .fn (base58_ensure_string H)), (v!"encode", .fn (base58_encode H)), (v!"check_encode", .fn (base58_check_encode H)), (v!"decode", .fn x5), (v!"check_decode", .fn x6)] ++ (imports [v!"bip38.libs", v!"bip38"] (Base58World H) base58Tree).getD [], methods := (fun _ => []) 0, str := Error_str H } (fun _ => []) base58Tree) = some (base58_decode H) := by
  by_kernel

theorem base58_check_decode_is (H : Host) (x6 : Fn) :
    fnOf v!"check_decode" (definitions { lib := library H, scope := [(v!"__base58_alphabet", .value (eGlobal (base58_base58_alphabet H))), (v!"string_to_int", .fn (base58_string_to_int H)), (v!"ensure_string", .fn (base58_ensure_string H)), (v!"encode", .fn (base58_encode H)), (v!"check_encode", .fn (base58_check_encode H)), (v!"decode", .fn (base58_decode H)), (v!"check_decode", .fn x6)] ++ (imports [v!"bip38.libs", v!"bip38"] (Base58World H) base58Tree).getD [], methods := (fun _ => []) 0, str := Error_str H } (fun _ => []) base58Tree) = some (base58_check_decode H) := by
  by_kernel

/-- The text of `bip38/libs/base58.py` defines this and nothing else. -/
theorem base58_only (H : Host) {defs : Scope} (h : Defines H (Error_str H) [v!"bip38.libs", v!"bip38"] (Base58World H) (fun _ => []) Base58Text defs) : defs = Base58Defs H := by
  obtain ⟨tree, ins, hp, hi, hd⟩ := h
  obtain rfl := Option.some.inj (base58_parse.symm.trans hp)
  obtain rfl := Option.some.inj ((base58_imports H).symm.trans hi)
  have hk0 := (base58_shape ▸ shape_eq hd : _ = _)
  obtain ⟨x0, d0, rfl, hk1⟩ := key_value hk0
  obtain ⟨x1, d1, rfl, hk2⟩ := key_fn hk1
  obtain ⟨x2, d2, rfl, hk3⟩ := key_fn hk2
  obtain ⟨x3, d3, rfl, hk4⟩ := key_fn hk3
  obtain ⟨x4, d4, rfl, hk5⟩ := key_fn hk4
  obtain ⟨x5, d5, rfl, hk6⟩ := key_fn hk5
  obtain ⟨x6, d6, rfl, hk7⟩ := key_fn hk6
  obtain rfl := key_nil hk7
  obtain rfl := Option.some.inj ((base58_base58_alphabet_is H x0 x1 x2 x3 x4 x5 x6).symm.trans (congrArg (valueOf v!"__base58_alphabet") hd))
  obtain rfl := Option.some.inj ((base58_string_to_int_is H x1 x2 x3 x4 x5 x6).symm.trans (congrArg (fnOf v!"string_to_int") hd))
  obtain rfl := Option.some.inj ((base58_ensure_string_is H x2 x3 x4 x5 x6).symm.trans (congrArg (fnOf v!"ensure_string") hd))
  obtain rfl := Option.some.inj ((base58_encode_is H x3 x4 x5 x6).symm.trans (congrArg (fnOf v!"encode") hd))
  obtain rfl := Option.some.inj ((base58_check_encode_is H x4 x5 x6).symm.trans (congrArg (fnOf v!"check_encode") hd))
  obtain rfl := Option.some.inj ((base58_decode_is H x5 x6).symm.trans (congrArg (fnOf v!"decode") hd))
  obtain rfl := Option.some.inj ((base58_check_decode_is H x6).symm.trans (congrArg (fnOf v!"check_decode") hd))
  rfl

/-! ### `bip38/wif.py` -/

theorem wif_shape : shape wifTree = [(v!"encode_wif", .fn), (v!"decode_wif", .fn), (v!"private_key_to_wif", .fn), (v!"wif_to_private_key", .fn), (v!"get_wif_type", .fn), (v!"get_wif_checksum", .fn)] := by by_kernel

theorem wif_encode_wif_is (H : Host) (x0 : Fn) (x1 : Fn) (x2 : Fn) (x3 : Fn) (x4 : Fn) (x5 : Fn) :
    fnOf v!"encode_wif" (definitions { lib := library H, scope := [(v!"encode_wif", .fn x0), (v!"decode_wif", .fn x1), (v!"private_key_to_wif", .fn x2), (v!"wif_to_private_key", .fn x3), (v!"get_wif_type", .fn x4), (v!"get_wif_checksum", .fn x5)] ++ (imports [v!"bip38"] (WifWorld H) wifTree).getD [], methods := (fun _ => allMethods (PointOrder H) ++ allMethods (PublicKeyOrder H) ++ allMethods (PrivateKeyOrder H)) 0, str := Error_str H } (fun _ => allMethods (PointOrder H) ++ allMethods (PublicKeyOrder H) ++ allMethods (PrivateKeyOrder H)) wifTree) = some (wif_encode_wif H) := by
  by_kernel

theorem wif_decode_wif_is (H : Host) (x1 : Fn) (x2 : Fn) (x3 : Fn) (x4 : Fn) (x5 : Fn) :
    fnOf v!"decode_wif" (definitions { lib := library H, scope := [(v!"encode_wif", .fn (wif_encode_wif H)), (v!"decode_wif", .fn x1), (v!"private_key_to_wif", .fn x2), (v!"wif_to_private_key", .fn x3), (v!"get_wif_type", .fn x4), (v!"get_wif_checksum", .fn x5)] ++ (imports [v!"bip38"] (WifWorld H) wifTree).getD [], methods := (fun _ => allMethods (PointOrder H) ++ allMethods (PublicKeyOrder H) ++ allMethods (PrivateKeyOrder H)) 0, str := Error_str H } (fun _ => allMethods (PointOrder H) ++ allMethods (PublicKeyOrder H) ++ allMethods (PrivateKeyOrder H)) wifTree) = some (wif_decode_wif H) := by
  by_kernel

theorem wif_private_key_to_wif_is (H : Host) (x2 : Fn) (x3 : Fn) (x4 : Fn) (x5 : Fn) :
    fnOf v!"private_key_to_wif" (definitions { lib := library H, scope := [(v!"encode_wif", .fn (wif_encode_wif H)), (v!"decode_wif", .fn (wif_decode_wif H)), (v!"private_key_to_wif", .fn x2), (v!"wif_to_private_key", .fn x3), (v!"get_wif_type", .fn x4), (v!"get_wif_checksum", .fn x5)] ++ (imports [v!"bip38"] (WifWorld H) wifTree).getD [], methods := (fun _ => allMethods (PointOrder H) ++ allMethods (PublicKeyOrder H) ++ allMethods (PrivateKeyOrder H)) 0, str := Error_str H } (fun _ => allMethods (PointOrder H) ++ allMethods (PublicKeyOrder H) ++ allMethods (PrivateKeyOrder H)) wifTree) = some (wif_private_key_to_wif H) := by
  by_kernel

theorem wif_wif_to_private_key_is (H : Host) (x3 : Fn) (x4 : Fn) (x5 : Fn) :
    fnOf v!"wif_to_private_key" (definitions { lib := library H, scope := [(v!"encode_wif", .fn (wif_encode_wif H)), (v!"decode_wif", .fn (wif_decode_wif H)), (v!"private_key_to_wif", .fn (wif_private_key_to_wif H)), (v!"wif_to_private_key", .fn x3), (v!"get_wif_type", .fn x4), (v!"get_wif_checksum", .fn x5)] ++ (imports [v!"bip38"] (WifWorld H) wifTree).getD [], methods := (fun _ => allMethods (PointOrder H) ++ allMethods (PublicKeyOrder H) ++ allMethods (PrivateKeyOrder H)) 0, str := Error_str H } (fun _ => allMethods (PointOrder H) ++ allMethods (PublicKeyOrder H) ++ allMethods (PrivateKeyOrder H)) wifTree) = some (wif_wif_to_private_key H) := by
  by_kernel

theorem wif_get_wif_type_is (H : Host) (x4 : Fn) (x5 : Fn) :
    fnOf v!"get_wif_type" (definitions { lib := library H, scope := [(v!"encode_wif", .fn (wif_encode_wif H)), (v!"decode_wif", .fn (wif_decode_wif H)), (v!"private_key_to_wif", .fn (wif_private_key_to_wif H)), (v!"wif_to_private_key", .fn (wif_wif_to_private_key H)), (v!"get_wif_type", .fn x4), (v!"get_wif_checksum", .fn x5)] ++ (imports [v!"bip38"] (WifWorld H) wifTree).getD [], methods := (fun _ => allMethods (PointOrder H) ++ allMethods (PublicKeyOrder H) ++ allMethods (PrivateKeyOrder H)) 0, str := Error_str H } (fun _ => allMethods (PointOrder H) ++ allMethods (PublicKeyOrder H) ++ allMethods (PrivateKeyOrder H)) wifTree) = some (wif_get_wif_type H) := by
  by_kernel

theorem wif_get_wif_checksum_is (H : Host) (x5 : Fn) :
    fnOf v!"get_wif_checksum" (definitions { lib := library H, scope := [(v!"encode_wif", .fn (wif_encode_wif H)), (v!"decode_wif", .fn (wif_decode_wif H)), (v!"private_key_to_wif", .fn (wif_private_key_to_wif H)), (v!"wif_to_private_key", .fn (wif_wif_to_private_key H)), (v!"get_wif_type", .fn (wif_get_wif_type H)), (v!"get_wif_checksum", .fn x5)] ++ (imports [v!"bip38"] (WifWorld H) wifTree).getD [], methods := (fun _ => allMethods (PointOrder H) ++ allMethods (PublicKeyOrder H) ++ allMethods (PrivateKeyOrder H)) 0, str := Error_str H } (fun _ => allMethods (PointOrder H) ++ allMethods (PublicKeyOrder H) ++ allMethods (PrivateKeyOrder H)) wifTree) = some (wif_get_wif_checksum H) := by
  by_kernel

/-- The text of `bip38/wif.py` defines this and nothing else. -/
theorem wif_only (H : Host) {defs : Scope} (h : Defines H (Error_str H) [v!"bip38"] (WifWorld H) (fun _ => allMethods (PointOrder H) ++ allMethods (PublicKeyOrder H) ++ allMethods (PrivateKeyOrder H)) WifText defs) : defs = WifDefs H := by
  obtain ⟨tree, ins, hp, hi, hd⟩ := h
  obtain rfl := Option.some.inj (wif_parse.symm.trans hp)
  obtain rfl := Option.some.inj ((wif_imports H).symm.trans hi)
  have hk0 := (wif_shape ▸ shape_eq hd : _ = _)
  obtain ⟨x0, d0, rfl, hk1⟩ := key_fn hk0
  obtain ⟨x1, d1, rfl, hk2⟩ := key_fn hk1
  obtain ⟨x2, d2, rfl, hk3⟩ := key_fn hk2
  obtain ⟨x3, d3, rfl, hk4⟩ := key_fn hk3
  obtain ⟨x4, d4, rfl, hk5⟩ := key_fn hk4
  obtain ⟨x5, d5, rfl, hk6⟩ := key_fn hk5
  obtain rfl := key_nil hk6
  obtain rfl := Option.some.inj ((wif_encode_wif_is H x0 x1 x2 x3 x4 x5).symm.trans (congrArg (fnOf v!"encode_wif") hd))
  obtain rfl := Option.some.inj ((wif_decode_wif_is H x1 x2 x3 x4 x5).symm.trans (congrArg (fnOf v!"decode_wif") hd))
  obtain rfl := Option.some.inj ((wif_private_key_to_wif_is H x2 x3 x4 x5).symm.trans (congrArg (fnOf v!"private_key_to_wif") hd))
  obtain rfl := Option.some.inj ((wif_wif_to_private_key_is H x3 x4 x5).symm.trans (congrArg (fnOf v!"wif_to_private_key") hd))
  obtain rfl := Option.some.inj ((wif_get_wif_type_is H x4 x5).symm.trans (congrArg (fnOf v!"get_wif_type") hd))
  obtain rfl := Option.some.inj ((wif_get_wif_checksum_is H x5).symm.trans (congrArg (fnOf v!"get_wif_checksum") hd))
  rfl

/-! ### `bip38/secp256k1/point.py` -/

theorem point_shape : shape pointTree = [(v!"Point", .cls (some .Point) [(v!"__init__", .ctor), (v!"from_bytes", .fn), (v!"from_coordinates", .fn), (v!"underlying_object", .method), (v!"x", .method), (v!"y", .method), (v!"raw", .method), (v!"raw_encoded", .method), (v!"raw_decoded", .method), (v!"__add__", .method), (v!"__radd__", .method), (v!"__mul__", .method), (v!"__rmul__", .method)])] := by by_kernel

theorem point_init_is (H : Host) (x0 : Fn) (x1 : Fn) (x2 : Fn) (x3 : Fn) (x4 : Fn) (x5 : Fn) (x6 : Fn) (x7 : Fn) (x8 : Fn) (x9 : Fn) (x10 : Fn) (x11 : Fn) (x12 : Fn) :
    memOf v!"Point" v!"__init__" (definitions { lib := library H, scope := [(v!"Point", .cls (some .Point) [(v!"__init__", .ctor x0), (v!"from_bytes", .fn x1), (v!"from_coordinates", .fn x2), (v!"underlying_object", .method x3), (v!"x", .method x4), (v!"y", .method x5), (v!"raw", .method x6), (v!"raw_encoded", .method x7), (v!"raw_decoded", .method x8), (v!"__add__", .method x9), (v!"__radd__", .method x10), (v!"__mul__", .method x11), (v!"__rmul__", .method x12)])] ++ (imports [v!"bip38.secp256k1", v!"bip38"] (PointWorld H) pointTree).getD [], methods := (fun n => methodsBefore n (PointOrder H)) 0, str := Error_str H } (fun n => methodsBefore n (PointOrder H)) pointTree) = some (.ctor (Point_init H)) := by
  by_kernel

theorem point_from_coordinates_is (H : Host) (x1 : Fn) (x2 : Fn) (x3 : Fn) (x4 : Fn) (x5 : Fn) (x6 : Fn) (x7 : Fn) (x8 : Fn) (x9 : Fn) (x10 : Fn) (x11 : Fn) (x12 : Fn) :
    memOf v!"Point" v!"from_coordinates" (definitions { lib := library H, scope := [(v!"Point", .cls (some .Point) [(v!"__init__", .ctor (Point_init H)), (v!"from_bytes", .fn x1), (v!"from_coordinates", .fn x2), (v!"underlying_object", .method x3), (v!"x", .method x4), (v!"y", .method x5), (v!"raw", .method x6), (v!"raw_encoded", .method x7), (v!"raw_decoded", .method x8), (v!"__add__", .method x9), (v!"__radd__", .method x10), (v!"__mul__", .method x11), (v!"__rmul__", .method x12)])] ++ (imports [v!"bip38.secp256k1", v!"bip38"] (PointWorld H) pointTree).getD [], methods := (fun n => methodsBefore n (PointOrder H)) 0, str := Error_str H } (fun n => methodsBefore n (PointOrder H)) pointTree) = some (.fn (Point_from_coordinates H)) := by
  by_kernel

theorem point_from_bytes_is (H : Host) (x1 : Fn) (x3 : Fn) (x4 : Fn) (x5 : Fn) (x6 : Fn) (x7 : Fn) (x8 : Fn) (x9 : Fn) (x10 : Fn) (x11 : Fn) (x12 : Fn) :
    memOf v!"Point" v!"from_bytes" (definitions { lib := library H, scope := [(v!"Point", .cls (some .Point) [(v!"__init__", .ctor (Point_init H)), (v!"from_bytes", .fn x1), (v!"from_coordinates", .fn (Point_from_coordinates H)), (v!"underlying_object", .method x3), (v!"x", .method x4), (v!"y", .method x5), (v!"raw", .method x6), (v!"raw_encoded", .method x7), (v!"raw_decoded", .method x8), (v!"__add__", .method x9), (v!"__radd__", .method x10), (v!"__mul__", .method x11), (v!"__rmul__", .method x12)])] ++ (imports [v!"bip38.secp256k1", v!"bip38"] (PointWorld H) pointTree).getD [], methods := (fun n => methodsBefore n (PointOrder H)) 0, str := Error_str H } (fun n => methodsBefore n (PointOrder H)) pointTree) = some (.fn (Point_from_bytes H)) := by
  by_kernel

theorem point_underlying_object_is (H : Host) (x3 : Fn) (x4 : Fn) (x5 : Fn) (x6 : Fn) (x7 : Fn) (x8 : Fn) (x9 : Fn) (x10 : Fn) (x11 : Fn) (x12 : Fn) :
    memOf v!"Point" v!"underlying_object" (definitions { lib := library H, scope := [(v!"Point", .cls (some .Point) [(v!"__init__", .ctor (Point_init H)), (v!"from_bytes", .fn (Point_from_bytes H)), (v!"from_coordinates", .fn (Point_from_coordinates H)), (v!"underlying_object", .method x3), (v!"x", .method x4), (v!"y", .method x5), (v!"raw", .method x6), (v!"raw_encoded", .method x7), (v!"raw_decoded", .method x8), (v!"__add__", .method x9), (v!"__radd__", .method x10), (v!"__mul__", .method x11), (v!"__rmul__", .method x12)])] ++ (imports [v!"bip38.secp256k1", v!"bip38"] (PointWorld H) pointTree).getD [], methods := (fun n => methodsBefore n (PointOrder H)) 0, str := Error_str H } (fun n => methodsBefore n (PointOrder H)) pointTree) = some (.method (Point_underlying_object H)) := by
  by_kernel

theorem point_x_is (H : Host) (x4 : Fn) (x5 : Fn) (x6 : Fn) (x7 : Fn) (x8 : Fn) (x9 : Fn) (x10 : Fn) (x11 : Fn) (x12 : Fn) :
    memOf v!"Point" v!"x" (definitions { lib := library H, scope := [(v!"Point", .cls (some .Point) [(v!"__init__", .ctor (Point_init H)), (v!"from_bytes", .fn (Point_from_bytes H)), (v!"from_coordinates", .fn (Point_from_coordinates H)), (v!"underlying_object", .method (Point_underlying_object H)), (v!"x", .method x4), (v!"y", .method x5), (v!"raw", .method x6), (v!"raw_encoded", .method x7), (v!"raw_decoded", .method x8), (v!"__add__", .method x9), (v!"__radd__", .method x10), (v!"__mul__", .method x11), (v!"__rmul__", .method x12)])] ++ (imports [v!"bip38.secp256k1", v!"bip38"] (PointWorld H) pointTree).getD [], methods := (fun n => methodsBefore n (PointOrder H)) 0, str := Error_str H } (fun n => methodsBefore n (PointOrder H)) pointTree) = some (.method (Point_x H)) := by
  by_kernel

theorem point_y_is (H : Host) (x5 : Fn) (x6 : Fn) (x7 : Fn) (x8 : Fn) (x9 : Fn) (x10 : Fn) (x11 : Fn) (x12 : Fn) :
    memOf v!"Point" v!"y" (definitions { lib := library H, scope := [(v!"Point", .cls (some .Point) [(v!"__init__", .ctor (Point_init H)), (v!"from_bytes", .fn (Point_from_bytes H)), (v!"from_coordinates", .fn (Point_from_coordinates H)), (v!"underlying_object", .method (Point_underlying_object H)), (v!"x", .method (Point_x H)), (v!"y", .method x5), (v!"raw", .method x6), (v!"raw_encoded", .method x7), (v!"raw_decoded", .method x8), (v!"__add__", .method x9), (v!"__radd__", .method x10), (v!"__mul__", .method x11), (v!"__rmul__", .method x12)])] ++ (imports [v!"bip38.secp256k1", v!"bip38"] (PointWorld H) pointTree).getD [], methods := (fun n => methodsBefore n (PointOrder H)) 0, str := Error_str H } (fun n => methodsBefore n (PointOrder H)) pointTree) = some (.method (Point_y H)) := by
  by_kernel

theorem point_raw_encoded_is (H : Host) (x6 : Fn) (x7 : Fn) (x8 : Fn) (x9 : Fn) (x10 : Fn) (x11 : Fn) (x12 : Fn) :
    memOf v!"Point" v!"raw_encoded" (definitions { lib := library H, scope := [(v!"Point", .cls (some .Point) [(v!"__init__", .ctor (Point_init H)), (v!"from_bytes", .fn (Point_from_bytes H)), (v!"from_coordinates", .fn (Point_from_coordinates H)), (v!"underlying_object", .method (Point_underlying_object H)), (v!"x", .method (Point_x H)), (v!"y", .method (Point_y H)), (v!"raw", .method x6), (v!"raw_encoded", .method x7), (v!"raw_decoded", .method x8), (v!"__add__", .method x9), (v!"__radd__", .method x10), (v!"__mul__", .method x11), (v!"__rmul__", .method x12)])] ++ (imports [v!"bip38.secp256k1", v!"bip38"] (PointWorld H) pointTree).getD [], methods := (fun n => methodsBefore n (PointOrder H)) 0, str := Error_str H } (fun n => methodsBefore n (PointOrder H)) pointTree) = some (.method (Point_raw_encoded H)) := by
  by_kernel

theorem point_raw_decoded_is (H : Host) (x6 : Fn) (x8 : Fn) (x9 : Fn) (x10 : Fn) (x11 : Fn) (x12 : Fn) :
    memOf v!"Point" v!"raw_decoded" (definitions { lib := library H, scope := [(v!"Point", .cls (some .Point) [(v!"__init__", .ctor (Point_init H)), (v!"from_bytes", .fn (Point_from_bytes H)), (v!"from_coordinates", .fn (Point_from_coordinates H)), (v!"underlying_object", .method (Point_underlying_object H)), (v!"x", .method (Point_x H)), (v!"y", .method (Point_y H)), (v!"raw", .method x6), (v!"raw_encoded", .method (Point_raw_encoded H)), (v!"raw_decoded", .method x8), (v!"__add__", .method x9), (v!"__radd__", .method x10), (v!"__mul__", .method x11), (v!"__rmul__", .method x12)])] ++ (imports [v!"bip38.secp256k1", v!"bip38"] (PointWorld H) pointTree).getD [], methods := (fun n => methodsBefore n (PointOrder H)) 0, str := Error_str H } (fun n => methodsBefore n (PointOrder H)) pointTree) = some (.method (Point_raw_decoded H)) := by
  by_kernel

theorem point_raw_is (H : Host) (x6 : Fn) (x9 : Fn) (x10 : Fn) (x11 : Fn) (x12 : Fn) :
    memOf v!"Point" v!"raw" (definitions { lib := library H, scope := [(v!"Point", .cls (some .Point) [(v!"__init__", .ctor (Point_init H)), (v!"from_bytes", .fn (Point_from_bytes H)), (v!"from_coordinates", .fn (Point_from_coordinates H)), (v!"underlying_object", .method (Point_underlying_object H)), (v!"x", .method (Point_x H)), (v!"y", .method (Point_y H)), (v!"raw", .method x6), (v!"raw_encoded", .method (Point_raw_encoded H)), (v!"raw_decoded", .method (Point_raw_decoded H)), (v!"__add__", .method x9), (v!"__radd__", .method x10), (v!"__mul__", .method x11), (v!"__rmul__", .method x12)])] ++ (imports [v!"bip38.secp256k1", v!"bip38"] (PointWorld H) pointTree).getD [], methods := (fun n => methodsBefore n (PointOrder H)) 0, str := Error_str H } (fun n => methodsBefore n (PointOrder H)) pointTree) = some (.method (Point_raw H)) := by
  by_kernel

theorem point_add_is (H : Host) (x9 : Fn) (x10 : Fn) (x11 : Fn) (x12 : Fn) :
    memOf v!"Point" v!"__add__" (definitions { lib := library H, scope := [(v!"Point", .cls (some .Point) [(v!"__init__", .ctor (Point_init H)), (v!"from_bytes", .fn (Point_from_bytes H)), (v!"from_coordinates", .fn (Point_from_coordinates H)), (v!"underlying_object", .method (Point_underlying_object H)), (v!"x", .method (Point_x H)), (v!"y", .method (Point_y H)), (v!"raw", .method (Point_raw H)), (v!"raw_encoded", .method (Point_raw_encoded H)), (v!"raw_decoded", .method (Point_raw_decoded H)), (v!"__add__", .method x9), (v!"__radd__", .method x10), (v!"__mul__", .method x11), (v!"__rmul__", .method x12)])] ++ (imports [v!"bip38.secp256k1", v!"bip38"] (PointWorld H) pointTree).getD [], methods := (fun n => methodsBefore n (PointOrder H)) 0, str := Error_str H } (fun n => methodsBefore n (PointOrder H)) pointTree) = some (.method (Point_add H)) := by
  by_kernel

theorem point_radd_is (H : Host) (x10 : Fn) (x11 : Fn) (x12 : Fn) :
    memOf v!"Point" v!"__radd__" (definitions { lib := library H, scope := [(v!"Point", .cls (some .Point) [(v!"__init__", .ctor (Point_init H)), (v!"from_bytes", .fn (Point_from_bytes H)), (v!"from_coordinates", .fn (Point_from_coordinates H)), (v!"underlying_object", .method (Point_underlying_object H)), (v!"x", .method (Point_x H)), (v!"y", .method (Point_y H)), (v!"raw", .method (Point_raw H)), (v!"raw_encoded", .method (Point_raw_encoded H)), (v!"raw_decoded", .method (Point_raw_decoded H)), (v!"__add__", .method (Point_add H)), (v!"__radd__", .method x10), (v!"__mul__", .method x11), (v!"__rmul__", .method x12)])] ++ (imports [v!"bip38.secp256k1", v!"bip38"] (PointWorld H) pointTree).getD [], methods := (fun n => methodsBefore n (PointOrder H)) 0, str := Error_str H } (fun n => methodsBefore n (PointOrder H)) pointTree) = some (.method (Point_radd H)) := by
  by_kernel

theorem point_mul_is (H : Host) (x11 : Fn) (x12 : Fn) :
    memOf v!"Point" v!"__mul__" (definitions { lib := library H, scope := [(v!"Point", .cls (some .Point) [(v!"__init__", .ctor (Point_init H)), (v!"from_bytes", .fn (Point_from_bytes H)), (v!"from_coordinates", .fn (Point_from_coordinates H)), (v!"underlying_object", .method (Point_underlying_object H)), (v!"x", .method (Point_x H)), (v!"y", .method (Point_y H)), (v!"raw", .method (Point_raw H)), (v!"raw_encoded", .method (Point_raw_encoded H)), (v!"raw_decoded", .method (Point_raw_decoded H)), (v!"__add__", .method (Point_add H)), (v!"__radd__", .method (Point_radd H)), (v!"__mul__", .method x11), (v!"__rmul__", .method x12)])] ++ (imports [v!"bip38.secp256k1", v!"bip38"] (PointWorld H) pointTree).getD [], methods := (fun n => methodsBefore n (PointOrder H)) 0, str := Error_str H } (fun n => methodsBefore n (PointOrder H)) pointTree) = some (.method (Point_mul H)) := by
  by_kernel

theorem point_rmul_is (H : Host) (x12 : Fn) :
    memOf v!"Point" v!"__rmul__" (definitions { lib := library H, scope := [(v!"Point", .cls (some .Point) [(v!"__init__", .ctor (Point_init H)), (v!"from_bytes", .fn (Point_from_bytes H)), (v!"from_coordinates", .fn (Point_from_coordinates H)), (v!"underlying_object", .method (Point_underlying_object H)), (v!"x", .method (Point_x H)), (v!"y", .method (Point_y H)), (v!"raw", .method (Point_raw H)), (v!"raw_encoded", .method (Point_raw_encoded H)), (v!"raw_decoded", .method (Point_raw_decoded H)), (v!"__add__", .method (Point_add H)), (v!"__radd__", .method (Point_radd H)), (v!"__mul__", .method (Point_mul H)), (v!"__rmul__", .method x12)])] ++ (imports [v!"bip38.secp256k1", v!"bip38"] (PointWorld H) pointTree).getD [], methods := (fun n => methodsBefore n (PointOrder H)) 0, str := Error_str H } (fun n => methodsBefore n (PointOrder H)) pointTree) = some (.method (Point_rmul H)) := by
  by_kernel

/-- The text of `bip38/secp256k1/point.py` defines this and nothing else. -/
theorem point_only (H : Host) {defs : Scope} (h : Defines H (Error_str H) [v!"bip38.secp256k1", v!"bip38"] (PointWorld H) (fun n => methodsBefore n (PointOrder H)) PointText defs) : defs = PointDefs H := by
  obtain ⟨tree, ins, hp, hi, hd⟩ := h
  obtain rfl := Option.some.inj (point_parse.symm.trans hp)
  obtain rfl := Option.some.inj ((point_imports H).symm.trans hi)
  have hk0 := (point_shape ▸ shape_eq hd : _ = _)
  obtain ⟨ms, d, rfl, hm0, hk1⟩ := key_cls hk0
  obtain rfl := key_nil hk1
  obtain ⟨x0, d0, rfl, hm1⟩ := mem_ctor hm0
  obtain ⟨x1, d1, rfl, hm2⟩ := mem_fn hm1
  obtain ⟨x2, d2, rfl, hm3⟩ := mem_fn hm2
  obtain ⟨x3, d3, rfl, hm4⟩ := mem_method hm3
  obtain ⟨x4, d4, rfl, hm5⟩ := mem_method hm4
  obtain ⟨x5, d5, rfl, hm6⟩ := mem_method hm5
  obtain ⟨x6, d6, rfl, hm7⟩ := mem_method hm6
  obtain ⟨x7, d7, rfl, hm8⟩ := mem_method hm7
  obtain ⟨x8, d8, rfl, hm9⟩ := mem_method hm8
  obtain ⟨x9, d9, rfl, hm10⟩ := mem_method hm9
  obtain ⟨x10, d10, rfl, hm11⟩ := mem_method hm10
  obtain ⟨x11, d11, rfl, hm12⟩ := mem_method hm11
  obtain ⟨x12, d12, rfl, hm13⟩ := mem_method hm12
  obtain rfl := mem_nil hm13
  obtain rfl := Mem.ctor.inj (Option.some.inj ((point_init_is H x0 x1 x2 x3 x4 x5 x6 x7 x8 x9 x10 x11 x12).symm.trans (congrArg (memOf v!"Point" v!"__init__") hd)))
  obtain rfl := Mem.fn.inj (Option.some.inj ((point_from_coordinates_is H x1 x2 x3 x4 x5 x6 x7 x8 x9 x10 x11 x12).symm.trans (congrArg (memOf v!"Point" v!"from_coordinates") hd)))
  obtain rfl := Mem.fn.inj (Option.some.inj ((point_from_bytes_is H x1 x3 x4 x5 x6 x7 x8 x9 x10 x11 x12).symm.trans (congrArg (memOf v!"Point" v!"from_bytes") hd)))
  obtain rfl := Mem.method.inj (Option.some.inj ((point_underlying_object_is H x3 x4 x5 x6 x7 x8 x9 x10 x11 x12).symm.trans (congrArg (memOf v!"Point" v!"underlying_object") hd)))
  obtain rfl := Mem.method.inj (Option.some.inj ((point_x_is H x4 x5 x6 x7 x8 x9 x10 x11 x12).symm.trans (congrArg (memOf v!"Point" v!"x") hd)))
  obtain rfl := Mem.method.inj (Option.some.inj ((point_y_is H x5 x6 x7 x8 x9 x10 x11 x12).symm.trans (congrArg (memOf v!"Point" v!"y") hd)))
  obtain rfl := Mem.method.inj (Option.some.inj ((point_raw_encoded_is H x6 x7 x8 x9 x10 x11 x12).symm.trans (congrArg (memOf v!"Point" v!"raw_encoded") hd)))
  obtain rfl := Mem.method.inj (Option.some.inj ((point_raw_decoded_is H x6 x8 x9 x10 x11 x12).symm.trans (congrArg (memOf v!"Point" v!"raw_decoded") hd)))
  obtain rfl := Mem.method.inj (Option.some.inj ((point_raw_is H x6 x9 x10 x11 x12).symm.trans (congrArg (memOf v!"Point" v!"raw") hd)))
  obtain rfl := Mem.method.inj (Option.some.inj ((point_add_is H x9 x10 x11 x12).symm.trans (congrArg (memOf v!"Point" v!"__add__") hd)))
  obtain rfl := Mem.method.inj (Option.some.inj ((point_radd_is H x10 x11 x12).symm.trans (congrArg (memOf v!"Point" v!"__radd__") hd)))
  obtain rfl := Mem.method.inj (Option.some.inj ((point_mul_is H x11 x12).symm.trans (congrArg (memOf v!"Point" v!"__mul__") hd)))
  obtain rfl := Mem.method.inj (Option.some.inj ((point_rmul_is H x12).symm.trans (congrArg (memOf v!"Point" v!"__rmul__") hd)))
  rfl

/-! ### `bip38/secp256k1/public_key.py` -/

theorem publicKey_shape : shape publicKeyTree = [(v!"PublicKey", .cls (some .PublicKey) [(v!"__init__", .ctor), (v!"from_bytes", .fn), (v!"from_point", .fn), (v!"compressed_length", .fn), (v!"uncompressed_length", .fn), (v!"underlying_object", .method), (v!"raw", .method), (v!"raw_compressed", .method), (v!"raw_uncompressed", .method), (v!"point", .method)])] := by by_kernel

theorem publicKey_init_is (H : Host) (x0 : Fn) (x1 : Fn) (x2 : Fn) (x3 : Fn) (x4 : Fn) (x5 : Fn) (x6 : Fn) (x7 : Fn) (x8 : Fn) (x9 : Fn) :
    memOf v!"PublicKey" v!"__init__" (definitions { lib := library H, scope := [(v!"PublicKey", .cls (some .PublicKey) [(v!"__init__", .ctor x0), (v!"from_bytes", .fn x1), (v!"from_point", .fn x2), (v!"compressed_length", .fn x3), (v!"uncompressed_length", .fn x4), (v!"underlying_object", .method x5), (v!"raw", .method x6), (v!"raw_compressed", .method x7), (v!"raw_uncompressed", .method x8), (v!"point", .method x9)])] ++ (imports [v!"bip38.secp256k1", v!"bip38"] (PublicKeyWorld H) publicKeyTree).getD [], methods := (fun n => allMethods (PointOrder H) ++ methodsBefore n (PublicKeyOrder H)) 0, str := Error_str H } (fun n => allMethods (PointOrder H) ++ methodsBefore n (PublicKeyOrder H)) publicKeyTree) = some (.ctor (PublicKey_init H)) := by
  by_kernel

theorem publicKey_from_bytes_is (H : Host) (x1 : Fn) (x2 : Fn) (x3 : Fn) (x4 : Fn) (x5 : Fn) (x6 : Fn) (x7 : Fn) (x8 : Fn) (x9 : Fn) :
    memOf v!"PublicKey" v!"from_bytes" (definitions { lib := library H, scope := [(v!"PublicKey", .cls (some .PublicKey) [(v!"__init__", .ctor (PublicKey_init H)), (v!"from_bytes", .fn x1), (v!"from_point", .fn x2), (v!"compressed_length", .fn x3), (v!"uncompressed_length", .fn x4), (v!"underlying_object", .method x5), (v!"raw", .method x6), (v!"raw_compressed", .method x7), (v!"raw_uncompressed", .method x8), (v!"point", .method x9)])] ++ (imports [v!"bip38.secp256k1", v!"bip38"] (PublicKeyWorld H) publicKeyTree).getD [], methods := (fun n => allMethods (PointOrder H) ++ methodsBefore n (PublicKeyOrder H)) 0, str := Error_str H } (fun n => allMethods (PointOrder H) ++ methodsBefore n (PublicKeyOrder H)) publicKeyTree) = some (.fn (PublicKey_from_bytes H)) := by
  by_kernel

theorem publicKey_from_point_is (H : Host) (x2 : Fn) (x3 : Fn) (x4 : Fn) (x5 : Fn) (x6 : Fn) (x7 : Fn) (x8 : Fn) (x9 : Fn) :
    memOf v!"PublicKey" v!"from_point" (definitions { lib := library H, scope := [(v!"PublicKey", .cls (some .PublicKey) [(v!"__init__", .ctor (PublicKey_init H)), (v!"from_bytes", .fn (PublicKey_from_bytes H)), (v!"from_point", .fn x2), (v!"compressed_length", .fn x3), (v!"uncompressed_length", .fn x4), (v!"underlying_object", .method x5), (v!"raw", .method x6), (v!"raw_compressed", .method x7), (v!"raw_uncompressed", .method x8), (v!"point", .method x9)])] ++ (imports [v!"bip38.secp256k1", v!"bip38"] (PublicKeyWorld H) publicKeyTree).getD [], methods := (fun n => allMethods (PointOrder H) ++ methodsBefore n (PublicKeyOrder H)) 0, str := Error_str H } (fun n => allMethods (PointOrder H) ++ methodsBefore n (PublicKeyOrder H)) publicKeyTree) = some (.fn (PublicKey_from_point H)) := by
  by_kernel

theorem publicKey_compressed_length_is (H : Host) (x3 : Fn) (x4 : Fn) (x5 : Fn) (x6 : Fn) (x7 : Fn) (x8 : Fn) (x9 : Fn) :
    memOf v!"PublicKey" v!"compressed_length" (definitions { lib := library H, scope := [(v!"PublicKey", .cls (some .PublicKey) [(v!"__init__", .ctor (PublicKey_init H)), (v!"from_bytes", .fn (PublicKey_from_bytes H)), (v!"from_point", .fn (PublicKey_from_point H)), (v!"compressed_length", .fn x3), (v!"uncompressed_length", .fn x4), (v!"underlying_object", .method x5), (v!"raw", .method x6), (v!"raw_compressed", .method x7), (v!"raw_uncompressed", .method x8), (v!"point", .method x9)])] ++ (imports [v!"bip38.secp256k1", v!"bip38"] (PublicKeyWorld H) publicKeyTree).getD [], methods := (fun n => allMethods (PointOrder H) ++ methodsBefore n (PublicKeyOrder H)) 0, str := Error_str H } (fun n => allMethods (PointOrder H) ++ methodsBefore n (PublicKeyOrder H)) publicKeyTree) = some (.fn (PublicKey_compressed_length H)) := by
  by_kernel

theorem publicKey_uncompressed_length_is (H : Host) (x4 : Fn) (x5 : Fn) (x6 : Fn) (x7 : Fn) (x8 : Fn) (x9 : Fn) :
    memOf v!"PublicKey" v!"uncompressed_length" (definitions { lib := library H, scope := [(v!"PublicKey", .cls (some .PublicKey) [(v!"__init__", .ctor (PublicKey_init H)), (v!"from_bytes", .fn (PublicKey_from_bytes H)), (v!"from_point", .fn (PublicKey_from_point H)), (v!"compressed_length", .fn (PublicKey_compressed_length H)), (v!"uncompressed_length", .fn x4), (v!"underlying_object", .method x5), (v!"raw", .method x6), (v!"raw_compressed", .method x7), (v!"raw_uncompressed", .method x8), (v!"point", .method x9)])] ++ (imports [v!"bip38.secp256k1", v!"bip38"] (PublicKeyWorld H) publicKeyTree).getD [], methods := (fun n => allMethods (PointOrder H) ++ methodsBefore n (PublicKeyOrder H)) 0, str := Error_str H } (fun n => allMethods (PointOrder H) ++ methodsBefore n (PublicKeyOrder H)) publicKeyTree) = some (.fn (PublicKey_uncompressed_length H)) := by
  by_kernel

theorem publicKey_underlying_object_is (H : Host) (x5 : Fn) (x6 : Fn) (x7 : Fn) (x8 : Fn) (x9 : Fn) :
    memOf v!"PublicKey" v!"underlying_object" (definitions { lib := library H, scope := [(v!"PublicKey", .cls (some .PublicKey) [(v!"__init__", .ctor (PublicKey_init H)), (v!"from_bytes", .fn (PublicKey_from_bytes H)), (v!"from_point", .fn (PublicKey_from_point H)), (v!"compressed_length", .fn (PublicKey_compressed_length H)), (v!"uncompressed_length", .fn (PublicKey_uncompressed_length H)), (v!"underlying_object", .method x5), (v!"raw", .method x6), (v!"raw_compressed", .method x7), (v!"raw_uncompressed", .method x8), (v!"point", .method x9)])] ++ (imports [v!"bip38.secp256k1", v!"bip38"] (PublicKeyWorld H) publicKeyTree).getD [], methods := (fun n => allMethods (PointOrder H) ++ methodsBefore n (PublicKeyOrder H)) 0, str := Error_str H } (fun n => allMethods (PointOrder H) ++ methodsBefore n (PublicKeyOrder H)) publicKeyTree) = some (.method (PublicKey_underlying_object H)) := by
  by_kernel

theorem publicKey_raw_compressed_is (H : Host) (x6 : Fn) (x7 : Fn) (x8 : Fn) (x9 : Fn) :
    memOf v!"PublicKey" v!"raw_compressed" (definitions { lib := library H, scope := [(v!"PublicKey", .cls (some .PublicKey) [(v!"__init__", .ctor (PublicKey_init H)), (v!"from_bytes", .fn (PublicKey_from_bytes H)), (v!"from_point", .fn (PublicKey_from_point H)), (v!"compressed_length", .fn (PublicKey_compressed_length H)), (v!"uncompressed_length", .fn (PublicKey_uncompressed_length H)), (v!"underlying_object", .method (PublicKey_underlying_object H)), (v!"raw", .method x6), (v!"raw_compressed", .method x7), (v!"raw_uncompressed", .method x8), (v!"point", .method x9)])] ++ (imports [v!"bip38.secp256k1", v!"bip38"] (PublicKeyWorld H) publicKeyTree).getD [], methods := (fun n => allMethods (PointOrder H) ++ methodsBefore n (PublicKeyOrder H)) 0, str := Error_str H } (fun n => allMethods (PointOrder H) ++ methodsBefore n (PublicKeyOrder H)) publicKeyTree) = some (.method (PublicKey_raw_compressed H)) := by
  by_kernel

theorem publicKey_raw_uncompressed_is (H : Host) (x6 : Fn) (x8 : Fn) (x9 : Fn) :
    memOf v!"PublicKey" v!"raw_uncompressed" (definitions { lib := library H, scope := [(v!"PublicKey", .cls (some .PublicKey) [(v!"__init__", .ctor (PublicKey_init H)), (v!"from_bytes", .fn (PublicKey_from_bytes H)), (v!"from_point", .fn (PublicKey_from_point H)), (v!"compressed_length", .fn (PublicKey_compressed_length H)), (v!"uncompressed_length", .fn (PublicKey_uncompressed_length H)), (v!"underlying_object", .method (PublicKey_underlying_object H)), (v!"raw", .method x6), (v!"raw_compressed", .method (PublicKey_raw_compressed H)), (v!"raw_uncompressed", .method x8), (v!"point", .method x9)])] ++ (imports [v!"bip38.secp256k1", v!"bip38"] (PublicKeyWorld H) publicKeyTree).getD [], methods := (fun n => allMethods (PointOrder H) ++ methodsBefore n (PublicKeyOrder H)) 0, str := Error_str H } (fun n => allMethods (PointOrder H) ++ methodsBefore n (PublicKeyOrder H)) publicKeyTree) = some (.method (PublicKey_raw_uncompressed H)) := by
  by_kernel

theorem publicKey_raw_is (H : Host) (x6 : Fn) (x9 : Fn) :
    memOf v!"PublicKey" v!"raw" (definitions { lib := library H, scope := [(v!"PublicKey", .cls (some .PublicKey) [(v!"__init__", .ctor (PublicKey_init H)), (v!"from_bytes", .fn (PublicKey_from_bytes H)), (v!"from_point", .fn (PublicKey_from_point H)), (v!"compressed_length", .fn (PublicKey_compressed_length H)), (v!"uncompressed_length", .fn (PublicKey_uncompressed_length H)), (v!"underlying_object", .method (PublicKey_underlying_object H)), (v!"raw", .method x6), (v!"raw_compressed", .method (PublicKey_raw_compressed H)), (v!"raw_uncompressed", .method (PublicKey_raw_uncompressed H)), (v!"point", .method x9)])] ++ (imports [v!"bip38.secp256k1", v!"bip38"] (PublicKeyWorld H) publicKeyTree).getD [], methods := (fun n => allMethods (PointOrder H) ++ methodsBefore n (PublicKeyOrder H)) 0, str := Error_str H } (fun n => allMethods (PointOrder H) ++ methodsBefore n (PublicKeyOrder H)) publicKeyTree) = some (.method (PublicKey_raw H)) := by
  by_kernel

theorem publicKey_point_is (H : Host) (x9 : Fn) :
    memOf v!"PublicKey" v!"point" (definitions { lib := library H, scope := [(v!"PublicKey", .cls (some .PublicKey) [(v!"__init__", .ctor (PublicKey_init H)), (v!"from_bytes", .fn (PublicKey_from_bytes H)), (v!"from_point", .fn (PublicKey_from_point H)), (v!"compressed_length", .fn (PublicKey_compressed_length H)), (v!"uncompressed_length", .fn (PublicKey_uncompressed_length H)), (v!"underlying_object", .method (PublicKey_underlying_object H)), (v!"raw", .method (PublicKey_raw H)), (v!"raw_compressed", .method (PublicKey_raw_compressed H)), (v!"raw_uncompressed", .method (PublicKey_raw_uncompressed H)), (v!"point", .method x9)])] ++ (imports [v!"bip38.secp256k1", v!"bip38"] (PublicKeyWorld H) publicKeyTree).getD [], methods := (fun n => allMethods (PointOrder H) ++ methodsBefore n (PublicKeyOrder H)) 0, str := Error_str H } (fun n => allMethods (PointOrder H) ++ methodsBefore n (PublicKeyOrder H)) publicKeyTree) = some (.method (PublicKey_point H)) := by
  by_kernel

/-- The text of `bip38/secp256k1/public_key.py` defines this and nothing else. -/
theorem publicKey_only (H : Host) {defs : Scope} (h : Defines H (Error_str H) [v!"bip38.secp256k1", v!"bip38"] (PublicKeyWorld H) (fun n => allMethods (PointOrder H) ++ methodsBefore n (PublicKeyOrder H)) PublicKeyText defs) : defs = PublicKeyDefs H := by
  obtain ⟨tree, ins, hp, hi, hd⟩ := h
  obtain rfl := Option.some.inj (publicKey_parse.symm.trans hp)
  obtain rfl := Option.some.inj ((publicKey_imports H).symm.trans hi)
  have hk0 := (publicKey_shape ▸ shape_eq hd : _ = _)
  obtain ⟨ms, d, rfl, hm0, hk1⟩ := key_cls hk0
  obtain rfl := key_nil hk1
  obtain ⟨x0, d0, rfl, hm1⟩ := mem_ctor hm0
  obtain ⟨x1, d1, rfl, hm2⟩ := mem_fn hm1
  obtain ⟨x2, d2, rfl, hm3⟩ := mem_fn hm2
  obtain ⟨x3, d3, rfl, hm4⟩ := mem_fn hm3
  obtain ⟨x4, d4, rfl, hm5⟩ := mem_fn hm4
  obtain ⟨x5, d5, rfl, hm6⟩ := mem_method hm5
  obtain ⟨x6, d6, rfl, hm7⟩ := mem_method hm6
  obtain ⟨x7, d7, rfl, hm8⟩ := mem_method hm7
  obtain ⟨x8, d8, rfl, hm9⟩ := mem_method hm8
  obtain ⟨x9, d9, rfl, hm10⟩ := mem_method hm9
  obtain rfl := mem_nil hm10
  obtain rfl := Mem.ctor.inj (Option.some.inj ((publicKey_init_is H x0 x1 x2 x3 x4 x5 x6 x7 x8 x9).symm.trans (congrArg (memOf v!"PublicKey" v!"__init__") hd)))
  obtain rfl := Mem.fn.inj (Option.some.inj ((publicKey_from_bytes_is H x1 x2 x3 x4 x5 x6 x7 x8 x9).symm.trans (congrArg (memOf v!"PublicKey" v!"from_bytes") hd)))
  obtain rfl := Mem.fn.inj (Option.some.inj ((publicKey_from_point_is H x2 x3 x4 x5 x6 x7 x8 x9).symm.trans (congrArg (memOf v!"PublicKey" v!"from_point") hd)))
  obtain rfl := Mem.fn.inj (Option.some.inj ((publicKey_compressed_length_is H x3 x4 x5 x6 x7 x8 x9).symm.trans (congrArg (memOf v!"PublicKey" v!"compressed_length") hd)))
  obtain rfl := Mem.fn.inj (Option.some.inj ((publicKey_uncompressed_length_is H x4 x5 x6 x7 x8 x9).symm.trans (congrArg (memOf v!"PublicKey" v!"uncompressed_length") hd)))
  obtain rfl := Mem.method.inj (Option.some.inj ((publicKey_underlying_object_is H x5 x6 x7 x8 x9).symm.trans (congrArg (memOf v!"PublicKey" v!"underlying_object") hd)))
  obtain rfl := Mem.method.inj (Option.some.inj ((publicKey_raw_compressed_is H x6 x7 x8 x9).symm.trans (congrArg (memOf v!"PublicKey" v!"raw_compressed") hd)))
  obtain rfl := Mem.method.inj (Option.some.inj ((publicKey_raw_uncompressed_is H x6 x8 x9).symm.trans (congrArg (memOf v!"PublicKey" v!"raw_uncompressed") hd)))
  obtain rfl := Mem.method.inj (Option.some.inj ((publicKey_raw_is H x6 x9).symm.trans (congrArg (memOf v!"PublicKey" v!"raw") hd)))
  obtain rfl := Mem.method.inj (Option.some.inj ((publicKey_point_is H x9).symm.trans (congrArg (memOf v!"PublicKey" v!"point") hd)))
  rfl

/-! ### `bip38/secp256k1/private_key.py` -/

theorem privateKey_shape : shape privateKeyTree = [(v!"PrivateKey", .cls (some .PrivateKey) [(v!"__init__", .ctor), (v!"from_bytes", .fn), (v!"length", .fn), (v!"underlying_object", .method), (v!"raw", .method), (v!"public_key", .method)])] := by by_kernel

theorem privateKey_init_is (H : Host) (x0 : Fn) (x1 : Fn) (x2 : Fn) (x3 : Fn) (x4 : Fn) (x5 : Fn) :
    memOf v!"PrivateKey" v!"__init__" (definitions { lib := library H, scope := [(v!"PrivateKey", .cls (some .PrivateKey) [(v!"__init__", .ctor x0), (v!"from_bytes", .fn x1), (v!"length", .fn x2), (v!"underlying_object", .method x3), (v!"raw", .method x4), (v!"public_key", .method x5)])] ++ (imports [v!"bip38.secp256k1", v!"bip38"] (PrivateKeyWorld H) privateKeyTree).getD [], methods := (fun n => allMethods (PointOrder H) ++ allMethods (PublicKeyOrder H) ++ methodsBefore n (PrivateKeyOrder H)) 0, str := Error_str H } (fun n => allMethods (PointOrder H) ++ allMethods (PublicKeyOrder H) ++ methodsBefore n (PrivateKeyOrder H)) privateKeyTree) = some (.ctor (PrivateKey_init H)) := by
  by_kernel

theorem privateKey_from_bytes_is (H : Host) (x1 : Fn) (x2 : Fn) (x3 : Fn) (x4 : Fn) (x5 : Fn) :
    memOf v!"PrivateKey" v!"from_bytes" (definitions { lib := library H, scope := [(v!"PrivateKey", .cls (some .PrivateKey) [(v!"__init__", .ctor (PrivateKey_init H)), (v!"from_bytes", .fn x1), (v!"length", .fn x2), (v!"underlying_object", .method x3), (v!"raw", .method x4), (v!"public_key", .method x5)])] ++ (imports [v!"bip38.secp256k1", v!"bip38"] (PrivateKeyWorld H) privateKeyTree).getD [], methods := (fun n => allMethods (PointOrder H) ++ allMethods (PublicKeyOrder H) ++ methodsBefore n (PrivateKeyOrder H)) 0, str := Error_str H } (fun n => allMethods (PointOrder H) ++ allMethods (PublicKeyOrder H) ++ methodsBefore n (PrivateKeyOrder H)) privateKeyTree) = some (.fn (PrivateKey_from_bytes H)) := by
  by_kernel

theorem privateKey_length_is (H : Host) (x2 : Fn) (x3 : Fn) (x4 : Fn) (x5 : Fn) :
    memOf v!"PrivateKey" v!"length" (definitions { lib := library H, scope := [(v!"PrivateKey", .cls (some .PrivateKey) [(v!"__init__", .ctor (PrivateKey_init H)), (v!"from_bytes", .fn (PrivateKey_from_bytes H)), (v!"length", .fn x2), (v!"underlying_object", .method x3), (v!"raw", .method x4), (v!"public_key", .method x5)])] ++ (imports [v!"bip38.secp256k1", v!"bip38"] (PrivateKeyWorld H) privateKeyTree).getD [], methods := (fun n => allMethods (PointOrder H) ++ allMethods (PublicKeyOrder H) ++ methodsBefore n (PrivateKeyOrder H)) 0, str := Error_str H } (fun n => allMethods (PointOrder H) ++ allMethods (PublicKeyOrder H) ++ methodsBefore n (PrivateKeyOrder H)) privateKeyTree) = some (.fn (PrivateKey_length H)) := by
  by_kernel

theorem privateKey_underlying_object_is (H : Host) (x3 : Fn) (x4 : Fn) (x5 : Fn) :
    memOf v!"PrivateKey" v!"underlying_object" (definitions { lib := library H, scope := [(v!"PrivateKey", .cls (some .PrivateKey) [(v!"__init__", .ctor (PrivateKey_init H)), (v!"from_bytes", .fn (PrivateKey_from_bytes H)), (v!"length", .fn (PrivateKey_length H)), (v!"underlying_object", .method x3), (v!"raw", .method x4), (v!"public_key", .method x5)])] ++ (imports [v!"bip38.secp256k1", v!"bip38"] (PrivateKeyWorld H) privateKeyTree).getD [], methods := (fun n => allMethods (PointOrder H) ++ allMethods (PublicKeyOrder H) ++ methodsBefore n (PrivateKeyOrder H)) 0, str := Error_str H } (fun n => allMethods (PointOrder H) ++ allMethods (PublicKeyOrder H) ++ methodsBefore n (PrivateKeyOrder H)) privateKeyTree) = some (.method (PrivateKey_underlying_object H)) := by
  by_kernel

theorem privateKey_raw_is (H : Host) (x4 : Fn) (x5 : Fn) :
    memOf v!"PrivateKey" v!"raw" (definitions { lib := library H, scope := [(v!"PrivateKey", .cls (some .PrivateKey) [(v!"__init__", .ctor (PrivateKey_init H)), (v!"from_bytes", .fn (PrivateKey_from_bytes H)), (v!"length", .fn (PrivateKey_length H)), (v!"underlying_object", .method (PrivateKey_underlying_object H)), (v!"raw", .method x4), (v!"public_key", .method x5)])] ++ (imports [v!"bip38.secp256k1", v!"bip38"] (PrivateKeyWorld H) privateKeyTree).getD [], methods := (fun n => allMethods (PointOrder H) ++ allMethods (PublicKeyOrder H) ++ methodsBefore n (PrivateKeyOrder H)) 0, str := Error_str H } (fun n => allMethods (PointOrder H) ++ allMethods (PublicKeyOrder H) ++ methodsBefore n (PrivateKeyOrder H)) privateKeyTree) = some (.method (PrivateKey_raw H)) := by
  by_kernel

theorem privateKey_public_key_is (H : Host) (x5 : Fn) :
    memOf v!"PrivateKey" v!"public_key" (definitions { lib := library H, scope := [(v!"PrivateKey", .cls (some .PrivateKey) [(v!"__init__", .ctor (PrivateKey_init H)), (v!"from_bytes", .fn (PrivateKey_from_bytes H)), (v!"length", .fn (PrivateKey_length H)), (v!"underlying_object", .method (PrivateKey_underlying_object H)), (v!"raw", .method (PrivateKey_raw H)), (v!"public_key", .method x5)])] ++ (imports [v!"bip38.secp256k1", v!"bip38"] (PrivateKeyWorld H) privateKeyTree).getD [], methods := (fun n => allMethods (PointOrder H) ++ allMethods (PublicKeyOrder H) ++ methodsBefore n (PrivateKeyOrder H)) 0, str := Error_str H } (fun n => allMethods (PointOrder H) ++ allMethods (PublicKeyOrder H) ++ methodsBefore n (PrivateKeyOrder H)) privateKeyTree) = some (.method (PrivateKey_public_key H)) := by
  by_kernel

/-- The text of `bip38/secp256k1/private_key.py` defines this and nothing else. -/
theorem privateKey_only (H : Host) {defs : Scope} (h : Defines H (Error_str H) [v!"bip38.secp256k1", v!"bip38"] (PrivateKeyWorld H) (fun n => allMethods (PointOrder H) ++ allMethods (PublicKeyOrder H) ++ methodsBefore n (PrivateKeyOrder H)) PrivateKeyText defs) : defs = PrivateKeyDefs H := by
  obtain ⟨tree, ins, hp, hi, hd⟩ := h
  obtain rfl := Option.some.inj (privateKey_parse.symm.trans hp)
  obtain rfl := Option.some.inj ((privateKey_imports H).symm.trans hi)
  have hk0 := (privateKey_shape ▸ shape_eq hd : _ = _)
  obtain ⟨ms, d, rfl, hm0, hk1⟩ := key_cls hk0
  obtain rfl := key_nil hk1
  obtain ⟨x0, d0, rfl, hm1⟩ := mem_ctor hm0
  obtain ⟨x1, d1, rfl, hm2⟩ := mem_fn hm1
  obtain ⟨x2, d2, rfl, hm3⟩ := mem_fn hm2
  obtain ⟨x3, d3, rfl, hm4⟩ := mem_method hm3
  obtain ⟨x4, d4, rfl, hm5⟩ := mem_method hm4
  obtain ⟨x5, d5, rfl, hm6⟩ := mem_method hm5
  obtain rfl := mem_nil hm6
  obtain rfl := Mem.ctor.inj (Option.some.inj ((privateKey_init_is H x0 x1 x2 x3 x4 x5).symm.trans (congrArg (memOf v!"PrivateKey" v!"__init__") hd)))
  obtain rfl := Mem.fn.inj (Option.some.inj ((privateKey_from_bytes_is H x1 x2 x3 x4 x5).symm.trans (congrArg (memOf v!"PrivateKey" v!"from_bytes") hd)))
  obtain rfl := Mem.fn.inj (Option.some.inj ((privateKey_length_is H x2 x3 x4 x5).symm.trans (congrArg (memOf v!"PrivateKey" v!"length") hd)))
  obtain rfl := Mem.method.inj (Option.some.inj ((privateKey_underlying_object_is H x3 x4 x5).symm.trans (congrArg (memOf v!"PrivateKey" v!"underlying_object") hd)))
  obtain rfl := Mem.method.inj (Option.some.inj ((privateKey_raw_is H x4 x5).symm.trans (congrArg (memOf v!"PrivateKey" v!"raw") hd)))
  obtain rfl := Mem.method.inj (Option.some.inj ((privateKey_public_key_is H x5).symm.trans (congrArg (memOf v!"PrivateKey" v!"public_key") hd)))
  rfl

/-! ### `bip38/p2pkh_address.py` -/

theorem p2pkhAddress_shape : shape p2pkhAddressTree = [(v!"P2PKHAddress", .cls none [(v!"address_prefix", .attr), (v!"alphabet", .attr), (v!"encode", .fn), (v!"decode", .fn)])] := by by_kernel

theorem p2pkhAddress_address_prefix_is (H : Host) (x0 : Run Val) (x1 : Run Val) (x2 : Fn) (x3 : Fn) :
    memOf v!"P2PKHAddress" v!"address_prefix" (definitions { lib := library H, scope := [(v!"P2PKHAddress", .cls none [(v!"address_prefix", .attr x0), (v!"alphabet", .attr x1), (v!"encode", .fn x2), (v!"decode", .fn x3)])] ++ (imports [v!"bip38"] (P2pkhAddressWorld H) p2pkhAddressTree).getD [], methods := (fun n => allMethods (PointOrder H) ++ allMethods (PublicKeyOrder H) ++ allMethods (PrivateKeyOrder H) ++ methodsBefore n (P2pkhAddressOrder H)) 0, str := Error_str H } (fun n => allMethods (PointOrder H) ++ allMethods (PublicKeyOrder H) ++ allMethods (PrivateKeyOrder H) ++ methodsBefore n (P2pkhAddressOrder H)) p2pkhAddressTree) = some (.attr (P2PKHAddress_address_prefix H)) := by
  by_kernel

theorem p2pkhAddress_alphabet_is (H : Host) (x1 : Run Val) (x2 : Fn) (x3 : Fn) :
    memOf v!"P2PKHAddress" v!"alphabet" (definitions { lib := library H, scope := [(v!"P2PKHAddress", .cls none [(v!"address_prefix", .attr (P2PKHAddress_address_prefix H)), (v!"alphabet", .attr x1), (v!"encode", .fn x2), (v!"decode", .fn x3)])] ++ (imports [v!"bip38"] (P2pkhAddressWorld H) p2pkhAddressTree).getD [], methods := (fun n => allMethods (PointOrder H) ++ allMethods (PublicKeyOrder H) ++ allMethods (PrivateKeyOrder H) ++ methodsBefore n (P2pkhAddressOrder H)) 0, str := Error_str H } (fun n => allMethods (PointOrder H) ++ allMethods (PublicKeyOrder H) ++ allMethods (PrivateKeyOrder H) ++ methodsBefore n (P2pkhAddressOrder H)) p2pkhAddressTree) = some (.attr (P2PKHAddress_alphabet H)) := by
  by_kernel

theorem p2pkhAddress_encode_is (H : Host) (x2 : Fn) (x3 : Fn) :
    memOf v!"P2PKHAddress" v!"encode" (definitions { lib := library H, scope := [(v!"P2PKHAddress", .cls none [(v!"address_prefix", .attr (P2PKHAddress_address_prefix H)), (v!"alphabet", .attr (P2PKHAddress_alphabet H)), (v!"encode", .fn x2), (v!"decode", .fn x3)])] ++ (imports [v!"bip38"] (P2pkhAddressWorld H) p2pkhAddressTree).getD [], methods := (fun n => allMethods (PointOrder H) ++ allMethods (PublicKeyOrder H) ++ allMethods (PrivateKeyOrder H) ++ methodsBefore n (P2pkhAddressOrder H)) 0, str := Error_str H } (fun n => allMethods (PointOrder H) ++ allMethods (PublicKeyOrder H) ++ allMethods (PrivateKeyOrder H) ++ methodsBefore n (P2pkhAddressOrder H)) p2pkhAddressTree) = some (.fn (P2PKHAddress_encode H)) := by
  by_kernel

theorem p2pkhAddress_decode_is (H : Host) (x3 : Fn) :
    memOf v!"P2PKHAddress" v!"decode" (definitions { lib := library H, scope := [(v!"P2PKHAddress", .cls none [(v!"address_prefix", .attr (P2PKHAddress_address_prefix H)), (v!"alphabet", .attr (P2PKHAddress_alphabet H)), (v!"encode", .fn (P2PKHAddress_encode H)), (v!"decode", .fn x3)])] ++ (imports [v!"bip38"] (P2pkhAddressWorld H) p2pkhAddressTree).getD [], methods := (fun n => allMethods (PointOrder H) ++ allMethods (PublicKeyOrder H) ++ allMethods (PrivateKeyOrder H) ++ methodsBefore n (P2pkhAddressOrder H)) 0, str := Error_str H } (fun n => allMethods (PointOrder H) ++ allMethods (PublicKeyOrder H) ++ allMethods (PrivateKeyOrder H) ++ methodsBefore n (P2pkhAddressOrder H)) p2pkhAddressTree) = some (.fn (P2PKHAddress_decode H)) := by
  by_kernel

/-- The text of `bip38/p2pkh_address.py` defines this and nothing else. -/
theorem p2pkhAddress_only (H : Host) {defs : Scope} (h : Defines H (Error_str H) [v!"bip38"] (P2pkhAddressWorld H) (fun n => allMethods (PointOrder H) ++ allMethods (PublicKeyOrder H) ++ allMethods (PrivateKeyOrder H) ++ methodsBefore n (P2pkhAddressOrder H)) P2pkhAddressText defs) : defs = P2pkhAddressDefs H := by
  obtain ⟨tree, ins, hp, hi, hd⟩ := h
  obtain rfl := Option.some.inj (p2pkhAddress_parse.symm.trans hp)
  obtain rfl := Option.some.inj ((p2pkhAddress_imports H).symm.trans hi)
  have hk0 := (p2pkhAddress_shape ▸ shape_eq hd : _ = _)
  obtain ⟨ms, d, rfl, hm0, hk1⟩ := key_cls hk0
  obtain rfl := key_nil hk1
  obtain ⟨x0, d0, rfl, hm1⟩ := mem_attr hm0
  obtain ⟨x1, d1, rfl, hm2⟩ := mem_attr hm1
  obtain ⟨x2, d2, rfl, hm3⟩ := mem_fn hm2
  obtain ⟨x3, d3, rfl, hm4⟩ := mem_fn hm3
  obtain rfl := mem_nil hm4
  obtain rfl := Mem.attr.inj (Option.some.inj ((p2pkhAddress_address_prefix_is H x0 x1 x2 x3).symm.trans (congrArg (memOf v!"P2PKHAddress" v!"address_prefix") hd)))
  obtain rfl := Mem.attr.inj (Option.some.inj ((p2pkhAddress_alphabet_is H x1 x2 x3).symm.trans (congrArg (memOf v!"P2PKHAddress" v!"alphabet") hd)))
  obtain rfl := Mem.fn.inj (Option.some.inj ((p2pkhAddress_encode_is H x2 x3).symm.trans (congrArg (memOf v!"P2PKHAddress" v!"encode") hd)))
  obtain rfl := Mem.fn.inj (Option.some.inj ((p2pkhAddress_decode_is H x3).symm.trans (congrArg (memOf v!"P2PKHAddress" v!"decode") hd)))
  rfl

/-! ### `bip38/bip38.py` -/

theorem bip38_shape : shape bip38Tree = [(v!"BIP38", .cls (some .BIP38) [(v!"__init__", .ctor), (v!"intermediate_code", .fn), (v!"encrypt", .method), (v!"create_new_encrypted_wif", .method), (v!"confirm_code", .method), (v!"decrypt", .method)])] := by by_kernel

theorem bip38_init_is (H : Host) (x0 : Fn) (x1 : Fn) (x2 : Fn) (x3 : Fn) (x4 : Fn) (x5 : Fn) :
    memOf v!"BIP38" v!"__init__" (definitions { lib := library H, scope := [(v!"BIP38", .cls (some .BIP38) [(v!"__init__", .ctor x0), (v!"intermediate_code", .fn x1), (v!"encrypt", .method x2), (v!"create_new_encrypted_wif", .method x3), (v!"confirm_code", .method x4), (v!"decrypt", .method x5)])] ++ (imports [v!"bip38"] (Bip38World H) bip38Tree).getD [], methods := (fun n => allMethods (PointOrder H) ++ allMethods (PublicKeyOrder H) ++ allMethods (PrivateKeyOrder H) ++ allMethods (P2pkhAddressOrder H) ++ methodsBefore n (Bip38Order H)) 0, str := Error_str H } (fun n => allMethods (PointOrder H) ++ allMethods (PublicKeyOrder H) ++ allMethods (PrivateKeyOrder H) ++ allMethods (P2pkhAddressOrder H) ++ methodsBefore n (Bip38Order H)) bip38Tree) = some (.ctor (BIP38_init H)) := by
  by_kernel

theorem bip38_intermediate_code_is (H : Host) (x1 : Fn) (x2 : Fn) (x3 : Fn) (x4 : Fn) (x5 : Fn) :
    memOf v!"BIP38" v!"intermediate_code" (definitions { lib := library H, scope := [(v!"BIP38", .cls (some .BIP38) [(v!"__init__", .ctor (BIP38_init H)), (v!"intermediate_code", .fn x1), (v!"encrypt", .method x2), (v!"create_new_encrypted_wif", .method x3), (v!"confirm_code", .method x4), (v!"decrypt", .method x5)])] ++ (imports [v!"bip38"] (Bip38World H) bip38Tree).getD [], methods := (fun n => allMethods (PointOrder H) ++ allMethods (PublicKeyOrder H) ++ allMethods (PrivateKeyOrder H) ++ allMethods (P2pkhAddressOrder H) ++ methodsBefore n (Bip38Order H)) 0, str := Error_str H } (fun n => allMethods (PointOrder H) ++ allMethods (PublicKeyOrder H) ++ allMethods (PrivateKeyOrder H) ++ allMethods (P2pkhAddressOrder H) ++ methodsBefore n (Bip38Order H)) bip38Tree) = some (.fn (BIP38_intermediate_code H)) := by
  by_kernel

theorem bip38_encrypt_is (H : Host) (x2 : Fn) (x3 : Fn) (x4 : Fn) (x5 : Fn) :
    memOf v!"BIP38" v!"encrypt" (definitions { lib := library H, scope := [(v!"BIP38", .cls (some .BIP38) [(v!"__init__", .ctor (BIP38_init H)), (v!"intermediate_code", .fn (BIP38_intermediate_code H)), (v!"encrypt", .method x2), (v!"create_new_encrypted_wif", .method x3), (v!"confirm_code", .method x4), (v!"decrypt", .method x5)])] ++ (imports [v!"bip38"] (Bip38World H) bip38Tree).getD [], methods := (fun n => allMethods (PointOrder H) ++ allMethods (PublicKeyOrder H) ++ allMethods (PrivateKeyOrder H) ++ allMethods (P2pkhAddressOrder H) ++ methodsBefore n (Bip38Order H)) 0, str := Error_str H } (fun n => allMethods (PointOrder H) ++ allMethods (PublicKeyOrder H) ++ allMethods (PrivateKeyOrder H) ++ allMethods (P2pkhAddressOrder H) ++ methodsBefore n (Bip38Order H)) bip38Tree) = some (.method (BIP38_encrypt H)) := by
  by_kernel

theorem bip38_create_new_encrypted_wif_is (H : Host) (x3 : Fn) (x4 : Fn) (x5 : Fn) :
    memOf v!"BIP38" v!"create_new_encrypted_wif" (definitions { lib := library H, scope := [(v!"BIP38", .cls (some .BIP38) [(v!"__init__", .ctor (BIP38_init H)), (v!"intermediate_code", .fn (BIP38_intermediate_code H)), (v!"encrypt", .method (BIP38_encrypt H)), (v!"create_new_encrypted_wif", .method x3), (v!"confirm_code", .method x4), (v!"decrypt", .method x5)])] ++ (imports [v!"bip38"] (Bip38World H) bip38Tree).getD [], methods := (fun n => allMethods (PointOrder H) ++ allMethods (PublicKeyOrder H) ++ allMethods (PrivateKeyOrder H) ++ allMethods (P2pkhAddressOrder H) ++ methodsBefore n (Bip38Order H)) 0, str := Error_str H } (fun n => allMethods (PointOrder H) ++ allMethods (PublicKeyOrder H) ++ allMethods (PrivateKeyOrder H) ++ allMethods (P2pkhAddressOrder H) ++ methodsBefore n (Bip38Order H)) bip38Tree) = some (.method (BIP38_create_new_encrypted_wif H)) := by
  by_kernel

theorem bip38_confirm_code_is (H : Host) (x4 : Fn) (x5 : Fn) :
    memOf v!"BIP38" v!"confirm_code" (definitions { lib := library H, scope := [(v!"BIP38", .cls (some .BIP38) [(v!"__init__", .ctor (BIP38_init H)), (v!"intermediate_code", .fn (BIP38_intermediate_code H)), (v!"encrypt", .method (BIP38_encrypt H)), (v!"create_new_encrypted_wif", .method (BIP38_create_new_encrypted_wif H)), (v!"confirm_code", .method x4), (v!"decrypt", .method x5)])] ++ (imports [v!"bip38"] (Bip38World H) bip38Tree).getD [], methods := (fun n => allMethods (PointOrder H) ++ allMethods (PublicKeyOrder H) ++ allMethods (PrivateKeyOrder H) ++ allMethods (P2pkhAddressOrder H) ++ methodsBefore n (Bip38Order H)) 0, str := Error_str H } (fun n => allMethods (PointOrder H) ++ allMethods (PublicKeyOrder H) ++ allMethods (PrivateKeyOrder H) ++ allMethods (P2pkhAddressOrder H) ++ methodsBefore n (Bip38Order H)) bip38Tree) = some (.method (BIP38_confirm_code H)) := by
  by_kernel

theorem bip38_decrypt_is (H : Host) (x5 : Fn) :
    memOf v!"BIP38" v!"decrypt" (definitions { lib := library H, scope := [(v!"BIP38", .cls (some .BIP38) [(v!"__init__", .ctor (BIP38_init H)), (v!"intermediate_code", .fn (BIP38_intermediate_code H)), (v!"encrypt", .method (BIP38_encrypt H)), (v!"create_new_encrypted_wif", .method (BIP38_create_new_encrypted_wif H)), (v!"confirm_code", .method (BIP38_confirm_code H)), (v!"decrypt", .method x5)])] ++ (imports [v!"bip38"] (Bip38World H) bip38Tree).getD [], methods := (fun n => allMethods (PointOrder H) ++ allMethods (PublicKeyOrder H) ++ allMethods (PrivateKeyOrder H) ++ allMethods (P2pkhAddressOrder H) ++ methodsBefore n (Bip38Order H)) 0, str := Error_str H } (fun n => allMethods (PointOrder H) ++ allMethods (PublicKeyOrder H) ++ allMethods (PrivateKeyOrder H) ++ allMethods (P2pkhAddressOrder H) ++ methodsBefore n (Bip38Order H)) bip38Tree) = some (.method (BIP38_decrypt H)) := by
  by_kernel

/-- The text of `bip38/bip38.py` defines this and nothing else. -/
theorem bip38_only (H : Host) {defs : Scope} (h : Defines H (Error_str H) [v!"bip38"] (Bip38World H) (fun n => allMethods (PointOrder H) ++ allMethods (PublicKeyOrder H) ++ allMethods (PrivateKeyOrder H) ++ allMethods (P2pkhAddressOrder H) ++ methodsBefore n (Bip38Order H)) Bip38Text defs) : defs = Bip38Defs H := by
  obtain ⟨tree, ins, hp, hi, hd⟩ := h
  obtain rfl := Option.some.inj (bip38_parse.symm.trans hp)
  obtain rfl := Option.some.inj ((bip38_imports H).symm.trans hi)
  have hk0 := (bip38_shape ▸ shape_eq hd : _ = _)
  obtain ⟨ms, d, rfl, hm0, hk1⟩ := key_cls hk0
  obtain rfl := key_nil hk1
  obtain ⟨x0, d0, rfl, hm1⟩ := mem_ctor hm0
  obtain ⟨x1, d1, rfl, hm2⟩ := mem_fn hm1
  obtain ⟨x2, d2, rfl, hm3⟩ := mem_method hm2
  obtain ⟨x3, d3, rfl, hm4⟩ := mem_method hm3
  obtain ⟨x4, d4, rfl, hm5⟩ := mem_method hm4
  obtain ⟨x5, d5, rfl, hm6⟩ := mem_method hm5
  obtain rfl := mem_nil hm6
  obtain rfl := Mem.ctor.inj (Option.some.inj ((bip38_init_is H x0 x1 x2 x3 x4 x5).symm.trans (congrArg (memOf v!"BIP38" v!"__init__") hd)))
  obtain rfl := Mem.fn.inj (Option.some.inj ((bip38_intermediate_code_is H x1 x2 x3 x4 x5).symm.trans (congrArg (memOf v!"BIP38" v!"intermediate_code") hd)))
  obtain rfl := Mem.method.inj (Option.some.inj ((bip38_encrypt_is H x2 x3 x4 x5).symm.trans (congrArg (memOf v!"BIP38" v!"encrypt") hd)))
  obtain rfl := Mem.method.inj (Option.some.inj ((bip38_create_new_encrypted_wif_is H x3 x4 x5).symm.trans (congrArg (memOf v!"BIP38" v!"create_new_encrypted_wif") hd)))
  obtain rfl := Mem.method.inj (Option.some.inj ((bip38_confirm_code_is H x4 x5).symm.trans (congrArg (memOf v!"BIP38" v!"confirm_code") hd)))
  obtain rfl := Mem.method.inj (Option.some.inj ((bip38_decrypt_is H x5).symm.trans (congrArg (memOf v!"BIP38" v!"decrypt") hd)))
  rfl

end Bip38.SrcX.Text
