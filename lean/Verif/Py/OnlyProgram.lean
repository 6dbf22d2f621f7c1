import Verif.Py.Program
import Verif.Py.OnlyOf
/-!
# What the texts define is determined, for the program as a whole

Generated by `tools/gen_only.py`.
-/
set_option linter.style.longLine false
set_option linter.unusedVariables false
namespace Bip38.Py
open Bip38.Src

/-- What `bip38/secp256k1/__init__.py` hands on. -/
def secp256k1Hands (H : Host) : Scope :=
  (v!"generator_secp256k1", .ext v!"ecdsa.ecdsa.generator_secp256k1") :: (PointDefs H ++ PublicKeyDefs H ++ PrivateKeyDefs H)

/-- What the files define, as terms of `Verif/Src`. -/
def program (H : Host) : Modules :=
  ⟨(ExceptionsDefs H), (ConstDefs H), (UtilsDefs H), (Ripemd160Defs H), (CryptoDefs H), (Base58Defs H), (PointDefs H), (PublicKeyDefs H), (PrivateKeyDefs H), (secp256k1Hands H), (WifDefs H), (P2pkhAddressDefs H), (Bip38Defs H)⟩

theorem strOf_eq (H : Host) : strOf (ExceptionsDefs H) = Error_str H := by by_kernel
theorem point_order (H : Host) : classMethods pointNames (PointDefs H) = PointOrder H := by by_kernel
theorem publicKey_order (H : Host) : classMethods publicKeyNames (PublicKeyDefs H) = PublicKeyOrder H := by by_kernel
theorem privateKey_order (H : Host) : classMethods privateKeyNames (PrivateKeyDefs H) = PrivateKeyOrder H := by by_kernel
theorem p2pkhAddress_order (H : Host) : classMethods p2pkhAddressNames (P2pkhAddressDefs H) = P2pkhAddressOrder H := by by_kernel
theorem bip38_order (H : Host) : classMethods bip38Names (Bip38Defs H) = Bip38Order H := by by_kernel

/-! ### `bip38/exceptions.py` -/

theorem exceptions_imports_in (H : Host) (x : Scope) (yconst yutils yripemd160 ycrypto ybase58 ypoint ypublicKey yprivateKey ysecp256k1 ywif yp2pkhAddress ybip38 : Scope) :
    imports [v!"bip38"] (Modules.world ⟨x, yconst, yutils, yripemd160, ycrypto, ybase58, ypoint, ypublicKey, yprivateKey, ysecp256k1, ywif, yp2pkhAddress, ybip38⟩) exceptionsTree = some ((imports [v!"bip38"] (ExceptionsWorld H) exceptionsTree).getD []) := by by_kernel

theorem exceptions_Error_in (H : Host) (x0 : (ExcClass → Fn) × Fn) (x1 : (ExcClass → Fn) × Fn) (x2 : (ExcClass → Fn) × Fn) (x3 : (ExcClass → Fn) × Fn) (x4 : (ExcClass → Fn) × Fn) (x5 : (ExcClass → Fn) × Fn) (x6 : (ExcClass → Fn) × Fn) :
    excAt v!"Error" (definitions { lib := library H, scope := [(v!"Error", .exc .error x0.1 x0.2), (v!"CryptocurrencyError", .exc .cryptocurrencyError x1.1 x1.2), (v!"NetworkError", .exc .networkError x2.1 x2.2), (v!"Secp256k1Error", .exc .secp256k1Error x3.1 x3.2), (v!"AddressError", .exc .addressError x4.1 x4.2), (v!"WIFError", .exc .wifError x5.1 x5.2), (v!"PassphraseError", .exc .passphraseError x6.1 x6.2)] ++ (imports [v!"bip38"] (ExceptionsWorld H) exceptionsTree).getD [], methods := (fun _ => []) 0, str := strOf [(v!"Error", .exc .error x0.1 x0.2), (v!"CryptocurrencyError", .exc .cryptocurrencyError x1.1 x1.2), (v!"NetworkError", .exc .networkError x2.1 x2.2), (v!"Secp256k1Error", .exc .secp256k1Error x3.1 x3.2), (v!"AddressError", .exc .addressError x4.1 x4.2), (v!"WIFError", .exc .wifError x5.1 x5.2), (v!"PassphraseError", .exc .passphraseError x6.1 x6.2)] } (fun _ => []) exceptionsTree) = some ((Error_init H), (Error_str H)) := by
  by_kernel

theorem exceptions_CryptocurrencyError_in (H : Host) (x1 : (ExcClass → Fn) × Fn) (x2 : (ExcClass → Fn) × Fn) (x3 : (ExcClass → Fn) × Fn) (x4 : (ExcClass → Fn) × Fn) (x5 : (ExcClass → Fn) × Fn) (x6 : (ExcClass → Fn) × Fn) :
    excAt v!"CryptocurrencyError" (definitions { lib := library H, scope := [(v!"Error", .exc .error (Error_init H) (Error_str H)), (v!"CryptocurrencyError", .exc .cryptocurrencyError x1.1 x1.2), (v!"NetworkError", .exc .networkError x2.1 x2.2), (v!"Secp256k1Error", .exc .secp256k1Error x3.1 x3.2), (v!"AddressError", .exc .addressError x4.1 x4.2), (v!"WIFError", .exc .wifError x5.1 x5.2), (v!"PassphraseError", .exc .passphraseError x6.1 x6.2)] ++ (imports [v!"bip38"] (ExceptionsWorld H) exceptionsTree).getD [], methods := (fun _ => []) 0, str := strOf [(v!"Error", .exc .error (Error_init H) (Error_str H)), (v!"CryptocurrencyError", .exc .cryptocurrencyError x1.1 x1.2), (v!"NetworkError", .exc .networkError x2.1 x2.2), (v!"Secp256k1Error", .exc .secp256k1Error x3.1 x3.2), (v!"AddressError", .exc .addressError x4.1 x4.2), (v!"WIFError", .exc .wifError x5.1 x5.2), (v!"PassphraseError", .exc .passphraseError x6.1 x6.2)] } (fun _ => []) exceptionsTree) = some ((Error_init H), (Error_str H)) := by
  by_kernel

theorem exceptions_NetworkError_in (H : Host) (x2 : (ExcClass → Fn) × Fn) (x3 : (ExcClass → Fn) × Fn) (x4 : (ExcClass → Fn) × Fn) (x5 : (ExcClass → Fn) × Fn) (x6 : (ExcClass → Fn) × Fn) :
    excAt v!"NetworkError" (definitions { lib := library H, scope := [(v!"Error", .exc .error (Error_init H) (Error_str H)), (v!"CryptocurrencyError", .exc .cryptocurrencyError (Error_init H) (Error_str H)), (v!"NetworkError", .exc .networkError x2.1 x2.2), (v!"Secp256k1Error", .exc .secp256k1Error x3.1 x3.2), (v!"AddressError", .exc .addressError x4.1 x4.2), (v!"WIFError", .exc .wifError x5.1 x5.2), (v!"PassphraseError", .exc .passphraseError x6.1 x6.2)] ++ (imports [v!"bip38"] (ExceptionsWorld H) exceptionsTree).getD [], methods := (fun _ => []) 0, str := strOf [(v!"Error", .exc .error (Error_init H) (Error_str H)), (v!"CryptocurrencyError", .exc .cryptocurrencyError (Error_init H) (Error_str H)), (v!"NetworkError", .exc .networkError x2.1 x2.2), (v!"Secp256k1Error", .exc .secp256k1Error x3.1 x3.2), (v!"AddressError", .exc .addressError x4.1 x4.2), (v!"WIFError", .exc .wifError x5.1 x5.2), (v!"PassphraseError", .exc .passphraseError x6.1 x6.2)] } (fun _ => []) exceptionsTree) = some ((Error_init H), (Error_str H)) := by
  by_kernel

theorem exceptions_Secp256k1Error_in (H : Host) (x3 : (ExcClass → Fn) × Fn) (x4 : (ExcClass → Fn) × Fn) (x5 : (ExcClass → Fn) × Fn) (x6 : (ExcClass → Fn) × Fn) :
    excAt v!"Secp256k1Error" (definitions { lib := library H, scope := [(v!"Error", .exc .error (Error_init H) (Error_str H)), (v!"CryptocurrencyError", .exc .cryptocurrencyError (Error_init H) (Error_str H)), (v!"NetworkError", .exc .networkError (Error_init H) (Error_str H)), (v!"Secp256k1Error", .exc .secp256k1Error x3.1 x3.2), (v!"AddressError", .exc .addressError x4.1 x4.2), (v!"WIFError", .exc .wifError x5.1 x5.2), (v!"PassphraseError", .exc .passphraseError x6.1 x6.2)] ++ (imports [v!"bip38"] (ExceptionsWorld H) exceptionsTree).getD [], methods := (fun _ => []) 0, str := strOf [(v!"Error", .exc .error (Error_init H) (Error_str H)), (v!"CryptocurrencyError", .exc .cryptocurrencyError (Error_init H) (Error_str H)), (v!"NetworkError", .exc .networkError (Error_init H) (Error_str H)), (v!"Secp256k1Error", .exc .secp256k1Error x3.1 x3.2), (v!"AddressError", .exc .addressError x4.1 x4.2), (v!"WIFError", .exc .wifError x5.1 x5.2), (v!"PassphraseError", .exc .passphraseError x6.1 x6.2)] } (fun _ => []) exceptionsTree) = some ((Error_init H), (Error_str H)) := by
  by_kernel

theorem exceptions_AddressError_in (H : Host) (x4 : (ExcClass → Fn) × Fn) (x5 : (ExcClass → Fn) × Fn) (x6 : (ExcClass → Fn) × Fn) :
    excAt v!"AddressError" (definitions { lib := library H, scope := [(v!"Error", .exc .error (Error_init H) (Error_str H)), (v!"CryptocurrencyError", .exc .cryptocurrencyError (Error_init H) (Error_str H)), (v!"NetworkError", .exc .networkError (Error_init H) (Error_str H)), (v!"Secp256k1Error", .exc .secp256k1Error (Error_init H) (Error_str H)), (v!"AddressError", .exc .addressError x4.1 x4.2), (v!"WIFError", .exc .wifError x5.1 x5.2), (v!"PassphraseError", .exc .passphraseError x6.1 x6.2)] ++ (imports [v!"bip38"] (ExceptionsWorld H) exceptionsTree).getD [], methods := (fun _ => []) 0, str := strOf [(v!"Error", .exc .error (Error_init H) (Error_str H)), (v!"CryptocurrencyError", .exc .cryptocurrencyError (Error_init H) (Error_str H)), (v!"NetworkError", .exc .networkError (Error_init H) (Error_str H)), (v!"Secp256k1Error", .exc .secp256k1Error (Error_init H) (Error_str H)), (v!"AddressError", .exc .addressError x4.1 x4.2), (v!"WIFError", .exc .wifError x5.1 x5.2), (v!"PassphraseError", .exc .passphraseError x6.1 x6.2)] } (fun _ => []) exceptionsTree) = some ((Error_init H), (Error_str H)) := by
  by_kernel

theorem exceptions_WIFError_in (H : Host) (x5 : (ExcClass → Fn) × Fn) (x6 : (ExcClass → Fn) × Fn) :
    excAt v!"WIFError" (definitions { lib := library H, scope := [(v!"Error", .exc .error (Error_init H) (Error_str H)), (v!"CryptocurrencyError", .exc .cryptocurrencyError (Error_init H) (Error_str H)), (v!"NetworkError", .exc .networkError (Error_init H) (Error_str H)), (v!"Secp256k1Error", .exc .secp256k1Error (Error_init H) (Error_str H)), (v!"AddressError", .exc .addressError (Error_init H) (Error_str H)), (v!"WIFError", .exc .wifError x5.1 x5.2), (v!"PassphraseError", .exc .passphraseError x6.1 x6.2)] ++ (imports [v!"bip38"] (ExceptionsWorld H) exceptionsTree).getD [], methods := (fun _ => []) 0, str := strOf [(v!"Error", .exc .error (Error_init H) (Error_str H)), (v!"CryptocurrencyError", .exc .cryptocurrencyError (Error_init H) (Error_str H)), (v!"NetworkError", .exc .networkError (Error_init H) (Error_str H)), (v!"Secp256k1Error", .exc .secp256k1Error (Error_init H) (Error_str H)), (v!"AddressError", .exc .addressError (Error_init H) (Error_str H)), (v!"WIFError", .exc .wifError x5.1 x5.2), (v!"PassphraseError", .exc .passphraseError x6.1 x6.2)] } (fun _ => []) exceptionsTree) = some ((Error_init H), (Error_str H)) := by
  by_kernel

theorem exceptions_PassphraseError_in (H : Host) (x6 : (ExcClass → Fn) × Fn) :
    excAt v!"PassphraseError" (definitions { lib := library H, scope := [(v!"Error", .exc .error (Error_init H) (Error_str H)), (v!"CryptocurrencyError", .exc .cryptocurrencyError (Error_init H) (Error_str H)), (v!"NetworkError", .exc .networkError (Error_init H) (Error_str H)), (v!"Secp256k1Error", .exc .secp256k1Error (Error_init H) (Error_str H)), (v!"AddressError", .exc .addressError (Error_init H) (Error_str H)), (v!"WIFError", .exc .wifError (Error_init H) (Error_str H)), (v!"PassphraseError", .exc .passphraseError x6.1 x6.2)] ++ (imports [v!"bip38"] (ExceptionsWorld H) exceptionsTree).getD [], methods := (fun _ => []) 0, str := strOf [(v!"Error", .exc .error (Error_init H) (Error_str H)), (v!"CryptocurrencyError", .exc .cryptocurrencyError (Error_init H) (Error_str H)), (v!"NetworkError", .exc .networkError (Error_init H) (Error_str H)), (v!"Secp256k1Error", .exc .secp256k1Error (Error_init H) (Error_str H)), (v!"AddressError", .exc .addressError (Error_init H) (Error_str H)), (v!"WIFError", .exc .wifError (Error_init H) (Error_str H)), (v!"PassphraseError", .exc .passphraseError x6.1 x6.2)] } (fun _ => []) exceptionsTree) = some ((Error_init H), (Error_str H)) := by
  by_kernel

theorem exceptions_in (H : Host) (yconst yutils yripemd160 ycrypto ybase58 ypoint ypublicKey yprivateKey ysecp256k1 ywif yp2pkhAddress ybip38 : Scope) {x : Scope} (h : Defines H (strOf x) [v!"bip38"] (Modules.world ⟨x, yconst, yutils, yripemd160, ycrypto, ybase58, ypoint, ypublicKey, yprivateKey, ysecp256k1, ywif, yp2pkhAddress, ybip38⟩) (fun _ => []) ExceptionsText x) : x = ExceptionsDefs H := by
  obtain ⟨tree, ins, hp, hi, hd⟩ := h
  obtain rfl := Option.some.inj (exceptions_parse.symm.trans hp)
  obtain rfl := Option.some.inj ((exceptions_imports_in H x yconst yutils yripemd160 ycrypto ybase58 ypoint ypublicKey yprivateKey ysecp256k1 ywif yp2pkhAddress ybip38).symm.trans hi)
  have hk0 := (exceptions_shape ▸ shape_eq hd : _ = _)
  obtain ⟨x0, d0, rfl, hk1⟩ := key_exc hk0
  obtain ⟨x1, d1, rfl, hk2⟩ := key_exc hk1
  obtain ⟨x2, d2, rfl, hk3⟩ := key_exc hk2
  obtain ⟨x3, d3, rfl, hk4⟩ := key_exc hk3
  obtain ⟨x4, d4, rfl, hk5⟩ := key_exc hk4
  obtain ⟨x5, d5, rfl, hk6⟩ := key_exc hk5
  obtain ⟨x6, d6, rfl, hk7⟩ := key_exc hk6
  obtain rfl := key_nil hk7
  obtain rfl : ((Error_init H), (Error_str H)) = x0 := Option.some.inj ((exceptions_Error_in H x0 x1 x2 x3 x4 x5 x6).symm.trans (congrArg (excAt v!"Error") hd))
  obtain rfl : ((Error_init H), (Error_str H)) = x1 := Option.some.inj ((exceptions_CryptocurrencyError_in H x1 x2 x3 x4 x5 x6).symm.trans (congrArg (excAt v!"CryptocurrencyError") hd))
  obtain rfl : ((Error_init H), (Error_str H)) = x2 := Option.some.inj ((exceptions_NetworkError_in H x2 x3 x4 x5 x6).symm.trans (congrArg (excAt v!"NetworkError") hd))
  obtain rfl : ((Error_init H), (Error_str H)) = x3 := Option.some.inj ((exceptions_Secp256k1Error_in H x3 x4 x5 x6).symm.trans (congrArg (excAt v!"Secp256k1Error") hd))
  obtain rfl : ((Error_init H), (Error_str H)) = x4 := Option.some.inj ((exceptions_AddressError_in H x4 x5 x6).symm.trans (congrArg (excAt v!"AddressError") hd))
  obtain rfl : ((Error_init H), (Error_str H)) = x5 := Option.some.inj ((exceptions_WIFError_in H x5 x6).symm.trans (congrArg (excAt v!"WIFError") hd))
  obtain rfl : ((Error_init H), (Error_str H)) = x6 := Option.some.inj ((exceptions_PassphraseError_in H x6).symm.trans (congrArg (excAt v!"PassphraseError") hd))
  rfl

/-! ### `bip38/const.py` -/

theorem const_imports_in (H : Host) (x : Scope) (yutils yripemd160 ycrypto ybase58 ypoint ypublicKey yprivateKey ysecp256k1 ywif yp2pkhAddress ybip38 : Scope) :
    imports [v!"bip38"] (Modules.world ⟨(ExceptionsDefs H), x, yutils, yripemd160, ycrypto, ybase58, ypoint, ypublicKey, yprivateKey, ysecp256k1, ywif, yp2pkhAddress, ybip38⟩) constTree = some ((imports [v!"bip38"] (ConstWorld H) constTree).getD []) := by by_kernel

theorem const_in (H : Host) (yutils yripemd160 ycrypto ybase58 ypoint ypublicKey yprivateKey ysecp256k1 ywif yp2pkhAddress ybip38 : Scope) {x : Scope} (h : Defines H (strOf (ExceptionsDefs H)) [v!"bip38"] (Modules.world ⟨(ExceptionsDefs H), x, yutils, yripemd160, ycrypto, ybase58, ypoint, ypublicKey, yprivateKey, ysecp256k1, ywif, yp2pkhAddress, ybip38⟩) (fun _ => []) ConstText x) : x = ConstDefs H := by
  rw [strOf_eq] at h
  obtain ⟨tree, ins, hp, hi, hd⟩ := h
  obtain rfl := Option.some.inj (const_parse.symm.trans hp)
  obtain rfl := Option.some.inj ((const_imports_in H x yutils yripemd160 ycrypto ybase58 ypoint ypublicKey yprivateKey ysecp256k1 ywif yp2pkhAddress ybip38).symm.trans hi)
  exact const_only H ⟨_, _, const_parse, const_imports H, hd⟩

/-! ### `bip38/utils.py` -/

theorem utils_imports_in (H : Host) (x : Scope) (yripemd160 ycrypto ybase58 ypoint ypublicKey yprivateKey ysecp256k1 ywif yp2pkhAddress ybip38 : Scope) :
    imports [v!"bip38"] (Modules.world ⟨(ExceptionsDefs H), (ConstDefs H), x, yripemd160, ycrypto, ybase58, ypoint, ypublicKey, yprivateKey, ysecp256k1, ywif, yp2pkhAddress, ybip38⟩) utilsTree = some ((imports [v!"bip38"] (UtilsWorld H) utilsTree).getD []) := by by_kernel

theorem utils_in (H : Host) (yripemd160 ycrypto ybase58 ypoint ypublicKey yprivateKey ysecp256k1 ywif yp2pkhAddress ybip38 : Scope) {x : Scope} (h : Defines H (strOf (ExceptionsDefs H)) [v!"bip38"] (Modules.world ⟨(ExceptionsDefs H), (ConstDefs H), x, yripemd160, ycrypto, ybase58, ypoint, ypublicKey, yprivateKey, ysecp256k1, ywif, yp2pkhAddress, ybip38⟩) (fun _ => []) UtilsText x) : x = UtilsDefs H := by
  rw [strOf_eq] at h
  obtain ⟨tree, ins, hp, hi, hd⟩ := h
  obtain rfl := Option.some.inj (utils_parse.symm.trans hp)
  obtain rfl := Option.some.inj ((utils_imports_in H x yripemd160 ycrypto ybase58 ypoint ypublicKey yprivateKey ysecp256k1 ywif yp2pkhAddress ybip38).symm.trans hi)
  exact utils_only H ⟨_, _, utils_parse, utils_imports H, hd⟩

/-! ### `bip38/libs/ripemd160.py` -/

theorem ripemd160_imports_in (H : Host) (x : Scope) (ycrypto ybase58 ypoint ypublicKey yprivateKey ysecp256k1 ywif yp2pkhAddress ybip38 : Scope) :
    imports [v!"bip38.libs", v!"bip38"] (Modules.world ⟨(ExceptionsDefs H), (ConstDefs H), (UtilsDefs H), x, ycrypto, ybase58, ypoint, ypublicKey, yprivateKey, ysecp256k1, ywif, yp2pkhAddress, ybip38⟩) ripemd160Tree = some ((imports [v!"bip38.libs", v!"bip38"] (Ripemd160World H) ripemd160Tree).getD []) := by by_kernel

theorem ripemd160_in (H : Host) (ycrypto ybase58 ypoint ypublicKey yprivateKey ysecp256k1 ywif yp2pkhAddress ybip38 : Scope) {x : Scope} (h : Defines H (strOf (ExceptionsDefs H)) [v!"bip38.libs", v!"bip38"] (Modules.world ⟨(ExceptionsDefs H), (ConstDefs H), (UtilsDefs H), x, ycrypto, ybase58, ypoint, ypublicKey, yprivateKey, ysecp256k1, ywif, yp2pkhAddress, ybip38⟩) (fun _ => []) Ripemd160Text x) : x = Ripemd160Defs H := by
  rw [strOf_eq] at h
  obtain ⟨tree, ins, hp, hi, hd⟩ := h
  obtain rfl := Option.some.inj (ripemd160_parse.symm.trans hp)
  obtain rfl := Option.some.inj ((ripemd160_imports_in H x ycrypto ybase58 ypoint ypublicKey yprivateKey ysecp256k1 ywif yp2pkhAddress ybip38).symm.trans hi)
  exact ripemd160_only H ⟨_, _, ripemd160_parse, ripemd160_imports H, hd⟩

/-! ### `bip38/crypto.py` -/

theorem crypto_imports_in (H : Host) (x : Scope) (ybase58 ypoint ypublicKey yprivateKey ysecp256k1 ywif yp2pkhAddress ybip38 : Scope) :
    imports [v!"bip38"] (Modules.world ⟨(ExceptionsDefs H), (ConstDefs H), (UtilsDefs H), (Ripemd160Defs H), x, ybase58, ypoint, ypublicKey, yprivateKey, ysecp256k1, ywif, yp2pkhAddress, ybip38⟩) cryptoTree = some ((imports [v!"bip38"] (CryptoWorld H) cryptoTree).getD []) := by by_kernel

theorem crypto_in (H : Host) (ybase58 ypoint ypublicKey yprivateKey ysecp256k1 ywif yp2pkhAddress ybip38 : Scope) {x : Scope} (h : Defines H (strOf (ExceptionsDefs H)) [v!"bip38"] (Modules.world ⟨(ExceptionsDefs H), (ConstDefs H), (UtilsDefs H), (Ripemd160Defs H), x, ybase58, ypoint, ypublicKey, yprivateKey, ysecp256k1, ywif, yp2pkhAddress, ybip38⟩) (fun _ => []) CryptoText x) : x = CryptoDefs H := by
  rw [strOf_eq] at h
  obtain ⟨tree, ins, hp, hi, hd⟩ := h
  obtain rfl := Option.some.inj (crypto_parse.symm.trans hp)
  obtain rfl := Option.some.inj ((crypto_imports_in H x ybase58 ypoint ypublicKey yprivateKey ysecp256k1 ywif yp2pkhAddress ybip38).symm.trans hi)
  exact crypto_only H ⟨_, _, crypto_parse, crypto_imports H, hd⟩

/-! ### `bip38/libs/base58.py` -/

theorem base58_imports_in (H : Host) (x : Scope) (ypoint ypublicKey yprivateKey ysecp256k1 ywif yp2pkhAddress ybip38 : Scope) :
    imports [v!"bip38.libs", v!"bip38"] (Modules.world ⟨(ExceptionsDefs H), (ConstDefs H), (UtilsDefs H), (Ripemd160Defs H), (CryptoDefs H), x, ypoint, ypublicKey, yprivateKey, ysecp256k1, ywif, yp2pkhAddress, ybip38⟩) base58Tree = some ((imports [v!"bip38.libs", v!"bip38"] (Base58World H) base58Tree).getD []) := by by_kernel

theorem base58_in (H : Host) (ypoint ypublicKey yprivateKey ysecp256k1 ywif yp2pkhAddress ybip38 : Scope) {x : Scope} (h : Defines H (strOf (ExceptionsDefs H)) [v!"bip38.libs", v!"bip38"] (Modules.world ⟨(ExceptionsDefs H), (ConstDefs H), (UtilsDefs H), (Ripemd160Defs H), (CryptoDefs H), x, ypoint, ypublicKey, yprivateKey, ysecp256k1, ywif, yp2pkhAddress, ybip38⟩) (fun _ => []) Base58Text x) : x = Base58Defs H := by
  rw [strOf_eq] at h
  obtain ⟨tree, ins, hp, hi, hd⟩ := h
  obtain rfl := Option.some.inj (base58_parse.symm.trans hp)
  obtain rfl := Option.some.inj ((base58_imports_in H x ypoint ypublicKey yprivateKey ysecp256k1 ywif yp2pkhAddress ybip38).symm.trans hi)
  exact base58_only H ⟨_, _, base58_parse, base58_imports H, hd⟩

/-! ### `bip38/wif.py` -/

theorem wif_imports_in (H : Host) (x : Scope) (yp2pkhAddress ybip38 : Scope) :
    imports [v!"bip38"] (Modules.world ⟨(ExceptionsDefs H), (ConstDefs H), (UtilsDefs H), (Ripemd160Defs H), (CryptoDefs H), (Base58Defs H), (PointDefs H), (PublicKeyDefs H), (PrivateKeyDefs H), (secp256k1Hands H), x, yp2pkhAddress, ybip38⟩) wifTree = some ((imports [v!"bip38"] (WifWorld H) wifTree).getD []) := by by_kernel

theorem wif_in (H : Host) (yp2pkhAddress ybip38 : Scope) {x : Scope} (h : Defines H (strOf (ExceptionsDefs H)) [v!"bip38"] (Modules.world ⟨(ExceptionsDefs H), (ConstDefs H), (UtilsDefs H), (Ripemd160Defs H), (CryptoDefs H), (Base58Defs H), (PointDefs H), (PublicKeyDefs H), (PrivateKeyDefs H), (secp256k1Hands H), x, yp2pkhAddress, ybip38⟩) (fun _ => allMethods (classMethods pointNames (PointDefs H)) ++ allMethods (classMethods publicKeyNames (PublicKeyDefs H)) ++ allMethods (classMethods privateKeyNames (PrivateKeyDefs H))) WifText x) : x = WifDefs H := by
  rw [strOf_eq, point_order, publicKey_order, privateKey_order] at h
  obtain ⟨tree, ins, hp, hi, hd⟩ := h
  obtain rfl := Option.some.inj (wif_parse.symm.trans hp)
  obtain rfl := Option.some.inj ((wif_imports_in H x yp2pkhAddress ybip38).symm.trans hi)
  exact wif_only H ⟨_, _, wif_parse, wif_imports H, hd⟩

/-! ### `bip38/secp256k1/point.py` -/

theorem point_imports_in (H : Host) (x : Scope) (ypublicKey yprivateKey ysecp256k1 ywif yp2pkhAddress ybip38 : Scope) :
    imports [v!"bip38.secp256k1", v!"bip38"] (Modules.world ⟨(ExceptionsDefs H), (ConstDefs H), (UtilsDefs H), (Ripemd160Defs H), (CryptoDefs H), (Base58Defs H), x, ypublicKey, yprivateKey, ysecp256k1, ywif, yp2pkhAddress, ybip38⟩) pointTree = some ((imports [v!"bip38.secp256k1", v!"bip38"] (PointWorld H) pointTree).getD []) := by by_kernel

theorem point_init_in (H : Host) (x0 : Fn) (x1 : Fn) (x2 : Fn) (x3 : Fn) (x4 : Fn) (x5 : Fn) (x6 : Fn) (x7 : Fn) (x8 : Fn) (x9 : Fn) (x10 : Fn) (x11 : Fn) (x12 : Fn) :
    memOf v!"Point" v!"__init__" (definitions { lib := library H, scope := [(v!"Point", .cls (some .Point) [(v!"__init__", .ctor x0), (v!"from_bytes", .fn x1), (v!"from_coordinates", .fn x2), (v!"underlying_object", .method x3), (v!"x", .method x4), (v!"y", .method x5), (v!"raw", .method x6), (v!"raw_encoded", .method x7), (v!"raw_decoded", .method x8), (v!"__add__", .method x9), (v!"__radd__", .method x10), (v!"__mul__", .method x11), (v!"__rmul__", .method x12)])] ++ (imports [v!"bip38.secp256k1", v!"bip38"] (PointWorld H) pointTree).getD [], methods := (fun n => methodsBefore n (classMethods pointNames [(v!"Point", .cls (some .Point) [(v!"__init__", .ctor x0), (v!"from_bytes", .fn x1), (v!"from_coordinates", .fn x2), (v!"underlying_object", .method x3), (v!"x", .method x4), (v!"y", .method x5), (v!"raw", .method x6), (v!"raw_encoded", .method x7), (v!"raw_decoded", .method x8), (v!"__add__", .method x9), (v!"__radd__", .method x10), (v!"__mul__", .method x11), (v!"__rmul__", .method x12)])])) 0, str := Error_str H } (fun n => methodsBefore n (classMethods pointNames [(v!"Point", .cls (some .Point) [(v!"__init__", .ctor x0), (v!"from_bytes", .fn x1), (v!"from_coordinates", .fn x2), (v!"underlying_object", .method x3), (v!"x", .method x4), (v!"y", .method x5), (v!"raw", .method x6), (v!"raw_encoded", .method x7), (v!"raw_decoded", .method x8), (v!"__add__", .method x9), (v!"__radd__", .method x10), (v!"__mul__", .method x11), (v!"__rmul__", .method x12)])])) pointTree) = some (.ctor (Point_init H)) := by
  by_kernel

theorem point_from_coordinates_in (H : Host) (x1 : Fn) (x2 : Fn) (x3 : Fn) (x4 : Fn) (x5 : Fn) (x6 : Fn) (x7 : Fn) (x8 : Fn) (x9 : Fn) (x10 : Fn) (x11 : Fn) (x12 : Fn) :
    memOf v!"Point" v!"from_coordinates" (definitions { lib := library H, scope := [(v!"Point", .cls (some .Point) [(v!"__init__", .ctor (Point_init H)), (v!"from_bytes", .fn x1), (v!"from_coordinates", .fn x2), (v!"underlying_object", .method x3), (v!"x", .method x4), (v!"y", .method x5), (v!"raw", .method x6), (v!"raw_encoded", .method x7), (v!"raw_decoded", .method x8), (v!"__add__", .method x9), (v!"__radd__", .method x10), (v!"__mul__", .method x11), (v!"__rmul__", .method x12)])] ++ (imports [v!"bip38.secp256k1", v!"bip38"] (PointWorld H) pointTree).getD [], methods := (fun n => methodsBefore n (classMethods pointNames [(v!"Point", .cls (some .Point) [(v!"__init__", .ctor (Point_init H)), (v!"from_bytes", .fn x1), (v!"from_coordinates", .fn x2), (v!"underlying_object", .method x3), (v!"x", .method x4), (v!"y", .method x5), (v!"raw", .method x6), (v!"raw_encoded", .method x7), (v!"raw_decoded", .method x8), (v!"__add__", .method x9), (v!"__radd__", .method x10), (v!"__mul__", .method x11), (v!"__rmul__", .method x12)])])) 0, str := Error_str H } (fun n => methodsBefore n (classMethods pointNames [(v!"Point", .cls (some .Point) [(v!"__init__", .ctor (Point_init H)), (v!"from_bytes", .fn x1), (v!"from_coordinates", .fn x2), (v!"underlying_object", .method x3), (v!"x", .method x4), (v!"y", .method x5), (v!"raw", .method x6), (v!"raw_encoded", .method x7), (v!"raw_decoded", .method x8), (v!"__add__", .method x9), (v!"__radd__", .method x10), (v!"__mul__", .method x11), (v!"__rmul__", .method x12)])])) pointTree) = some (.fn (Point_from_coordinates H)) := by
  by_kernel

theorem point_from_bytes_in (H : Host) (x1 : Fn) (x3 : Fn) (x4 : Fn) (x5 : Fn) (x6 : Fn) (x7 : Fn) (x8 : Fn) (x9 : Fn) (x10 : Fn) (x11 : Fn) (x12 : Fn) :
    memOf v!"Point" v!"from_bytes" (definitions { lib := library H, scope := [(v!"Point", .cls (some .Point) [(v!"__init__", .ctor (Point_init H)), (v!"from_bytes", .fn x1), (v!"from_coordinates", .fn (Point_from_coordinates H)), (v!"underlying_object", .method x3), (v!"x", .method x4), (v!"y", .method x5), (v!"raw", .method x6), (v!"raw_encoded", .method x7), (v!"raw_decoded", .method x8), (v!"__add__", .method x9), (v!"__radd__", .method x10), (v!"__mul__", .method x11), (v!"__rmul__", .method x12)])] ++ (imports [v!"bip38.secp256k1", v!"bip38"] (PointWorld H) pointTree).getD [], methods := (fun n => methodsBefore n (classMethods pointNames [(v!"Point", .cls (some .Point) [(v!"__init__", .ctor (Point_init H)), (v!"from_bytes", .fn x1), (v!"from_coordinates", .fn (Point_from_coordinates H)), (v!"underlying_object", .method x3), (v!"x", .method x4), (v!"y", .method x5), (v!"raw", .method x6), (v!"raw_encoded", .method x7), (v!"raw_decoded", .method x8), (v!"__add__", .method x9), (v!"__radd__", .method x10), (v!"__mul__", .method x11), (v!"__rmul__", .method x12)])])) 0, str := Error_str H } (fun n => methodsBefore n (classMethods pointNames [(v!"Point", .cls (some .Point) [(v!"__init__", .ctor (Point_init H)), (v!"from_bytes", .fn x1), (v!"from_coordinates", .fn (Point_from_coordinates H)), (v!"underlying_object", .method x3), (v!"x", .method x4), (v!"y", .method x5), (v!"raw", .method x6), (v!"raw_encoded", .method x7), (v!"raw_decoded", .method x8), (v!"__add__", .method x9), (v!"__radd__", .method x10), (v!"__mul__", .method x11), (v!"__rmul__", .method x12)])])) pointTree) = some (.fn (Point_from_bytes H)) := by
  by_kernel

theorem point_underlying_object_in (H : Host) (x3 : Fn) (x4 : Fn) (x5 : Fn) (x6 : Fn) (x7 : Fn) (x8 : Fn) (x9 : Fn) (x10 : Fn) (x11 : Fn) (x12 : Fn) :
    memOf v!"Point" v!"underlying_object" (definitions { lib := library H, scope := [(v!"Point", .cls (some .Point) [(v!"__init__", .ctor (Point_init H)), (v!"from_bytes", .fn (Point_from_bytes H)), (v!"from_coordinates", .fn (Point_from_coordinates H)), (v!"underlying_object", .method x3), (v!"x", .method x4), (v!"y", .method x5), (v!"raw", .method x6), (v!"raw_encoded", .method x7), (v!"raw_decoded", .method x8), (v!"__add__", .method x9), (v!"__radd__", .method x10), (v!"__mul__", .method x11), (v!"__rmul__", .method x12)])] ++ (imports [v!"bip38.secp256k1", v!"bip38"] (PointWorld H) pointTree).getD [], methods := (fun n => methodsBefore n (classMethods pointNames [(v!"Point", .cls (some .Point) [(v!"__init__", .ctor (Point_init H)), (v!"from_bytes", .fn (Point_from_bytes H)), (v!"from_coordinates", .fn (Point_from_coordinates H)), (v!"underlying_object", .method x3), (v!"x", .method x4), (v!"y", .method x5), (v!"raw", .method x6), (v!"raw_encoded", .method x7), (v!"raw_decoded", .method x8), (v!"__add__", .method x9), (v!"__radd__", .method x10), (v!"__mul__", .method x11), (v!"__rmul__", .method x12)])])) 0, str := Error_str H } (fun n => methodsBefore n (classMethods pointNames [(v!"Point", .cls (some .Point) [(v!"__init__", .ctor (Point_init H)), (v!"from_bytes", .fn (Point_from_bytes H)), (v!"from_coordinates", .fn (Point_from_coordinates H)), (v!"underlying_object", .method x3), (v!"x", .method x4), (v!"y", .method x5), (v!"raw", .method x6), (v!"raw_encoded", .method x7), (v!"raw_decoded", .method x8), (v!"__add__", .method x9), (v!"__radd__", .method x10), (v!"__mul__", .method x11), (v!"__rmul__", .method x12)])])) pointTree) = some (.method (Point_underlying_object H)) := by
  by_kernel

theorem point_x_in (H : Host) (x4 : Fn) (x5 : Fn) (x6 : Fn) (x7 : Fn) (x8 : Fn) (x9 : Fn) (x10 : Fn) (x11 : Fn) (x12 : Fn) :
    memOf v!"Point" v!"x" (definitions { lib := library H, scope := [(v!"Point", .cls (some .Point) [(v!"__init__", .ctor (Point_init H)), (v!"from_bytes", .fn (Point_from_bytes H)), (v!"from_coordinates", .fn (Point_from_coordinates H)), (v!"underlying_object", .method (Point_underlying_object H)), (v!"x", .method x4), (v!"y", .method x5), (v!"raw", .method x6), (v!"raw_encoded", .method x7), (v!"raw_decoded", .method x8), (v!"__add__", .method x9), (v!"__radd__", .method x10), (v!"__mul__", .method x11), (v!"__rmul__", .method x12)])] ++ (imports [v!"bip38.secp256k1", v!"bip38"] (PointWorld H) pointTree).getD [], methods := (fun n => methodsBefore n (classMethods pointNames [(v!"Point", .cls (some .Point) [(v!"__init__", .ctor (Point_init H)), (v!"from_bytes", .fn (Point_from_bytes H)), (v!"from_coordinates", .fn (Point_from_coordinates H)), (v!"underlying_object", .method (Point_underlying_object H)), (v!"x", .method x4), (v!"y", .method x5), (v!"raw", .method x6), (v!"raw_encoded", .method x7), (v!"raw_decoded", .method x8), (v!"__add__", .method x9), (v!"__radd__", .method x10), (v!"__mul__", .method x11), (v!"__rmul__", .method x12)])])) 0, str := Error_str H } (fun n => methodsBefore n (classMethods pointNames [(v!"Point", .cls (some .Point) [(v!"__init__", .ctor (Point_init H)), (v!"from_bytes", .fn (Point_from_bytes H)), (v!"from_coordinates", .fn (Point_from_coordinates H)), (v!"underlying_object", .method (Point_underlying_object H)), (v!"x", .method x4), (v!"y", .method x5), (v!"raw", .method x6), (v!"raw_encoded", .method x7), (v!"raw_decoded", .method x8), (v!"__add__", .method x9), (v!"__radd__", .method x10), (v!"__mul__", .method x11), (v!"__rmul__", .method x12)])])) pointTree) = some (.method (Point_x H)) := by
  by_kernel

theorem point_y_in (H : Host) (x5 : Fn) (x6 : Fn) (x7 : Fn) (x8 : Fn) (x9 : Fn) (x10 : Fn) (x11 : Fn) (x12 : Fn) :
    memOf v!"Point" v!"y" (definitions { lib := library H, scope := [(v!"Point", .cls (some .Point) [(v!"__init__", .ctor (Point_init H)), (v!"from_bytes", .fn (Point_from_bytes H)), (v!"from_coordinates", .fn (Point_from_coordinates H)), (v!"underlying_object", .method (Point_underlying_object H)), (v!"x", .method (Point_x H)), (v!"y", .method x5), (v!"raw", .method x6), (v!"raw_encoded", .method x7), (v!"raw_decoded", .method x8), (v!"__add__", .method x9), (v!"__radd__", .method x10), (v!"__mul__", .method x11), (v!"__rmul__", .method x12)])] ++ (imports [v!"bip38.secp256k1", v!"bip38"] (PointWorld H) pointTree).getD [], methods := (fun n => methodsBefore n (classMethods pointNames [(v!"Point", .cls (some .Point) [(v!"__init__", .ctor (Point_init H)), (v!"from_bytes", .fn (Point_from_bytes H)), (v!"from_coordinates", .fn (Point_from_coordinates H)), (v!"underlying_object", .method (Point_underlying_object H)), (v!"x", .method (Point_x H)), (v!"y", .method x5), (v!"raw", .method x6), (v!"raw_encoded", .method x7), (v!"raw_decoded", .method x8), (v!"__add__", .method x9), (v!"__radd__", .method x10), (v!"__mul__", .method x11), (v!"__rmul__", .method x12)])])) 0, str := Error_str H } (fun n => methodsBefore n (classMethods pointNames [(v!"Point", .cls (some .Point) [(v!"__init__", .ctor (Point_init H)), (v!"from_bytes", .fn (Point_from_bytes H)), (v!"from_coordinates", .fn (Point_from_coordinates H)), (v!"underlying_object", .method (Point_underlying_object H)), (v!"x", .method (Point_x H)), (v!"y", .method x5), (v!"raw", .method x6), (v!"raw_encoded", .method x7), (v!"raw_decoded", .method x8), (v!"__add__", .method x9), (v!"__radd__", .method x10), (v!"__mul__", .method x11), (v!"__rmul__", .method x12)])])) pointTree) = some (.method (Point_y H)) := by
  by_kernel

theorem point_raw_encoded_in (H : Host) (x6 : Fn) (x7 : Fn) (x8 : Fn) (x9 : Fn) (x10 : Fn) (x11 : Fn) (x12 : Fn) :
    memOf v!"Point" v!"raw_encoded" (definitions { lib := library H, scope := [(v!"Point", .cls (some .Point) [(v!"__init__", .ctor (Point_init H)), (v!"from_bytes", .fn (Point_from_bytes H)), (v!"from_coordinates", .fn (Point_from_coordinates H)), (v!"underlying_object", .method (Point_underlying_object H)), (v!"x", .method (Point_x H)), (v!"y", .method (Point_y H)), (v!"raw", .method x6), (v!"raw_encoded", .method x7), (v!"raw_decoded", .method x8), (v!"__add__", .method x9), (v!"__radd__", .method x10), (v!"__mul__", .method x11), (v!"__rmul__", .method x12)])] ++ (imports [v!"bip38.secp256k1", v!"bip38"] (PointWorld H) pointTree).getD [], methods := (fun n => methodsBefore n (classMethods pointNames [(v!"Point", .cls (some .Point) [(v!"__init__", .ctor (Point_init H)), (v!"from_bytes", .fn (Point_from_bytes H)), (v!"from_coordinates", .fn (Point_from_coordinates H)), (v!"underlying_object", .method (Point_underlying_object H)), (v!"x", .method (Point_x H)), (v!"y", .method (Point_y H)), (v!"raw", .method x6), (v!"raw_encoded", .method x7), (v!"raw_decoded", .method x8), (v!"__add__", .method x9), (v!"__radd__", .method x10), (v!"__mul__", .method x11), (v!"__rmul__", .method x12)])])) 0, str := Error_str H } (fun n => methodsBefore n (classMethods pointNames [(v!"Point", .cls (some .Point) [(v!"__init__", .ctor (Point_init H)), (v!"from_bytes", .fn (Point_from_bytes H)), (v!"from_coordinates", .fn (Point_from_coordinates H)), (v!"underlying_object", .method (Point_underlying_object H)), (v!"x", .method (Point_x H)), (v!"y", .method (Point_y H)), (v!"raw", .method x6), (v!"raw_encoded", .method x7), (v!"raw_decoded", .method x8), (v!"__add__", .method x9), (v!"__radd__", .method x10), (v!"__mul__", .method x11), (v!"__rmul__", .method x12)])])) pointTree) = some (.method (Point_raw_encoded H)) := by
  by_kernel

theorem point_raw_decoded_in (H : Host) (x6 : Fn) (x8 : Fn) (x9 : Fn) (x10 : Fn) (x11 : Fn) (x12 : Fn) :
    memOf v!"Point" v!"raw_decoded" (definitions { lib := library H, scope := [(v!"Point", .cls (some .Point) [(v!"__init__", .ctor (Point_init H)), (v!"from_bytes", .fn (Point_from_bytes H)), (v!"from_coordinates", .fn (Point_from_coordinates H)), (v!"underlying_object", .method (Point_underlying_object H)), (v!"x", .method (Point_x H)), (v!"y", .method (Point_y H)), (v!"raw", .method x6), (v!"raw_encoded", .method (Point_raw_encoded H)), (v!"raw_decoded", .method x8), (v!"__add__", .method x9), (v!"__radd__", .method x10), (v!"__mul__", .method x11), (v!"__rmul__", .method x12)])] ++ (imports [v!"bip38.secp256k1", v!"bip38"] (PointWorld H) pointTree).getD [], methods := (fun n => methodsBefore n (classMethods pointNames [(v!"Point", .cls (some .Point) [(v!"__init__", .ctor (Point_init H)), (v!"from_bytes", .fn (Point_from_bytes H)), (v!"from_coordinates", .fn (Point_from_coordinates H)), (v!"underlying_object", .method (Point_underlying_object H)), (v!"x", .method (Point_x H)), (v!"y", .method (Point_y H)), (v!"raw", .method x6), (v!"raw_encoded", .method (Point_raw_encoded H)), (v!"raw_decoded", .method x8), (v!"__add__", .method x9), (v!"__radd__", .method x10), (v!"__mul__", .method x11), (v!"__rmul__", .method x12)])])) 0, str := Error_str H } (fun n => methodsBefore n (classMethods pointNames [(v!"Point", .cls (some .Point) [(v!"__init__", .ctor (Point_init H)), (v!"from_bytes", .fn (Point_from_bytes H)), (v!"from_coordinates", .fn (Point_from_coordinates H)), (v!"underlying_object", .method (Point_underlying_object H)), (v!"x", .method (Point_x H)), (v!"y", .method (Point_y H)), (v!"raw", .method x6), (v!"raw_encoded", .method (Point_raw_encoded H)), (v!"raw_decoded", .method x8), (v!"__add__", .method x9), (v!"__radd__", .method x10), (v!"__mul__", .method x11), (v!"__rmul__", .method x12)])])) pointTree) = some (.method (Point_raw_decoded H)) := by
  by_kernel

theorem point_raw_in (H : Host) (x6 : Fn) (x9 : Fn) (x10 : Fn) (x11 : Fn) (x12 : Fn) :
    memOf v!"Point" v!"raw" (definitions { lib := library H, scope := [(v!"Point", .cls (some .Point) [(v!"__init__", .ctor (Point_init H)), (v!"from_bytes", .fn (Point_from_bytes H)), (v!"from_coordinates", .fn (Point_from_coordinates H)), (v!"underlying_object", .method (Point_underlying_object H)), (v!"x", .method (Point_x H)), (v!"y", .method (Point_y H)), (v!"raw", .method x6), (v!"raw_encoded", .method (Point_raw_encoded H)), (v!"raw_decoded", .method (Point_raw_decoded H)), (v!"__add__", .method x9), (v!"__radd__", .method x10), (v!"__mul__", .method x11), (v!"__rmul__", .method x12)])] ++ (imports [v!"bip38.secp256k1", v!"bip38"] (PointWorld H) pointTree).getD [], methods := (fun n => methodsBefore n (classMethods pointNames [(v!"Point", .cls (some .Point) [(v!"__init__", .ctor (Point_init H)), (v!"from_bytes", .fn (Point_from_bytes H)), (v!"from_coordinates", .fn (Point_from_coordinates H)), (v!"underlying_object", .method (Point_underlying_object H)), (v!"x", .method (Point_x H)), (v!"y", .method (Point_y H)), (v!"raw", .method x6), (v!"raw_encoded", .method (Point_raw_encoded H)), (v!"raw_decoded", .method (Point_raw_decoded H)), (v!"__add__", .method x9), (v!"__radd__", .method x10), (v!"__mul__", .method x11), (v!"__rmul__", .method x12)])])) 0, str := Error_str H } (fun n => methodsBefore n (classMethods pointNames [(v!"Point", .cls (some .Point) [(v!"__init__", .ctor (Point_init H)), (v!"from_bytes", .fn (Point_from_bytes H)), (v!"from_coordinates", .fn (Point_from_coordinates H)), (v!"underlying_object", .method (Point_underlying_object H)), (v!"x", .method (Point_x H)), (v!"y", .method (Point_y H)), (v!"raw", .method x6), (v!"raw_encoded", .method (Point_raw_encoded H)), (v!"raw_decoded", .method (Point_raw_decoded H)), (v!"__add__", .method x9), (v!"__radd__", .method x10), (v!"__mul__", .method x11), (v!"__rmul__", .method x12)])])) pointTree) = some (.method (Point_raw H)) := by
  by_kernel

theorem point_add_in (H : Host) (x9 : Fn) (x10 : Fn) (x11 : Fn) (x12 : Fn) :
    memOf v!"Point" v!"__add__" (definitions { lib := library H, scope := [(v!"Point", .cls (some .Point) [(v!"__init__", .ctor (Point_init H)), (v!"from_bytes", .fn (Point_from_bytes H)), (v!"from_coordinates", .fn (Point_from_coordinates H)), (v!"underlying_object", .method (Point_underlying_object H)), (v!"x", .method (Point_x H)), (v!"y", .method (Point_y H)), (v!"raw", .method (Point_raw H)), (v!"raw_encoded", .method (Point_raw_encoded H)), (v!"raw_decoded", .method (Point_raw_decoded H)), (v!"__add__", .method x9), (v!"__radd__", .method x10), (v!"__mul__", .method x11), (v!"__rmul__", .method x12)])] ++ (imports [v!"bip38.secp256k1", v!"bip38"] (PointWorld H) pointTree).getD [], methods := (fun n => methodsBefore n (classMethods pointNames [(v!"Point", .cls (some .Point) [(v!"__init__", .ctor (Point_init H)), (v!"from_bytes", .fn (Point_from_bytes H)), (v!"from_coordinates", .fn (Point_from_coordinates H)), (v!"underlying_object", .method (Point_underlying_object H)), (v!"x", .method (Point_x H)), (v!"y", .method (Point_y H)), (v!"raw", .method (Point_raw H)), (v!"raw_encoded", .method (Point_raw_encoded H)), (v!"raw_decoded", .method (Point_raw_decoded H)), (v!"__add__", .method x9), (v!"__radd__", .method x10), (v!"__mul__", .method x11), (v!"__rmul__", .method x12)])])) 0, str := Error_str H } (fun n => methodsBefore n (classMethods pointNames [(v!"Point", .cls (some .Point) [(v!"__init__", .ctor (Point_init H)), (v!"from_bytes", .fn (Point_from_bytes H)), (v!"from_coordinates", .fn (Point_from_coordinates H)), (v!"underlying_object", .method (Point_underlying_object H)), (v!"x", .method (Point_x H)), (v!"y", .method (Point_y H)), (v!"raw", .method (Point_raw H)), (v!"raw_encoded", .method (Point_raw_encoded H)), (v!"raw_decoded", .method (Point_raw_decoded H)), (v!"__add__", .method x9), (v!"__radd__", .method x10), (v!"__mul__", .method x11), (v!"__rmul__", .method x12)])])) pointTree) = some (.method (Point_add H)) := by
  by_kernel

theorem point_radd_in (H : Host) (x10 : Fn) (x11 : Fn) (x12 : Fn) :
    memOf v!"Point" v!"__radd__" (definitions { lib := library H, scope := [(v!"Point", .cls (some .Point) [(v!"__init__", .ctor (Point_init H)), (v!"from_bytes", .fn (Point_from_bytes H)), (v!"from_coordinates", .fn (Point_from_coordinates H)), (v!"underlying_object", .method (Point_underlying_object H)), (v!"x", .method (Point_x H)), (v!"y", .method (Point_y H)), (v!"raw", .method (Point_raw H)), (v!"raw_encoded", .method (Point_raw_encoded H)), (v!"raw_decoded", .method (Point_raw_decoded H)), (v!"__add__", .method (Point_add H)), (v!"__radd__", .method x10), (v!"__mul__", .method x11), (v!"__rmul__", .method x12)])] ++ (imports [v!"bip38.secp256k1", v!"bip38"] (PointWorld H) pointTree).getD [], methods := (fun n => methodsBefore n (classMethods pointNames [(v!"Point", .cls (some .Point) [(v!"__init__", .ctor (Point_init H)), (v!"from_bytes", .fn (Point_from_bytes H)), (v!"from_coordinates", .fn (Point_from_coordinates H)), (v!"underlying_object", .method (Point_underlying_object H)), (v!"x", .method (Point_x H)), (v!"y", .method (Point_y H)), (v!"raw", .method (Point_raw H)), (v!"raw_encoded", .method (Point_raw_encoded H)), (v!"raw_decoded", .method (Point_raw_decoded H)), (v!"__add__", .method (Point_add H)), (v!"__radd__", .method x10), (v!"__mul__", .method x11), (v!"__rmul__", .method x12)])])) 0, str := Error_str H } (fun n => methodsBefore n (classMethods pointNames [(v!"Point", .cls (some .Point) [(v!"__init__", .ctor (Point_init H)), (v!"from_bytes", .fn (Point_from_bytes H)), (v!"from_coordinates", .fn (Point_from_coordinates H)), (v!"underlying_object", .method (Point_underlying_object H)), (v!"x", .method (Point_x H)), (v!"y", .method (Point_y H)), (v!"raw", .method (Point_raw H)), (v!"raw_encoded", .method (Point_raw_encoded H)), (v!"raw_decoded", .method (Point_raw_decoded H)), (v!"__add__", .method (Point_add H)), (v!"__radd__", .method x10), (v!"__mul__", .method x11), (v!"__rmul__", .method x12)])])) pointTree) = some (.method (Point_radd H)) := by
  by_kernel

theorem point_mul_in (H : Host) (x11 : Fn) (x12 : Fn) :
    memOf v!"Point" v!"__mul__" (definitions { lib := library H, scope := [(v!"Point", .cls (some .Point) [(v!"__init__", .ctor (Point_init H)), (v!"from_bytes", .fn (Point_from_bytes H)), (v!"from_coordinates", .fn (Point_from_coordinates H)), (v!"underlying_object", .method (Point_underlying_object H)), (v!"x", .method (Point_x H)), (v!"y", .method (Point_y H)), (v!"raw", .method (Point_raw H)), (v!"raw_encoded", .method (Point_raw_encoded H)), (v!"raw_decoded", .method (Point_raw_decoded H)), (v!"__add__", .method (Point_add H)), (v!"__radd__", .method (Point_radd H)), (v!"__mul__", .method x11), (v!"__rmul__", .method x12)])] ++ (imports [v!"bip38.secp256k1", v!"bip38"] (PointWorld H) pointTree).getD [], methods := (fun n => methodsBefore n (classMethods pointNames [(v!"Point", .cls (some .Point) [(v!"__init__", .ctor (Point_init H)), (v!"from_bytes", .fn (Point_from_bytes H)), (v!"from_coordinates", .fn (Point_from_coordinates H)), (v!"underlying_object", .method (Point_underlying_object H)), (v!"x", .method (Point_x H)), (v!"y", .method (Point_y H)), (v!"raw", .method (Point_raw H)), (v!"raw_encoded", .method (Point_raw_encoded H)), (v!"raw_decoded", .method (Point_raw_decoded H)), (v!"__add__", .method (Point_add H)), (v!"__radd__", .method (Point_radd H)), (v!"__mul__", .method x11), (v!"__rmul__", .method x12)])])) 0, str := Error_str H } (fun n => methodsBefore n (classMethods pointNames [(v!"Point", .cls (some .Point) [(v!"__init__", .ctor (Point_init H)), (v!"from_bytes", .fn (Point_from_bytes H)), (v!"from_coordinates", .fn (Point_from_coordinates H)), (v!"underlying_object", .method (Point_underlying_object H)), (v!"x", .method (Point_x H)), (v!"y", .method (Point_y H)), (v!"raw", .method (Point_raw H)), (v!"raw_encoded", .method (Point_raw_encoded H)), (v!"raw_decoded", .method (Point_raw_decoded H)), (v!"__add__", .method (Point_add H)), (v!"__radd__", .method (Point_radd H)), (v!"__mul__", .method x11), (v!"__rmul__", .method x12)])])) pointTree) = some (.method (Point_mul H)) := by
  by_kernel

theorem point_rmul_in (H : Host) (x12 : Fn) :
    memOf v!"Point" v!"__rmul__" (definitions { lib := library H, scope := [(v!"Point", .cls (some .Point) [(v!"__init__", .ctor (Point_init H)), (v!"from_bytes", .fn (Point_from_bytes H)), (v!"from_coordinates", .fn (Point_from_coordinates H)), (v!"underlying_object", .method (Point_underlying_object H)), (v!"x", .method (Point_x H)), (v!"y", .method (Point_y H)), (v!"raw", .method (Point_raw H)), (v!"raw_encoded", .method (Point_raw_encoded H)), (v!"raw_decoded", .method (Point_raw_decoded H)), (v!"__add__", .method (Point_add H)), (v!"__radd__", .method (Point_radd H)), (v!"__mul__", .method (Point_mul H)), (v!"__rmul__", .method x12)])] ++ (imports [v!"bip38.secp256k1", v!"bip38"] (PointWorld H) pointTree).getD [], methods := (fun n => methodsBefore n (classMethods pointNames [(v!"Point", .cls (some .Point) [(v!"__init__", .ctor (Point_init H)), (v!"from_bytes", .fn (Point_from_bytes H)), (v!"from_coordinates", .fn (Point_from_coordinates H)), (v!"underlying_object", .method (Point_underlying_object H)), (v!"x", .method (Point_x H)), (v!"y", .method (Point_y H)), (v!"raw", .method (Point_raw H)), (v!"raw_encoded", .method (Point_raw_encoded H)), (v!"raw_decoded", .method (Point_raw_decoded H)), (v!"__add__", .method (Point_add H)), (v!"__radd__", .method (Point_radd H)), (v!"__mul__", .method (Point_mul H)), (v!"__rmul__", .method x12)])])) 0, str := Error_str H } (fun n => methodsBefore n (classMethods pointNames [(v!"Point", .cls (some .Point) [(v!"__init__", .ctor (Point_init H)), (v!"from_bytes", .fn (Point_from_bytes H)), (v!"from_coordinates", .fn (Point_from_coordinates H)), (v!"underlying_object", .method (Point_underlying_object H)), (v!"x", .method (Point_x H)), (v!"y", .method (Point_y H)), (v!"raw", .method (Point_raw H)), (v!"raw_encoded", .method (Point_raw_encoded H)), (v!"raw_decoded", .method (Point_raw_decoded H)), (v!"__add__", .method (Point_add H)), (v!"__radd__", .method (Point_radd H)), (v!"__mul__", .method (Point_mul H)), (v!"__rmul__", .method x12)])])) pointTree) = some (.method (Point_rmul H)) := by
  by_kernel

theorem point_in (H : Host) (ypublicKey yprivateKey ysecp256k1 ywif yp2pkhAddress ybip38 : Scope) {x : Scope} (h : Defines H (strOf (ExceptionsDefs H)) [v!"bip38.secp256k1", v!"bip38"] (Modules.world ⟨(ExceptionsDefs H), (ConstDefs H), (UtilsDefs H), (Ripemd160Defs H), (CryptoDefs H), (Base58Defs H), x, ypublicKey, yprivateKey, ysecp256k1, ywif, yp2pkhAddress, ybip38⟩) (fun n => methodsBefore n (classMethods pointNames x)) PointText x) : x = PointDefs H := by
  rw [strOf_eq] at h
  obtain ⟨tree, ins, hp, hi, hd⟩ := h
  obtain rfl := Option.some.inj (point_parse.symm.trans hp)
  obtain rfl := Option.some.inj ((point_imports_in H x ypublicKey yprivateKey ysecp256k1 ywif yp2pkhAddress ybip38).symm.trans hi)
  have hk0 := (point_shape ▸ shape_eq hd : _ = _)
  obtain ⟨ms, d, rfl, hm0, hk1⟩ := key_cls hk0
  obtain rfl := key_nil hk1
  obtain ⟨x0, d0, rfl, hm1⟩ := mem_ctor hm0
  obtain ⟨x1, d1, rfl, hm2⟩ := mem_fn hm1
  obtain ⟨x2, d2, rfl, hm3⟩ := mem_fn hm2
  obtain ⟨x3, d3, rfl, hm4⟩ := mem_method hm3
  obtain ⟨x4, d4, rfl, hm5⟩ := mem_method hm4
  obtain ⟨x5, d5, rfl, hm6⟩ := mem_method hm5
  obtain ⟨x6, d6, rfl, hm7⟩ := mem_method hm6
  obtain ⟨x7, d7, rfl, hm8⟩ := mem_method hm7
  obtain ⟨x8, d8, rfl, hm9⟩ := mem_method hm8
  obtain ⟨x9, d9, rfl, hm10⟩ := mem_method hm9
  obtain ⟨x10, d10, rfl, hm11⟩ := mem_method hm10
  obtain ⟨x11, d11, rfl, hm12⟩ := mem_method hm11
  obtain ⟨x12, d12, rfl, hm13⟩ := mem_method hm12
  obtain rfl := mem_nil hm13
  obtain rfl := Mem.ctor.inj (Option.some.inj ((point_init_in H x0 x1 x2 x3 x4 x5 x6 x7 x8 x9 x10 x11 x12).symm.trans (congrArg (memOf v!"Point" v!"__init__") hd)))
  obtain rfl := Mem.fn.inj (Option.some.inj ((point_from_coordinates_in H x1 x2 x3 x4 x5 x6 x7 x8 x9 x10 x11 x12).symm.trans (congrArg (memOf v!"Point" v!"from_coordinates") hd)))
  obtain rfl := Mem.fn.inj (Option.some.inj ((point_from_bytes_in H x1 x3 x4 x5 x6 x7 x8 x9 x10 x11 x12).symm.trans (congrArg (memOf v!"Point" v!"from_bytes") hd)))
  obtain rfl := Mem.method.inj (Option.some.inj ((point_underlying_object_in H x3 x4 x5 x6 x7 x8 x9 x10 x11 x12).symm.trans (congrArg (memOf v!"Point" v!"underlying_object") hd)))
  obtain rfl := Mem.method.inj (Option.some.inj ((point_x_in H x4 x5 x6 x7 x8 x9 x10 x11 x12).symm.trans (congrArg (memOf v!"Point" v!"x") hd)))
  obtain rfl := Mem.method.inj (Option.some.inj ((point_y_in H x5 x6 x7 x8 x9 x10 x11 x12).symm.trans (congrArg (memOf v!"Point" v!"y") hd)))
  obtain rfl := Mem.method.inj (Option.some.inj ((point_raw_encoded_in H x6 x7 x8 x9 x10 x11 x12).symm.trans (congrArg (memOf v!"Point" v!"raw_encoded") hd)))
  obtain rfl := Mem.method.inj (Option.some.inj ((point_raw_decoded_in H x6 x8 x9 x10 x11 x12).symm.trans (congrArg (memOf v!"Point" v!"raw_decoded") hd)))
  obtain rfl := Mem.method.inj (Option.some.inj ((point_raw_in H x6 x9 x10 x11 x12).symm.trans (congrArg (memOf v!"Point" v!"raw") hd)))
  obtain rfl := Mem.method.inj (Option.some.inj ((point_add_in H x9 x10 x11 x12).symm.trans (congrArg (memOf v!"Point" v!"__add__") hd)))
  obtain rfl := Mem.method.inj (Option.some.inj ((point_radd_in H x10 x11 x12).symm.trans (congrArg (memOf v!"Point" v!"__radd__") hd)))
  obtain rfl := Mem.method.inj (Option.some.inj ((point_mul_in H x11 x12).symm.trans (congrArg (memOf v!"Point" v!"__mul__") hd)))
  obtain rfl := Mem.method.inj (Option.some.inj ((point_rmul_in H x12).symm.trans (congrArg (memOf v!"Point" v!"__rmul__") hd)))
  rfl

/-! ### `bip38/secp256k1/public_key.py` -/

theorem publicKey_imports_in (H : Host) (x : Scope) (yprivateKey ysecp256k1 ywif yp2pkhAddress ybip38 : Scope) :
    imports [v!"bip38.secp256k1", v!"bip38"] (Modules.world ⟨(ExceptionsDefs H), (ConstDefs H), (UtilsDefs H), (Ripemd160Defs H), (CryptoDefs H), (Base58Defs H), (PointDefs H), x, yprivateKey, ysecp256k1, ywif, yp2pkhAddress, ybip38⟩) publicKeyTree = some ((imports [v!"bip38.secp256k1", v!"bip38"] (PublicKeyWorld H) publicKeyTree).getD []) := by by_kernel

theorem publicKey_init_in (H : Host) (x0 : Fn) (x1 : Fn) (x2 : Fn) (x3 : Fn) (x4 : Fn) (x5 : Fn) (x6 : Fn) (x7 : Fn) (x8 : Fn) (x9 : Fn) :
    memOf v!"PublicKey" v!"__init__" (definitions { lib := library H, scope := [(v!"PublicKey", .cls (some .PublicKey) [(v!"__init__", .ctor x0), (v!"from_bytes", .fn x1), (v!"from_point", .fn x2), (v!"compressed_length", .fn x3), (v!"uncompressed_length", .fn x4), (v!"underlying_object", .method x5), (v!"raw", .method x6), (v!"raw_compressed", .method x7), (v!"raw_uncompressed", .method x8), (v!"point", .method x9)])] ++ (imports [v!"bip38.secp256k1", v!"bip38"] (PublicKeyWorld H) publicKeyTree).getD [], methods := (fun n => allMethods (PointOrder H) ++ methodsBefore n (classMethods publicKeyNames [(v!"PublicKey", .cls (some .PublicKey) [(v!"__init__", .ctor x0), (v!"from_bytes", .fn x1), (v!"from_point", .fn x2), (v!"compressed_length", .fn x3), (v!"uncompressed_length", .fn x4), (v!"underlying_object", .method x5), (v!"raw", .method x6), (v!"raw_compressed", .method x7), (v!"raw_uncompressed", .method x8), (v!"point", .method x9)])])) 0, str := Error_str H } (fun n => allMethods (PointOrder H) ++ methodsBefore n (classMethods publicKeyNames [(v!"PublicKey", .cls (some .PublicKey) [(v!"__init__", .ctor x0), (v!"from_bytes", .fn x1), (v!"from_point", .fn x2), (v!"compressed_length", .fn x3), (v!"uncompressed_length", .fn x4), (v!"underlying_object", .method x5), (v!"raw", .method x6), (v!"raw_compressed", .method x7), (v!"raw_uncompressed", .method x8), (v!"point", .method x9)])])) publicKeyTree) = some (.ctor (PublicKey_init H)) := by
  by_kernel

theorem publicKey_from_bytes_in (H : Host) (x1 : Fn) (x2 : Fn) (x3 : Fn) (x4 : Fn) (x5 : Fn) (x6 : Fn) (x7 : Fn) (x8 : Fn) (x9 : Fn) :
    memOf v!"PublicKey" v!"from_bytes" (definitions { lib := library H, scope := [(v!"PublicKey", .cls (some .PublicKey) [(v!"__init__", .ctor (PublicKey_init H)), (v!"from_bytes", .fn x1), (v!"from_point", .fn x2), (v!"compressed_length", .fn x3), (v!"uncompressed_length", .fn x4), (v!"underlying_object", .method x5), (v!"raw", .method x6), (v!"raw_compressed", .method x7), (v!"raw_uncompressed", .method x8), (v!"point", .method x9)])] ++ (imports [v!"bip38.secp256k1", v!"bip38"] (PublicKeyWorld H) publicKeyTree).getD [], methods := (fun n => allMethods (PointOrder H) ++ methodsBefore n (classMethods publicKeyNames [(v!"PublicKey", .cls (some .PublicKey) [(v!"__init__", .ctor (PublicKey_init H)), (v!"from_bytes", .fn x1), (v!"from_point", .fn x2), (v!"compressed_length", .fn x3), (v!"uncompressed_length", .fn x4), (v!"underlying_object", .method x5), (v!"raw", .method x6), (v!"raw_compressed", .method x7), (v!"raw_uncompressed", .method x8), (v!"point", .method x9)])])) 0, str := Error_str H } (fun n => allMethods (PointOrder H) ++ methodsBefore n (classMethods publicKeyNames [(v!"PublicKey", .cls (some .PublicKey) [(v!"__init__", .ctor (PublicKey_init H)), (v!"from_bytes", .fn x1), (v!"from_point", .fn x2), (v!"compressed_length", .fn x3), (v!"uncompressed_length", .fn x4), (v!"underlying_object", .method x5), (v!"raw", .method x6), (v!"raw_compressed", .method x7), (v!"raw_uncompressed", .method x8), (v!"point", .method x9)])])) publicKeyTree) = some (.fn (PublicKey_from_bytes H)) := by
  by_kernel

theorem publicKey_from_point_in (H : Host) (x2 : Fn) (x3 : Fn) (x4 : Fn) (x5 : Fn) (x6 : Fn) (x7 : Fn) (x8 : Fn) (x9 : Fn) :
    memOf v!"PublicKey" v!"from_point" (definitions { lib := library H, scope := [(v!"PublicKey", .cls (some .PublicKey) [(v!"__init__", .ctor (PublicKey_init H)), (v!"from_bytes", .fn (PublicKey_from_bytes H)), (v!"from_point", .fn x2), (v!"compressed_length", .fn x3), (v!"uncompressed_length", .fn x4), (v!"underlying_object", .method x5), (v!"raw", .method x6), (v!"raw_compressed", .method x7), (v!"raw_uncompressed", .method x8), (v!"point", .method x9)])] ++ (imports [v!"bip38.secp256k1", v!"bip38"] (PublicKeyWorld H) publicKeyTree).getD [], methods := (fun n => allMethods (PointOrder H) ++ methodsBefore n (classMethods publicKeyNames [(v!"PublicKey", .cls (some .PublicKey) [(v!"__init__", .ctor (PublicKey_init H)), (v!"from_bytes", .fn (PublicKey_from_bytes H)), (v!"from_point", .fn x2), (v!"compressed_length", .fn x3), (v!"uncompressed_length", .fn x4), (v!"underlying_object", .method x5), (v!"raw", .method x6), (v!"raw_compressed", .method x7), (v!"raw_uncompressed", .method x8), (v!"point", .method x9)])])) 0, str := Error_str H } (fun n => allMethods (PointOrder H) ++ methodsBefore n (classMethods publicKeyNames [(v!"PublicKey", .cls (some .PublicKey) [(v!"__init__", .ctor (PublicKey_init H)), (v!"from_bytes", .fn (PublicKey_from_bytes H)), (v!"from_point", .fn x2), (v!"compressed_length", .fn x3), (v!"uncompressed_length", .fn x4), (v!"underlying_object", .method x5), (v!"raw", .method x6), (v!"raw_compressed", .method x7), (v!"raw_uncompressed", .method x8), (v!"point", .method x9)])])) publicKeyTree) = some (.fn (PublicKey_from_point H)) := by
  by_kernel

theorem publicKey_compressed_length_in (H : Host) (x3 : Fn) (x4 : Fn) (x5 : Fn) (x6 : Fn) (x7 : Fn) (x8 : Fn) (x9 : Fn) :
    memOf v!"PublicKey" v!"compressed_length" (definitions { lib := library H, scope := [(v!"PublicKey", .cls (some .PublicKey) [(v!"__init__", .ctor (PublicKey_init H)), (v!"from_bytes", .fn (PublicKey_from_bytes H)), (v!"from_point", .fn (PublicKey_from_point H)), (v!"compressed_length", .fn x3), (v!"uncompressed_length", .fn x4), (v!"underlying_object", .method x5), (v!"raw", .method x6), (v!"raw_compressed", .method x7), (v!"raw_uncompressed", .method x8), (v!"point", .method x9)])] ++ (imports [v!"bip38.secp256k1", v!"bip38"] (PublicKeyWorld H) publicKeyTree).getD [], methods := (fun n => allMethods (PointOrder H) ++ methodsBefore n (classMethods publicKeyNames [(v!"PublicKey", .cls (some .PublicKey) [(v!"__init__", .ctor (PublicKey_init H)), (v!"from_bytes", .fn (PublicKey_from_bytes H)), (v!"from_point", .fn (PublicKey_from_point H)), (v!"compressed_length", .fn x3), (v!"uncompressed_length", .fn x4), (v!"underlying_object", .method x5), (v!"raw", .method x6), (v!"raw_compressed", .method x7), (v!"raw_uncompressed", .method x8), (v!"point", .method x9)])])) 0, str := Error_str H } (fun n => allMethods (PointOrder H) ++ methodsBefore n (classMethods publicKeyNames [(v!"PublicKey", .cls (some .PublicKey) [(v!"__init__", .ctor (PublicKey_init H)), (v!"from_bytes", .fn (PublicKey_from_bytes H)), (v!"from_point", .fn (PublicKey_from_point H)), (v!"compressed_length", .fn x3), (v!"uncompressed_length", .fn x4), (v!"underlying_object", .method x5), (v!"raw", .method x6), (v!"raw_compressed", .method x7), (v!"raw_uncompressed", .method x8), (v!"point", .method x9)])])) publicKeyTree) = some (.fn (PublicKey_compressed_length H)) := by
  by_kernel

theorem publicKey_uncompressed_length_in (H : Host) (x4 : Fn) (x5 : Fn) (x6 : Fn) (x7 : Fn) (x8 : Fn) (x9 : Fn) :
    memOf v!"PublicKey" v!"uncompressed_length" (definitions { lib := library H, scope := [(v!"PublicKey", .cls (some .PublicKey) [(v!"__init__", .ctor (PublicKey_init H)), (v!"from_bytes", .fn (PublicKey_from_bytes H)), (v!"from_point", .fn (PublicKey_from_point H)), (v!"compressed_length", .fn (PublicKey_compressed_length H)), (v!"uncompressed_length", .fn x4), (v!"underlying_object", .method x5), (v!"raw", .method x6), (v!"raw_compressed", .method x7), (v!"raw_uncompressed", .method x8), (v!"point", .method x9)])] ++ (imports [v!"bip38.secp256k1", v!"bip38"] (PublicKeyWorld H) publicKeyTree).getD [], methods := (fun n => allMethods (PointOrder H) ++ methodsBefore n (classMethods publicKeyNames [(v!"PublicKey", .cls (some .PublicKey) [(v!"__init__", .ctor (PublicKey_init H)), (v!"from_bytes", .fn (PublicKey_from_bytes H)), (v!"from_point", .fn (PublicKey_from_point H)), (v!"compressed_length", .fn (PublicKey_compressed_length H)), (v!"uncompressed_length", .fn x4), (v!"underlying_object", .method x5), (v!"raw", .method x6), (v!"raw_compressed", .method x7), (v!"raw_uncompressed", .method x8), (v!"point", .method x9)])])) 0, str := Error_str H } (fun n => allMethods (PointOrder H) ++ methodsBefore n (classMethods publicKeyNames [(v!"PublicKey", .cls (some .PublicKey) [(v!"__init__", .ctor (PublicKey_init H)), (v!"from_bytes", .fn (PublicKey_from_bytes H)), (v!"from_point", .fn (PublicKey_from_point H)), (v!"compressed_length", .fn (PublicKey_compressed_length H)), (v!"uncompressed_length", .fn x4), (v!"underlying_object", .method x5), (v!"raw", .method x6), (v!"raw_compressed", .method x7), (v!"raw_uncompressed", .method x8), (v!"point", .method x9)])])) publicKeyTree) = some (.fn (PublicKey_uncompressed_length H)) := by
  by_kernel

theorem publicKey_underlying_object_in (H : Host) (x5 : Fn) (x6 : Fn) (x7 : Fn) (x8 : Fn) (x9 : Fn) :
    memOf v!"PublicKey" v!"underlying_object" (definitions { lib := library H, scope := [(v!"PublicKey", .cls (some .PublicKey) [(v!"__init__", .ctor (PublicKey_init H)), (v!"from_bytes", .fn (PublicKey_from_bytes H)), (v!"from_point", .fn (PublicKey_from_point H)), (v!"compressed_length", .fn (PublicKey_compressed_length H)), (v!"uncompressed_length", .fn (PublicKey_uncompressed_length H)), (v!"underlying_object", .method x5), (v!"raw", .method x6), (v!"raw_compressed", .method x7), (v!"raw_uncompressed", .method x8), (v!"point", .method x9)])] ++ (imports [v!"bip38.secp256k1", v!"bip38"] (PublicKeyWorld H) publicKeyTree).getD [], methods := (fun n => allMethods (PointOrder H) ++ methodsBefore n (classMethods publicKeyNames [(v!"PublicKey", .cls (some .PublicKey) [(v!"__init__", .ctor (PublicKey_init H)), (v!"from_bytes", .fn (PublicKey_from_bytes H)), (v!"from_point", .fn (PublicKey_from_point H)), (v!"compressed_length", .fn (PublicKey_compressed_length H)), (v!"uncompressed_length", .fn (PublicKey_uncompressed_length H)), (v!"underlying_object", .method x5), (v!"raw", .method x6), (v!"raw_compressed", .method x7), (v!"raw_uncompressed", .method x8), (v!"point", .method x9)])])) 0, str := Error_str H } (fun n => allMethods (PointOrder H) ++ methodsBefore n (classMethods publicKeyNames [(v!"PublicKey", .cls (some .PublicKey) [(v!"__init__", .ctor (PublicKey_init H)), (v!"from_bytes", .fn (PublicKey_from_bytes H)), (v!"from_point", .fn (PublicKey_from_point H)), (v!"compressed_length", .fn (PublicKey_compressed_length H)), (v!"uncompressed_length", .fn (PublicKey_uncompressed_length H)), (v!"underlying_object", .method x5), (v!"raw", .method x6), (v!"raw_compressed", .method x7), (v!"raw_uncompressed", .method x8), (v!"point", .method x9)])])) publicKeyTree) = some (.method (PublicKey_underlying_object H)) := by
  by_kernel

theorem publicKey_raw_compressed_in (H : Host) (x6 : Fn) (x7 : Fn) (x8 : Fn) (x9 : Fn) :
    memOf v!"PublicKey" v!"raw_compressed" (definitions { lib := library H, scope := [(v!"PublicKey", .cls (some .PublicKey) [(v!"__init__", .ctor (PublicKey_init H)), (v!"from_bytes", .fn (PublicKey_from_bytes H)), (v!"from_point", .fn (PublicKey_from_point H)), (v!"compressed_length", .fn (PublicKey_compressed_length H)), (v!"uncompressed_length", .fn (PublicKey_uncompressed_length H)), (v!"underlying_object", .method (PublicKey_underlying_object H)), (v!"raw", .method x6), (v!"raw_compressed", .method x7), (v!"raw_uncompressed", .method x8), (v!"point", .method x9)])] ++ (imports [v!"bip38.secp256k1", v!"bip38"] (PublicKeyWorld H) publicKeyTree).getD [], methods := (fun n => allMethods (PointOrder H) ++ methodsBefore n (classMethods publicKeyNames [(v!"PublicKey", .cls (some .PublicKey) [(v!"__init__", .ctor (PublicKey_init H)), (v!"from_bytes", .fn (PublicKey_from_bytes H)), (v!"from_point", .fn (PublicKey_from_point H)), (v!"compressed_length", .fn (PublicKey_compressed_length H)), (v!"uncompressed_length", .fn (PublicKey_uncompressed_length H)), (v!"underlying_object", .method (PublicKey_underlying_object H)), (v!"raw", .method x6), (v!"raw_compressed", .method x7), (v!"raw_uncompressed", .method x8), (v!"point", .method x9)])])) 0, str := Error_str H } (fun n => allMethods (PointOrder H) ++ methodsBefore n (classMethods publicKeyNames [(v!"PublicKey", .cls (some .PublicKey) [(v!"__init__", .ctor (PublicKey_init H)), (v!"from_bytes", .fn (PublicKey_from_bytes H)), (v!"from_point", .fn (PublicKey_from_point H)), (v!"compressed_length", .fn (PublicKey_compressed_length H)), (v!"uncompressed_length", .fn (PublicKey_uncompressed_length H)), (v!"underlying_object", .method (PublicKey_underlying_object H)), (v!"raw", .method x6), (v!"raw_compressed", .method x7), (v!"raw_uncompressed", .method x8), (v!"point", .method x9)])])) publicKeyTree) = some (.method (PublicKey_raw_compressed H)) := by
  by_kernel

theorem publicKey_raw_uncompressed_in (H : Host) (x6 : Fn) (x8 : Fn) (x9 : Fn) :
    memOf v!"PublicKey" v!"raw_uncompressed" (definitions { lib := library H, scope := [(v!"PublicKey", .cls (some .PublicKey) [(v!"__init__", .ctor (PublicKey_init H)), (v!"from_bytes", .fn (PublicKey_from_bytes H)), (v!"from_point", .fn (PublicKey_from_point H)), (v!"compressed_length", .fn (PublicKey_compressed_length H)), (v!"uncompressed_length", .fn (PublicKey_uncompressed_length H)), (v!"underlying_object", .method (PublicKey_underlying_object H)), (v!"raw", .method x6), (v!"raw_compressed", .method (PublicKey_raw_compressed H)), (v!"raw_uncompressed", .method x8), (v!"point", .method x9)])] ++ (imports [v!"bip38.secp256k1", v!"bip38"] (PublicKeyWorld H) publicKeyTree).getD [], methods := (fun n => allMethods (PointOrder H) ++ methodsBefore n (classMethods publicKeyNames [(v!"PublicKey", .cls (some .PublicKey) [(v!"__init__", .ctor (PublicKey_init H)), (v!"from_bytes", .fn (PublicKey_from_bytes H)), (v!"from_point", .fn (PublicKey_from_point H)), (v!"compressed_length", .fn (PublicKey_compressed_length H)), (v!"uncompressed_length", .fn (PublicKey_uncompressed_length H)), (v!"underlying_object", .method (PublicKey_underlying_object H)), (v!"raw", .method x6), (v!"raw_compressed", .method (PublicKey_raw_compressed H)), (v!"raw_uncompressed", .method x8), (v!"point", .method x9)])])) 0, str := Error_str H } (fun n => allMethods (PointOrder H) ++ methodsBefore n (classMethods publicKeyNames [(v!"PublicKey", .cls (some .PublicKey) [(v!"__init__", .ctor (PublicKey_init H)), (v!"from_bytes", .fn (PublicKey_from_bytes H)), (v!"from_point", .fn (PublicKey_from_point H)), (v!"compressed_length", .fn (PublicKey_compressed_length H)), (v!"uncompressed_length", .fn (PublicKey_uncompressed_length H)), (v!"underlying_object", .method (PublicKey_underlying_object H)), (v!"raw", .method x6), (v!"raw_compressed", .method (PublicKey_raw_compressed H)), (v!"raw_uncompressed", .method x8), (v!"point", .method x9)])])) publicKeyTree) = some (.method (PublicKey_raw_uncompressed H)) := by
  by_kernel

theorem publicKey_raw_in (H : Host) (x6 : Fn) (x9 : Fn) :
    memOf v!"PublicKey" v!"raw" (definitions { lib := library H, scope := [(v!"PublicKey", .cls (some .PublicKey) [(v!"__init__", .ctor (PublicKey_init H)), (v!"from_bytes", .fn (PublicKey_from_bytes H)), (v!"from_point", .fn (PublicKey_from_point H)), (v!"compressed_length", .fn (PublicKey_compressed_length H)), (v!"uncompressed_length", .fn (PublicKey_uncompressed_length H)), (v!"underlying_object", .method (PublicKey_underlying_object H)), (v!"raw", .method x6), (v!"raw_compressed", .method (PublicKey_raw_compressed H)), (v!"raw_uncompressed", .method (PublicKey_raw_uncompressed H)), (v!"point", .method x9)])] ++ (imports [v!"bip38.secp256k1", v!"bip38"] (PublicKeyWorld H) publicKeyTree).getD [], methods := (fun n => allMethods (PointOrder H) ++ methodsBefore n (classMethods publicKeyNames [(v!"PublicKey", .cls (some .PublicKey) [(v!"__init__", .ctor (PublicKey_init H)), (v!"from_bytes", .fn (PublicKey_from_bytes H)), (v!"from_point", .fn (PublicKey_from_point H)), (v!"compressed_length", .fn (PublicKey_compressed_length H)), (v!"uncompressed_length", .fn (PublicKey_uncompressed_length H)), (v!"underlying_object", .method (PublicKey_underlying_object H)), (v!"raw", .method x6), (v!"raw_compressed", .method (PublicKey_raw_compressed H)), (v!"raw_uncompressed", .method (PublicKey_raw_uncompressed H)), (v!"point", .method x9)])])) 0, str := Error_str H } (fun n => allMethods (PointOrder H) ++ methodsBefore n (classMethods publicKeyNames [(v!"PublicKey", .cls (some .PublicKey) [(v!"__init__", .ctor (PublicKey_init H)), (v!"from_bytes", .fn (PublicKey_from_bytes H)), (v!"from_point", .fn (PublicKey_from_point H)), (v!"compressed_length", .fn (PublicKey_compressed_length H)), (v!"uncompressed_length", .fn (PublicKey_uncompressed_length H)), (v!"underlying_object", .method (PublicKey_underlying_object H)), (v!"raw", .method x6), (v!"raw_compressed", .method (PublicKey_raw_compressed H)), (v!"raw_uncompressed", .method (PublicKey_raw_uncompressed H)), (v!"point", .method x9)])])) publicKeyTree) = some (.method (PublicKey_raw H)) := by
  by_kernel

theorem publicKey_point_in (H : Host) (x9 : Fn) :
    memOf v!"PublicKey" v!"point" (definitions { lib := library H, scope := [(v!"PublicKey", .cls (some .PublicKey) [(v!"__init__", .ctor (PublicKey_init H)), (v!"from_bytes", .fn (PublicKey_from_bytes H)), (v!"from_point", .fn (PublicKey_from_point H)), (v!"compressed_length", .fn (PublicKey_compressed_length H)), (v!"uncompressed_length", .fn (PublicKey_uncompressed_length H)), (v!"underlying_object", .method (PublicKey_underlying_object H)), (v!"raw", .method (PublicKey_raw H)), (v!"raw_compressed", .method (PublicKey_raw_compressed H)), (v!"raw_uncompressed", .method (PublicKey_raw_uncompressed H)), (v!"point", .method x9)])] ++ (imports [v!"bip38.secp256k1", v!"bip38"] (PublicKeyWorld H) publicKeyTree).getD [], methods := (fun n => allMethods (PointOrder H) ++ methodsBefore n (classMethods publicKeyNames [(v!"PublicKey", .cls (some .PublicKey) [(v!"__init__", .ctor (PublicKey_init H)), (v!"from_bytes", .fn (PublicKey_from_bytes H)), (v!"from_point", .fn (PublicKey_from_point H)), (v!"compressed_length", .fn (PublicKey_compressed_length H)), (v!"uncompressed_length", .fn (PublicKey_uncompressed_length H)), (v!"underlying_object", .method (PublicKey_underlying_object H)), (v!"raw", .method (PublicKey_raw H)), (v!"raw_compressed", .method (PublicKey_raw_compressed H)), (v!"raw_uncompressed", .method (PublicKey_raw_uncompressed H)), (v!"point", .method x9)])])) 0, str := Error_str H } (fun n => allMethods (PointOrder H) ++ methodsBefore n (classMethods publicKeyNames [(v!"PublicKey", .cls (some .PublicKey) [(v!"__init__", .ctor (PublicKey_init H)), (v!"from_bytes", .fn (PublicKey_from_bytes H)), (v!"from_point", .fn (PublicKey_from_point H)), (v!"compressed_length", .fn (PublicKey_compressed_length H)), (v!"uncompressed_length", .fn (PublicKey_uncompressed_length H)), (v!"underlying_object", .method (PublicKey_underlying_object H)), (v!"raw", .method (PublicKey_raw H)), (v!"raw_compressed", .method (PublicKey_raw_compressed H)), (v!"raw_uncompressed", .method (PublicKey_raw_uncompressed H)), (v!"point", .method x9)])])) publicKeyTree) = some (.method (PublicKey_point H)) := by
  by_kernel

theorem publicKey_in (H : Host) (yprivateKey ysecp256k1 ywif yp2pkhAddress ybip38 : Scope) {x : Scope} (h : Defines H (strOf (ExceptionsDefs H)) [v!"bip38.secp256k1", v!"bip38"] (Modules.world ⟨(ExceptionsDefs H), (ConstDefs H), (UtilsDefs H), (Ripemd160Defs H), (CryptoDefs H), (Base58Defs H), (PointDefs H), x, yprivateKey, ysecp256k1, ywif, yp2pkhAddress, ybip38⟩) (fun n => allMethods (classMethods pointNames (PointDefs H)) ++ methodsBefore n (classMethods publicKeyNames x)) PublicKeyText x) : x = PublicKeyDefs H := by
  rw [strOf_eq, point_order] at h
  obtain ⟨tree, ins, hp, hi, hd⟩ := h
  obtain rfl := Option.some.inj (publicKey_parse.symm.trans hp)
  obtain rfl := Option.some.inj ((publicKey_imports_in H x yprivateKey ysecp256k1 ywif yp2pkhAddress ybip38).symm.trans hi)
  have hk0 := (publicKey_shape ▸ shape_eq hd : _ = _)
  obtain ⟨ms, d, rfl, hm0, hk1⟩ := key_cls hk0
  obtain rfl := key_nil hk1
  obtain ⟨x0, d0, rfl, hm1⟩ := mem_ctor hm0
  obtain ⟨x1, d1, rfl, hm2⟩ := mem_fn hm1
  obtain ⟨x2, d2, rfl, hm3⟩ := mem_fn hm2
  obtain ⟨x3, d3, rfl, hm4⟩ := mem_fn hm3
  obtain ⟨x4, d4, rfl, hm5⟩ := mem_fn hm4
  obtain ⟨x5, d5, rfl, hm6⟩ := mem_method hm5
  obtain ⟨x6, d6, rfl, hm7⟩ := mem_method hm6
  obtain ⟨x7, d7, rfl, hm8⟩ := mem_method hm7
  obtain ⟨x8, d8, rfl, hm9⟩ := mem_method hm8
  obtain ⟨x9, d9, rfl, hm10⟩ := mem_method hm9
  obtain rfl := mem_nil hm10
  obtain rfl := Mem.ctor.inj (Option.some.inj ((publicKey_init_in H x0 x1 x2 x3 x4 x5 x6 x7 x8 x9).symm.trans (congrArg (memOf v!"PublicKey" v!"__init__") hd)))
  obtain rfl := Mem.fn.inj (Option.some.inj ((publicKey_from_bytes_in H x1 x2 x3 x4 x5 x6 x7 x8 x9).symm.trans (congrArg (memOf v!"PublicKey" v!"from_bytes") hd)))
  obtain rfl := Mem.fn.inj (Option.some.inj ((publicKey_from_point_in H x2 x3 x4 x5 x6 x7 x8 x9).symm.trans (congrArg (memOf v!"PublicKey" v!"from_point") hd)))
  obtain rfl := Mem.fn.inj (Option.some.inj ((publicKey_compressed_length_in H x3 x4 x5 x6 x7 x8 x9).symm.trans (congrArg (memOf v!"PublicKey" v!"compressed_length") hd)))
  obtain rfl := Mem.fn.inj (Option.some.inj ((publicKey_uncompressed_length_in H x4 x5 x6 x7 x8 x9).symm.trans (congrArg (memOf v!"PublicKey" v!"uncompressed_length") hd)))
  obtain rfl := Mem.method.inj (Option.some.inj ((publicKey_underlying_object_in H x5 x6 x7 x8 x9).symm.trans (congrArg (memOf v!"PublicKey" v!"underlying_object") hd)))
  obtain rfl := Mem.method.inj (Option.some.inj ((publicKey_raw_compressed_in H x6 x7 x8 x9).symm.trans (congrArg (memOf v!"PublicKey" v!"raw_compressed") hd)))
  obtain rfl := Mem.method.inj (Option.some.inj ((publicKey_raw_uncompressed_in H x6 x8 x9).symm.trans (congrArg (memOf v!"PublicKey" v!"raw_uncompressed") hd)))
  obtain rfl := Mem.method.inj (Option.some.inj ((publicKey_raw_in H x6 x9).symm.trans (congrArg (memOf v!"PublicKey" v!"raw") hd)))
  obtain rfl := Mem.method.inj (Option.some.inj ((publicKey_point_in H x9).symm.trans (congrArg (memOf v!"PublicKey" v!"point") hd)))
  rfl

/-! ### `bip38/secp256k1/private_key.py` -/

theorem privateKey_imports_in (H : Host) (x : Scope) (ysecp256k1 ywif yp2pkhAddress ybip38 : Scope) :
    imports [v!"bip38.secp256k1", v!"bip38"] (Modules.world ⟨(ExceptionsDefs H), (ConstDefs H), (UtilsDefs H), (Ripemd160Defs H), (CryptoDefs H), (Base58Defs H), (PointDefs H), (PublicKeyDefs H), x, ysecp256k1, ywif, yp2pkhAddress, ybip38⟩) privateKeyTree = some ((imports [v!"bip38.secp256k1", v!"bip38"] (PrivateKeyWorld H) privateKeyTree).getD []) := by by_kernel

theorem privateKey_init_in (H : Host) (x0 : Fn) (x1 : Fn) (x2 : Fn) (x3 : Fn) (x4 : Fn) (x5 : Fn) :
    memOf v!"PrivateKey" v!"__init__" (definitions { lib := library H, scope := [(v!"PrivateKey", .cls (some .PrivateKey) [(v!"__init__", .ctor x0), (v!"from_bytes", .fn x1), (v!"length", .fn x2), (v!"underlying_object", .method x3), (v!"raw", .method x4), (v!"public_key", .method x5)])] ++ (imports [v!"bip38.secp256k1", v!"bip38"] (PrivateKeyWorld H) privateKeyTree).getD [], methods := (fun n => allMethods (PointOrder H) ++ allMethods (PublicKeyOrder H) ++ methodsBefore n (classMethods privateKeyNames [(v!"PrivateKey", .cls (some .PrivateKey) [(v!"__init__", .ctor x0), (v!"from_bytes", .fn x1), (v!"length", .fn x2), (v!"underlying_object", .method x3), (v!"raw", .method x4), (v!"public_key", .method x5)])])) 0, str := Error_str H } (fun n => allMethods (PointOrder H) ++ allMethods (PublicKeyOrder H) ++ methodsBefore n (classMethods privateKeyNames [(v!"PrivateKey", .cls (some .PrivateKey) [(v!"__init__", .ctor x0), (v!"from_bytes", .fn x1), (v!"length", .fn x2), (v!"underlying_object", .method x3), (v!"raw", .method x4), (v!"public_key", .method x5)])])) privateKeyTree) = some (.ctor (PrivateKey_init H)) := by
  by_kernel

theorem privateKey_from_bytes_in (H : Host) (x1 : Fn) (x2 : Fn) (x3 : Fn) (x4 : Fn) (x5 : Fn) :
    memOf v!"PrivateKey" v!"from_bytes" (definitions { lib := library H, scope := [(v!"PrivateKey", .cls (some .PrivateKey) [(v!"__init__", .ctor (PrivateKey_init H)), (v!"from_bytes", .fn x1), (v!"length", .fn x2), (v!"underlying_object", .method x3), (v!"raw", .method x4), (v!"public_key", .method x5)])] ++ (imports [v!"bip38.secp256k1", v!"bip38"] (PrivateKeyWorld H) privateKeyTree).getD [], methods := (fun n => allMethods (PointOrder H) ++ allMethods (PublicKeyOrder H) ++ methodsBefore n (classMethods privateKeyNames [(v!"PrivateKey", .cls (some .PrivateKey) [(v!"__init__", .ctor (PrivateKey_init H)), (v!"from_bytes", .fn x1), (v!"length", .fn x2), (v!"underlying_object", .method x3), (v!"raw", .method x4), (v!"public_key", .method x5)])])) 0, str := Error_str H } (fun n => allMethods (PointOrder H) ++ allMethods (PublicKeyOrder H) ++ methodsBefore n (classMethods privateKeyNames [(v!"PrivateKey", .cls (some .PrivateKey) [(v!"__init__", .ctor (PrivateKey_init H)), (v!"from_bytes", .fn x1), (v!"length", .fn x2), (v!"underlying_object", .method x3), (v!"raw", .method x4), (v!"public_key", .method x5)])])) privateKeyTree) = some (.fn (PrivateKey_from_bytes H)) := by
  by_kernel

theorem privateKey_length_in (H : Host) (x2 : Fn) (x3 : Fn) (x4 : Fn) (x5 : Fn) :
    memOf v!"PrivateKey" v!"length" (definitions { lib := library H, scope := [(v!"PrivateKey", .cls (some .PrivateKey) [(v!"__init__", .ctor (PrivateKey_init H)), (v!"from_bytes", .fn (PrivateKey_from_bytes H)), (v!"length", .fn x2), (v!"underlying_object", .method x3), (v!"raw", .method x4), (v!"public_key", .method x5)])] ++ (imports [v!"bip38.secp256k1", v!"bip38"] (PrivateKeyWorld H) privateKeyTree).getD [], methods := (fun n => allMethods (PointOrder H) ++ allMethods (PublicKeyOrder H) ++ methodsBefore n (classMethods privateKeyNames [(v!"PrivateKey", .cls (some .PrivateKey) [(v!"__init__", .ctor (PrivateKey_init H)), (v!"from_bytes", .fn (PrivateKey_from_bytes H)), (v!"length", .fn x2), (v!"underlying_object", .method x3), (v!"raw", .method x4), (v!"public_key", .method x5)])])) 0, str := Error_str H } (fun n => allMethods (PointOrder H) ++ allMethods (PublicKeyOrder H) ++ methodsBefore n (classMethods privateKeyNames [(v!"PrivateKey", .cls (some .PrivateKey) [(v!"__init__", .ctor (PrivateKey_init H)), (v!"from_bytes", .fn (PrivateKey_from_bytes H)), (v!"length", .fn x2), (v!"underlying_object", .method x3), (v!"raw", .method x4), (v!"public_key", .method x5)])])) privateKeyTree) = some (.fn (PrivateKey_length H)) := by
  by_kernel

theorem privateKey_underlying_object_in (H : Host) (x3 : Fn) (x4 : Fn) (x5 : Fn) :
    memOf v!"PrivateKey" v!"underlying_object" (definitions { lib := library H, scope := [(v!"PrivateKey", .cls (some .PrivateKey) [(v!"__init__", .ctor (PrivateKey_init H)), (v!"from_bytes", .fn (PrivateKey_from_bytes H)), (v!"length", .fn (PrivateKey_length H)), (v!"underlying_object", .method x3), (v!"raw", .method x4), (v!"public_key", .method x5)])] ++ (imports [v!"bip38.secp256k1", v!"bip38"] (PrivateKeyWorld H) privateKeyTree).getD [], methods := (fun n => allMethods (PointOrder H) ++ allMethods (PublicKeyOrder H) ++ methodsBefore n (classMethods privateKeyNames [(v!"PrivateKey", .cls (some .PrivateKey) [(v!"__init__", .ctor (PrivateKey_init H)), (v!"from_bytes", .fn (PrivateKey_from_bytes H)), (v!"length", .fn (PrivateKey_length H)), (v!"underlying_object", .method x3), (v!"raw", .method x4), (v!"public_key", .method x5)])])) 0, str := Error_str H } (fun n => allMethods (PointOrder H) ++ allMethods (PublicKeyOrder H) ++ methodsBefore n (classMethods privateKeyNames [(v!"PrivateKey", .cls (some .PrivateKey) [(v!"__init__", .ctor (PrivateKey_init H)), (v!"from_bytes", .fn (PrivateKey_from_bytes H)), (v!"length", .fn (PrivateKey_length H)), (v!"underlying_object", .method x3), (v!"raw", .method x4), (v!"public_key", .method x5)])])) privateKeyTree) = some (.method (PrivateKey_underlying_object H)) := by
  by_kernel

theorem privateKey_raw_in (H : Host) (x4 : Fn) (x5 : Fn) :
    memOf v!"PrivateKey" v!"raw" (definitions { lib := library H, scope := [(v!"PrivateKey", .cls (some .PrivateKey) [(v!"__init__", .ctor (PrivateKey_init H)), (v!"from_bytes", .fn (PrivateKey_from_bytes H)), (v!"length", .fn (PrivateKey_length H)), (v!"underlying_object", .method (PrivateKey_underlying_object H)), (v!"raw", .method x4), (v!"public_key", .method x5)])] ++ (imports [v!"bip38.secp256k1", v!"bip38"] (PrivateKeyWorld H) privateKeyTree).getD [], methods := (fun n => allMethods (PointOrder H) ++ allMethods (PublicKeyOrder H) ++ methodsBefore n (classMethods privateKeyNames [(v!"PrivateKey", .cls (some .PrivateKey) [(v!"__init__", .ctor (PrivateKey_init H)), (v!"from_bytes", .fn (PrivateKey_from_bytes H)), (v!"length", .fn (PrivateKey_length H)), (v!"underlying_object", .method (PrivateKey_underlying_object H)), (v!"raw", .method x4), (v!"public_key", .method x5)])])) 0, str := Error_str H } (fun n => allMethods (PointOrder H) ++ allMethods (PublicKeyOrder H) ++ methodsBefore n (classMethods privateKeyNames [(v!"PrivateKey", .cls (some .PrivateKey) [(v!"__init__", .ctor (PrivateKey_init H)), (v!"from_bytes", .fn (PrivateKey_from_bytes H)), (v!"length", .fn (PrivateKey_length H)), (v!"underlying_object", .method (PrivateKey_underlying_object H)), (v!"raw", .method x4), (v!"public_key", .method x5)])])) privateKeyTree) = some (.method (PrivateKey_raw H)) := by
  by_kernel

theorem privateKey_public_key_in (H : Host) (x5 : Fn) :
    memOf v!"PrivateKey" v!"public_key" (definitions { lib := library H, scope := [(v!"PrivateKey", .cls (some .PrivateKey) [(v!"__init__", .ctor (PrivateKey_init H)), (v!"from_bytes", .fn (PrivateKey_from_bytes H)), (v!"length", .fn (PrivateKey_length H)), (v!"underlying_object", .method (PrivateKey_underlying_object H)), (v!"raw", .method (PrivateKey_raw H)), (v!"public_key", .method x5)])] ++ (imports [v!"bip38.secp256k1", v!"bip38"] (PrivateKeyWorld H) privateKeyTree).getD [], methods := (fun n => allMethods (PointOrder H) ++ allMethods (PublicKeyOrder H) ++ methodsBefore n (classMethods privateKeyNames [(v!"PrivateKey", .cls (some .PrivateKey) [(v!"__init__", .ctor (PrivateKey_init H)), (v!"from_bytes", .fn (PrivateKey_from_bytes H)), (v!"length", .fn (PrivateKey_length H)), (v!"underlying_object", .method (PrivateKey_underlying_object H)), (v!"raw", .method (PrivateKey_raw H)), (v!"public_key", .method x5)])])) 0, str := Error_str H } (fun n => allMethods (PointOrder H) ++ allMethods (PublicKeyOrder H) ++ methodsBefore n (classMethods privateKeyNames [(v!"PrivateKey", .cls (some .PrivateKey) [(v!"__init__", .ctor (PrivateKey_init H)), (v!"from_bytes", .fn (PrivateKey_from_bytes H)), (v!"length", .fn (PrivateKey_length H)), (v!"underlying_object", .method (PrivateKey_underlying_object H)), (v!"raw", .method (PrivateKey_raw H)), (v!"public_key", .method x5)])])) privateKeyTree) = some (.method (PrivateKey_public_key H)) := by
  by_kernel

theorem privateKey_in (H : Host) (ysecp256k1 ywif yp2pkhAddress ybip38 : Scope) {x : Scope} (h : Defines H (strOf (ExceptionsDefs H)) [v!"bip38.secp256k1", v!"bip38"] (Modules.world ⟨(ExceptionsDefs H), (ConstDefs H), (UtilsDefs H), (Ripemd160Defs H), (CryptoDefs H), (Base58Defs H), (PointDefs H), (PublicKeyDefs H), x, ysecp256k1, ywif, yp2pkhAddress, ybip38⟩) (fun n => allMethods (classMethods pointNames (PointDefs H)) ++ allMethods (classMethods publicKeyNames (PublicKeyDefs H)) ++ methodsBefore n (classMethods privateKeyNames x)) PrivateKeyText x) : x = PrivateKeyDefs H := by
  rw [strOf_eq, point_order, publicKey_order] at h
  obtain ⟨tree, ins, hp, hi, hd⟩ := h
  obtain rfl := Option.some.inj (privateKey_parse.symm.trans hp)
  obtain rfl := Option.some.inj ((privateKey_imports_in H x ysecp256k1 ywif yp2pkhAddress ybip38).symm.trans hi)
  have hk0 := (privateKey_shape ▸ shape_eq hd : _ = _)
  obtain ⟨ms, d, rfl, hm0, hk1⟩ := key_cls hk0
  obtain rfl := key_nil hk1
  obtain ⟨x0, d0, rfl, hm1⟩ := mem_ctor hm0
  obtain ⟨x1, d1, rfl, hm2⟩ := mem_fn hm1
  obtain ⟨x2, d2, rfl, hm3⟩ := mem_fn hm2
  obtain ⟨x3, d3, rfl, hm4⟩ := mem_method hm3
  obtain ⟨x4, d4, rfl, hm5⟩ := mem_method hm4
  obtain ⟨x5, d5, rfl, hm6⟩ := mem_method hm5
  obtain rfl := mem_nil hm6
  obtain rfl := Mem.ctor.inj (Option.some.inj ((privateKey_init_in H x0 x1 x2 x3 x4 x5).symm.trans (congrArg (memOf v!"PrivateKey" v!"__init__") hd)))
  obtain rfl := Mem.fn.inj (Option.some.inj ((privateKey_from_bytes_in H x1 x2 x3 x4 x5).symm.trans (congrArg (memOf v!"PrivateKey" v!"from_bytes") hd)))
  obtain rfl := Mem.fn.inj (Option.some.inj ((privateKey_length_in H x2 x3 x4 x5).symm.trans (congrArg (memOf v!"PrivateKey" v!"length") hd)))
  obtain rfl := Mem.method.inj (Option.some.inj ((privateKey_underlying_object_in H x3 x4 x5).symm.trans (congrArg (memOf v!"PrivateKey" v!"underlying_object") hd)))
  obtain rfl := Mem.method.inj (Option.some.inj ((privateKey_raw_in H x4 x5).symm.trans (congrArg (memOf v!"PrivateKey" v!"raw") hd)))
  obtain rfl := Mem.method.inj (Option.some.inj ((privateKey_public_key_in H x5).symm.trans (congrArg (memOf v!"PrivateKey" v!"public_key") hd)))
  rfl

/-! ### `bip38/p2pkh_address.py` -/

theorem p2pkhAddress_imports_in (H : Host) (x : Scope) (ybip38 : Scope) :
    imports [v!"bip38"] (Modules.world ⟨(ExceptionsDefs H), (ConstDefs H), (UtilsDefs H), (Ripemd160Defs H), (CryptoDefs H), (Base58Defs H), (PointDefs H), (PublicKeyDefs H), (PrivateKeyDefs H), (secp256k1Hands H), (WifDefs H), x, ybip38⟩) p2pkhAddressTree = some ((imports [v!"bip38"] (P2pkhAddressWorld H) p2pkhAddressTree).getD []) := by by_kernel

theorem p2pkhAddress_address_prefix_in (H : Host) (x0 : Run Val) (x1 : Run Val) (x2 : Fn) (x3 : Fn) :
    memOf v!"P2PKHAddress" v!"address_prefix" (definitions { lib := library H, scope := [(v!"P2PKHAddress", .cls none [(v!"address_prefix", .attr x0), (v!"alphabet", .attr x1), (v!"encode", .fn x2), (v!"decode", .fn x3)])] ++ (imports [v!"bip38"] (P2pkhAddressWorld H) p2pkhAddressTree).getD [], methods := (fun n => allMethods (PointOrder H) ++ allMethods (PublicKeyOrder H) ++ allMethods (PrivateKeyOrder H) ++ methodsBefore n (classMethods p2pkhAddressNames [(v!"P2PKHAddress", .cls none [(v!"address_prefix", .attr x0), (v!"alphabet", .attr x1), (v!"encode", .fn x2), (v!"decode", .fn x3)])])) 0, str := Error_str H } (fun n => allMethods (PointOrder H) ++ allMethods (PublicKeyOrder H) ++ allMethods (PrivateKeyOrder H) ++ methodsBefore n (classMethods p2pkhAddressNames [(v!"P2PKHAddress", .cls none [(v!"address_prefix", .attr x0), (v!"alphabet", .attr x1), (v!"encode", .fn x2), (v!"decode", .fn x3)])])) p2pkhAddressTree) = some (.attr (P2PKHAddress_address_prefix H)) := by
  by_kernel

theorem p2pkhAddress_alphabet_in (H : Host) (x1 : Run Val) (x2 : Fn) (x3 : Fn) :
    memOf v!"P2PKHAddress" v!"alphabet" (definitions { lib := library H, scope := [(v!"P2PKHAddress", .cls none [(v!"address_prefix", .attr (P2PKHAddress_address_prefix H)), (v!"alphabet", .attr x1), (v!"encode", .fn x2), (v!"decode", .fn x3)])] ++ (imports [v!"bip38"] (P2pkhAddressWorld H) p2pkhAddressTree).getD [], methods := (fun n => allMethods (PointOrder H) ++ allMethods (PublicKeyOrder H) ++ allMethods (PrivateKeyOrder H) ++ methodsBefore n (classMethods p2pkhAddressNames [(v!"P2PKHAddress", .cls none [(v!"address_prefix", .attr (P2PKHAddress_address_prefix H)), (v!"alphabet", .attr x1), (v!"encode", .fn x2), (v!"decode", .fn x3)])])) 0, str := Error_str H } (fun n => allMethods (PointOrder H) ++ allMethods (PublicKeyOrder H) ++ allMethods (PrivateKeyOrder H) ++ methodsBefore n (classMethods p2pkhAddressNames [(v!"P2PKHAddress", .cls none [(v!"address_prefix", .attr (P2PKHAddress_address_prefix H)), (v!"alphabet", .attr x1), (v!"encode", .fn x2), (v!"decode", .fn x3)])])) p2pkhAddressTree) = some (.attr (P2PKHAddress_alphabet H)) := by
  by_kernel

theorem p2pkhAddress_encode_in (H : Host) (x2 : Fn) (x3 : Fn) :
    memOf v!"P2PKHAddress" v!"encode" (definitions { lib := library H, scope := [(v!"P2PKHAddress", .cls none [(v!"address_prefix", .attr (P2PKHAddress_address_prefix H)), (v!"alphabet", .attr (P2PKHAddress_alphabet H)), (v!"encode", .fn x2), (v!"decode", .fn x3)])] ++ (imports [v!"bip38"] (P2pkhAddressWorld H) p2pkhAddressTree).getD [], methods := (fun n => allMethods (PointOrder H) ++ allMethods (PublicKeyOrder H) ++ allMethods (PrivateKeyOrder H) ++ methodsBefore n (classMethods p2pkhAddressNames [(v!"P2PKHAddress", .cls none [(v!"address_prefix", .attr (P2PKHAddress_address_prefix H)), (v!"alphabet", .attr (P2PKHAddress_alphabet H)), (v!"encode", .fn x2), (v!"decode", .fn x3)])])) 0, str := Error_str H } (fun n => allMethods (PointOrder H) ++ allMethods (PublicKeyOrder H) ++ allMethods (PrivateKeyOrder H) ++ methodsBefore n (classMethods p2pkhAddressNames [(v!"P2PKHAddress", .cls none [(v!"address_prefix", .attr (P2PKHAddress_address_prefix H)), (v!"alphabet", .attr (P2PKHAddress_alphabet H)), (v!"encode", .fn x2), (v!"decode", .fn x3)])])) p2pkhAddressTree) = some (.fn (P2PKHAddress_encode H)) := by
  by_kernel

theorem p2pkhAddress_decode_in (H : Host) (x3 : Fn) :
    memOf v!"P2PKHAddress" v!"decode" (definitions { lib := library H, scope := [(v!"P2PKHAddress", .cls none [(v!"address_prefix", .attr (P2PKHAddress_address_prefix H)), (v!"alphabet", .attr (P2PKHAddress_alphabet H)), (v!"encode", .fn (P2PKHAddress_encode H)), (v!"decode", .fn x3)])] ++ (imports [v!"bip38"] (P2pkhAddressWorld H) p2pkhAddressTree).getD [], methods := (fun n => allMethods (PointOrder H) ++ allMethods (PublicKeyOrder H) ++ allMethods (PrivateKeyOrder H) ++ methodsBefore n (classMethods p2pkhAddressNames [(v!"P2PKHAddress", .cls none [(v!"address_prefix", .attr (P2PKHAddress_address_prefix H)), (v!"alphabet", .attr (P2PKHAddress_alphabet H)), (v!"encode", .fn (P2PKHAddress_encode H)), (v!"decode", .fn x3)])])) 0, str := Error_str H } (fun n => allMethods (PointOrder H) ++ allMethods (PublicKeyOrder H) ++ allMethods (PrivateKeyOrder H) ++ methodsBefore n (classMethods p2pkhAddressNames [(v!"P2PKHAddress", .cls none [(v!"address_prefix", .attr (P2PKHAddress_address_prefix H)), (v!"alphabet", .attr (P2PKHAddress_alphabet H)), (v!"encode", .fn (P2PKHAddress_encode H)), (v!"decode", .fn x3)])])) p2pkhAddressTree) = some (.fn (P2PKHAddress_decode H)) := by
  by_kernel

theorem p2pkhAddress_in (H : Host) (ybip38 : Scope) {x : Scope} (h : Defines H (strOf (ExceptionsDefs H)) [v!"bip38"] (Modules.world ⟨(ExceptionsDefs H), (ConstDefs H), (UtilsDefs H), (Ripemd160Defs H), (CryptoDefs H), (Base58Defs H), (PointDefs H), (PublicKeyDefs H), (PrivateKeyDefs H), (secp256k1Hands H), (WifDefs H), x, ybip38⟩) (fun n => allMethods (classMethods pointNames (PointDefs H)) ++ allMethods (classMethods publicKeyNames (PublicKeyDefs H)) ++ allMethods (classMethods privateKeyNames (PrivateKeyDefs H)) ++ methodsBefore n (classMethods p2pkhAddressNames x)) P2pkhAddressText x) : x = P2pkhAddressDefs H := by
  rw [strOf_eq, point_order, publicKey_order, privateKey_order] at h
  obtain ⟨tree, ins, hp, hi, hd⟩ := h
  obtain rfl := Option.some.inj (p2pkhAddress_parse.symm.trans hp)
  obtain rfl := Option.some.inj ((p2pkhAddress_imports_in H x ybip38).symm.trans hi)
  have hk0 := (p2pkhAddress_shape ▸ shape_eq hd : _ = _)
  obtain ⟨ms, d, rfl, hm0, hk1⟩ := key_cls hk0
  obtain rfl := key_nil hk1
  obtain ⟨x0, d0, rfl, hm1⟩ := mem_attr hm0
  obtain ⟨x1, d1, rfl, hm2⟩ := mem_attr hm1
  obtain ⟨x2, d2, rfl, hm3⟩ := mem_fn hm2
  obtain ⟨x3, d3, rfl, hm4⟩ := mem_fn hm3
  obtain rfl := mem_nil hm4
  obtain rfl := Mem.attr.inj (Option.some.inj ((p2pkhAddress_address_prefix_in H x0 x1 x2 x3).symm.trans (congrArg (memOf v!"P2PKHAddress" v!"address_prefix") hd)))
  obtain rfl := Mem.attr.inj (Option.some.inj ((p2pkhAddress_alphabet_in H x1 x2 x3).symm.trans (congrArg (memOf v!"P2PKHAddress" v!"alphabet") hd)))
  obtain rfl := Mem.fn.inj (Option.some.inj ((p2pkhAddress_encode_in H x2 x3).symm.trans (congrArg (memOf v!"P2PKHAddress" v!"encode") hd)))
  obtain rfl := Mem.fn.inj (Option.some.inj ((p2pkhAddress_decode_in H x3).symm.trans (congrArg (memOf v!"P2PKHAddress" v!"decode") hd)))
  rfl

/-! ### `bip38/bip38.py` -/

theorem bip38_imports_in (H : Host) (x : Scope)  :
    imports [v!"bip38"] (Modules.world ⟨(ExceptionsDefs H), (ConstDefs H), (UtilsDefs H), (Ripemd160Defs H), (CryptoDefs H), (Base58Defs H), (PointDefs H), (PublicKeyDefs H), (PrivateKeyDefs H), (secp256k1Hands H), (WifDefs H), (P2pkhAddressDefs H), x⟩) bip38Tree = some ((imports [v!"bip38"] (Bip38World H) bip38Tree).getD []) := by by_kernel

theorem bip38_init_in (H : Host) (x0 : Fn) (x1 : Fn) (x2 : Fn) (x3 : Fn) (x4 : Fn) (x5 : Fn) :
    memOf v!"BIP38" v!"__init__" (definitions { lib := library H, scope := [(v!"BIP38", .cls (some .BIP38) [(v!"__init__", .ctor x0), (v!"intermediate_code", .fn x1), (v!"encrypt", .method x2), (v!"create_new_encrypted_wif", .method x3), (v!"confirm_code", .method x4), (v!"decrypt", .method x5)])] ++ (imports [v!"bip38"] (Bip38World H) bip38Tree).getD [], methods := (fun n => allMethods (PointOrder H) ++ allMethods (PublicKeyOrder H) ++ allMethods (PrivateKeyOrder H) ++ allMethods (P2pkhAddressOrder H) ++ methodsBefore n (classMethods bip38Names [(v!"BIP38", .cls (some .BIP38) [(v!"__init__", .ctor x0), (v!"intermediate_code", .fn x1), (v!"encrypt", .method x2), (v!"create_new_encrypted_wif", .method x3), (v!"confirm_code", .method x4), (v!"decrypt", .method x5)])])) 0, str := Error_str H } (fun n => allMethods (PointOrder H) ++ allMethods (PublicKeyOrder H) ++ allMethods (PrivateKeyOrder H) ++ allMethods (P2pkhAddressOrder H) ++ methodsBefore n (classMethods bip38Names [(v!"BIP38", .cls (some .BIP38) [(v!"__init__", .ctor x0), (v!"intermediate_code", .fn x1), (v!"encrypt", .method x2), (v!"create_new_encrypted_wif", .method x3), (v!"confirm_code", .method x4), (v!"decrypt", .method x5)])])) bip38Tree) = some (.ctor (BIP38_init H)) := by
  by_kernel

theorem bip38_intermediate_code_in (H : Host) (x1 : Fn) (x2 : Fn) (x3 : Fn) (x4 : Fn) (x5 : Fn) :
    memOf v!"BIP38" v!"intermediate_code" (definitions { lib := library H, scope := [(v!"BIP38", .cls (some .BIP38) [(v!"__init__", .ctor (BIP38_init H)), (v!"intermediate_code", .fn x1), (v!"encrypt", .method x2), (v!"create_new_encrypted_wif", .method x3), (v!"confirm_code", .method x4), (v!"decrypt", .method x5)])] ++ (imports [v!"bip38"] (Bip38World H) bip38Tree).getD [], methods := (fun n => allMethods (PointOrder H) ++ allMethods (PublicKeyOrder H) ++ allMethods (PrivateKeyOrder H) ++ allMethods (P2pkhAddressOrder H) ++ methodsBefore n (classMethods bip38Names [(v!"BIP38", .cls (some .BIP38) [(v!"__init__", .ctor (BIP38_init H)), (v!"intermediate_code", .fn x1), (v!"encrypt", .method x2), (v!"create_new_encrypted_wif", .method x3), (v!"confirm_code", .method x4), (v!"decrypt", .method x5)])])) 0, str := Error_str H } (fun n => allMethods (PointOrder H) ++ allMethods (PublicKeyOrder H) ++ allMethods (PrivateKeyOrder H) ++ allMethods (P2pkhAddressOrder H) ++ methodsBefore n (classMethods bip38Names [(v!"BIP38", .cls (some .BIP38) [(v!"__init__", .ctor (BIP38_init H)), (v!"intermediate_code", .fn x1), (v!"encrypt", .method x2), (v!"create_new_encrypted_wif", .method x3), (v!"confirm_code", .method x4), (v!"decrypt", .method x5)])])) bip38Tree) = some (.fn (BIP38_intermediate_code H)) := by
  by_kernel

theorem bip38_encrypt_in (H : Host) (x2 : Fn) (x3 : Fn) (x4 : Fn) (x5 : Fn) :
    memOf v!"BIP38" v!"encrypt" (definitions { lib := library H, scope := [(v!"BIP38", .cls (some .BIP38) [(v!"__init__", .ctor (BIP38_init H)), (v!"intermediate_code", .fn (BIP38_intermediate_code H)), (v!"encrypt", .method x2), (v!"create_new_encrypted_wif", .method x3), (v!"confirm_code", .method x4), (v!"decrypt", .method x5)])] ++ (imports [v!"bip38"] (Bip38World H) bip38Tree).getD [], methods := (fun n => allMethods (PointOrder H) ++ allMethods (PublicKeyOrder H) ++ allMethods (PrivateKeyOrder H) ++ allMethods (P2pkhAddressOrder H) ++ methodsBefore n (classMethods bip38Names [(v!"BIP38", .cls (some .BIP38) [(v!"__init__", .ctor (BIP38_init H)), (v!"intermediate_code", .fn (BIP38_intermediate_code H)), (v!"encrypt", .method x2), (v!"create_new_encrypted_wif", .method x3), (v!"confirm_code", .method x4), (v!"decrypt", .method x5)])])) 0, str := Error_str H } (fun n => allMethods (PointOrder H) ++ allMethods (PublicKeyOrder H) ++ allMethods (PrivateKeyOrder H) ++ allMethods (P2pkhAddressOrder H) ++ methodsBefore n (classMethods bip38Names [(v!"BIP38", .cls (some .BIP38) [(v!"__init__", .ctor (BIP38_init H)), (v!"intermediate_code", .fn (BIP38_intermediate_code H)), (v!"encrypt", .method x2), (v!"create_new_encrypted_wif", .method x3), (v!"confirm_code", .method x4), (v!"decrypt", .method x5)])])) bip38Tree) = some (.method (BIP38_encrypt H)) := by
  by_kernel

theorem bip38_create_new_encrypted_wif_in (H : Host) (x3 : Fn) (x4 : Fn) (x5 : Fn) :
    memOf v!"BIP38" v!"create_new_encrypted_wif" (definitions { lib := library H, scope := [(v!"BIP38", .cls (some .BIP38) [(v!"__init__", .ctor (BIP38_init H)), (v!"intermediate_code", .fn (BIP38_intermediate_code H)), (v!"encrypt", .method (BIP38_encrypt H)), (v!"create_new_encrypted_wif", .method x3), (v!"confirm_code", .method x4), (v!"decrypt", .method x5)])] ++ (imports [v!"bip38"] (Bip38World H) bip38Tree).getD [], methods := (fun n => allMethods (PointOrder H) ++ allMethods (PublicKeyOrder H) ++ allMethods (PrivateKeyOrder H) ++ allMethods (P2pkhAddressOrder H) ++ methodsBefore n (classMethods bip38Names [(v!"BIP38", .cls (some .BIP38) [(v!"__init__", .ctor (BIP38_init H)), (v!"intermediate_code", .fn (BIP38_intermediate_code H)), (v!"encrypt", .method (BIP38_encrypt H)), (v!"create_new_encrypted_wif", .method x3), (v!"confirm_code", .method x4), (v!"decrypt", .method x5)])])) 0, str := Error_str H } (fun n => allMethods (PointOrder H) ++ allMethods (PublicKeyOrder H) ++ allMethods (PrivateKeyOrder H) ++ allMethods (P2pkhAddressOrder H) ++ methodsBefore n (classMethods bip38Names [(v!"BIP38", .cls (some .BIP38) [(v!"__init__", .ctor (BIP38_init H)), (v!"intermediate_code", .fn (BIP38_intermediate_code H)), (v!"encrypt", .method (BIP38_encrypt H)), (v!"create_new_encrypted_wif", .method x3), (v!"confirm_code", .method x4), (v!"decrypt", .method x5)])])) bip38Tree) = some (.method (BIP38_create_new_encrypted_wif H)) := by
  by_kernel

theorem bip38_confirm_code_in (H : Host) (x4 : Fn) (x5 : Fn) :
    memOf v!"BIP38" v!"confirm_code" (definitions { lib := library H, scope := [(v!"BIP38", .cls (some .BIP38) [(v!"__init__", .ctor (BIP38_init H)), (v!"intermediate_code", .fn (BIP38_intermediate_code H)), (v!"encrypt", .method (BIP38_encrypt H)), (v!"create_new_encrypted_wif", .method (BIP38_create_new_encrypted_wif H)), (v!"confirm_code", .method x4), (v!"decrypt", .method x5)])] ++ (imports [v!"bip38"] (Bip38World H) bip38Tree).getD [], methods := (fun n => allMethods (PointOrder H) ++ allMethods (PublicKeyOrder H) ++ allMethods (PrivateKeyOrder H) ++ allMethods (P2pkhAddressOrder H) ++ methodsBefore n (classMethods bip38Names [(v!"BIP38", .cls (some .BIP38) [(v!"__init__", .ctor (BIP38_init H)), (v!"intermediate_code", .fn (BIP38_intermediate_code H)), (v!"encrypt", .method (BIP38_encrypt H)), (v!"create_new_encrypted_wif", .method (BIP38_create_new_encrypted_wif H)), (v!"confirm_code", .method x4), (v!"decrypt", .method x5)])])) 0, str := Error_str H } (fun n => allMethods (PointOrder H) ++ allMethods (PublicKeyOrder H) ++ allMethods (PrivateKeyOrder H) ++ allMethods (P2pkhAddressOrder H) ++ methodsBefore n (classMethods bip38Names [(v!"BIP38", .cls (some .BIP38) [(v!"__init__", .ctor (BIP38_init H)), (v!"intermediate_code", .fn (BIP38_intermediate_code H)), (v!"encrypt", .method (BIP38_encrypt H)), (v!"create_new_encrypted_wif", .method (BIP38_create_new_encrypted_wif H)), (v!"confirm_code", .method x4), (v!"decrypt", .method x5)])])) bip38Tree) = some (.method (BIP38_confirm_code H)) := by
  by_kernel

theorem bip38_decrypt_in (H : Host) (x5 : Fn) :
    memOf v!"BIP38" v!"decrypt" (definitions { lib := library H, scope := [(v!"BIP38", .cls (some .BIP38) [(v!"__init__", .ctor (BIP38_init H)), (v!"intermediate_code", .fn (BIP38_intermediate_code H)), (v!"encrypt", .method (BIP38_encrypt H)), (v!"create_new_encrypted_wif", .method (BIP38_create_new_encrypted_wif H)), (v!"confirm_code", .method (BIP38_confirm_code H)), (v!"decrypt", .method x5)])] ++ (imports [v!"bip38"] (Bip38World H) bip38Tree).getD [], methods := (fun n => allMethods (PointOrder H) ++ allMethods (PublicKeyOrder H) ++ allMethods (PrivateKeyOrder H) ++ allMethods (P2pkhAddressOrder H) ++ methodsBefore n (classMethods bip38Names [(v!"BIP38", .cls (some .BIP38) [(v!"__init__", .ctor (BIP38_init H)), (v!"intermediate_code", .fn (BIP38_intermediate_code H)), (v!"encrypt", .method (BIP38_encrypt H)), (v!"create_new_encrypted_wif", .method (BIP38_create_new_encrypted_wif H)), (v!"confirm_code", .method (BIP38_confirm_code H)), (v!"decrypt", .method x5)])])) 0, str := Error_str H } (fun n => allMethods (PointOrder H) ++ allMethods (PublicKeyOrder H) ++ allMethods (PrivateKeyOrder H) ++ allMethods (P2pkhAddressOrder H) ++ methodsBefore n (classMethods bip38Names [(v!"BIP38", .cls (some .BIP38) [(v!"__init__", .ctor (BIP38_init H)), (v!"intermediate_code", .fn (BIP38_intermediate_code H)), (v!"encrypt", .method (BIP38_encrypt H)), (v!"create_new_encrypted_wif", .method (BIP38_create_new_encrypted_wif H)), (v!"confirm_code", .method (BIP38_confirm_code H)), (v!"decrypt", .method x5)])])) bip38Tree) = some (.method (BIP38_decrypt H)) := by
  by_kernel

theorem bip38_in (H : Host)  {x : Scope} (h : Defines H (strOf (ExceptionsDefs H)) [v!"bip38"] (Modules.world ⟨(ExceptionsDefs H), (ConstDefs H), (UtilsDefs H), (Ripemd160Defs H), (CryptoDefs H), (Base58Defs H), (PointDefs H), (PublicKeyDefs H), (PrivateKeyDefs H), (secp256k1Hands H), (WifDefs H), (P2pkhAddressDefs H), x⟩) (fun n => allMethods (classMethods pointNames (PointDefs H)) ++ allMethods (classMethods publicKeyNames (PublicKeyDefs H)) ++ allMethods (classMethods privateKeyNames (PrivateKeyDefs H)) ++ allMethods (classMethods p2pkhAddressNames (P2pkhAddressDefs H)) ++ methodsBefore n (classMethods bip38Names x)) Bip38Text x) : x = Bip38Defs H := by
  rw [strOf_eq, point_order, publicKey_order, privateKey_order, p2pkhAddress_order] at h
  obtain ⟨tree, ins, hp, hi, hd⟩ := h
  obtain rfl := Option.some.inj (bip38_parse.symm.trans hp)
  obtain rfl := Option.some.inj ((bip38_imports_in H x ).symm.trans hi)
  have hk0 := (bip38_shape ▸ shape_eq hd : _ = _)
  obtain ⟨ms, d, rfl, hm0, hk1⟩ := key_cls hk0
  obtain rfl := key_nil hk1
  obtain ⟨x0, d0, rfl, hm1⟩ := mem_ctor hm0
  obtain ⟨x1, d1, rfl, hm2⟩ := mem_fn hm1
  obtain ⟨x2, d2, rfl, hm3⟩ := mem_method hm2
  obtain ⟨x3, d3, rfl, hm4⟩ := mem_method hm3
  obtain ⟨x4, d4, rfl, hm5⟩ := mem_method hm4
  obtain ⟨x5, d5, rfl, hm6⟩ := mem_method hm5
  obtain rfl := mem_nil hm6
  obtain rfl := Mem.ctor.inj (Option.some.inj ((bip38_init_in H x0 x1 x2 x3 x4 x5).symm.trans (congrArg (memOf v!"BIP38" v!"__init__") hd)))
  obtain rfl := Mem.fn.inj (Option.some.inj ((bip38_intermediate_code_in H x1 x2 x3 x4 x5).symm.trans (congrArg (memOf v!"BIP38" v!"intermediate_code") hd)))
  obtain rfl := Mem.method.inj (Option.some.inj ((bip38_encrypt_in H x2 x3 x4 x5).symm.trans (congrArg (memOf v!"BIP38" v!"encrypt") hd)))
  obtain rfl := Mem.method.inj (Option.some.inj ((bip38_create_new_encrypted_wif_in H x3 x4 x5).symm.trans (congrArg (memOf v!"BIP38" v!"create_new_encrypted_wif") hd)))
  obtain rfl := Mem.method.inj (Option.some.inj ((bip38_confirm_code_in H x4 x5).symm.trans (congrArg (memOf v!"BIP38" v!"confirm_code") hd)))
  obtain rfl := Mem.method.inj (Option.some.inj ((bip38_decrypt_in H x5).symm.trans (congrArg (memOf v!"BIP38" v!"decrypt") hd)))
  rfl

/-! ### `bip38/secp256k1/__init__.py` -/

theorem secp256k1_imports_in (H : Host) (x ywif yp2pkhAddress ybip38 : Scope) :
    imports [v!"bip38.secp256k1", v!"bip38"] (Modules.world ⟨(ExceptionsDefs H), (ConstDefs H), (UtilsDefs H), (Ripemd160Defs H), (CryptoDefs H), (Base58Defs H), (PointDefs H), (PublicKeyDefs H), (PrivateKeyDefs H), x, ywif, yp2pkhAddress, ybip38⟩) secp256k1Tree = some (secp256k1Hands H) := by by_kernel

theorem secp256k1_in (H : Host) (ywif yp2pkhAddress ybip38 : Scope) {x : Scope} (h : HandsOn [v!"bip38.secp256k1", v!"bip38"] (Modules.world ⟨(ExceptionsDefs H), (ConstDefs H), (UtilsDefs H), (Ripemd160Defs H), (CryptoDefs H), (Base58Defs H), (PointDefs H), (PublicKeyDefs H), (PrivateKeyDefs H), x, ywif, yp2pkhAddress, ybip38⟩) Secp256k1Text x) : x = secp256k1Hands H := by
  obtain ⟨tree, hp, hi⟩ := h
  obtain rfl := Option.some.inj (secp256k1_parse.symm.trans hp)
  exact (Option.some.inj ((secp256k1_imports_in H x ywif yp2pkhAddress ybip38).symm.trans hi)).symm

/-! ### All files -/

theorem exceptions_means (H : Host) : Defines H (strOf (ExceptionsDefs H)) [v!"bip38"] (program H).world (fun _ => []) ExceptionsText (ExceptionsDefs H) := by
  rw [strOf_eq]
  exact ⟨exceptionsTree, _, exceptions_parse, exceptions_imports_in H _ _ _ _ _ _ _ _ _ _ _ _ _, exceptions_definitions H⟩

theorem const_means (H : Host) : Defines H (strOf (ExceptionsDefs H)) [v!"bip38"] (program H).world (fun _ => []) ConstText (ConstDefs H) := by
  rw [strOf_eq]
  exact ⟨constTree, _, const_parse, const_imports_in H _ _ _ _ _ _ _ _ _ _ _ _, const_definitions H⟩

theorem utils_means (H : Host) : Defines H (strOf (ExceptionsDefs H)) [v!"bip38"] (program H).world (fun _ => []) UtilsText (UtilsDefs H) := by
  rw [strOf_eq]
  exact ⟨utilsTree, _, utils_parse, utils_imports_in H _ _ _ _ _ _ _ _ _ _ _, utils_definitions H⟩

theorem ripemd160_means (H : Host) : Defines H (strOf (ExceptionsDefs H)) [v!"bip38.libs", v!"bip38"] (program H).world (fun _ => []) Ripemd160Text (Ripemd160Defs H) := by
  rw [strOf_eq]
  exact ⟨ripemd160Tree, _, ripemd160_parse, ripemd160_imports_in H _ _ _ _ _ _ _ _ _ _, ripemd160_definitions H⟩

theorem crypto_means (H : Host) : Defines H (strOf (ExceptionsDefs H)) [v!"bip38"] (program H).world (fun _ => []) CryptoText (CryptoDefs H) := by
  rw [strOf_eq]
  exact ⟨cryptoTree, _, crypto_parse, crypto_imports_in H _ _ _ _ _ _ _ _ _, crypto_definitions H⟩

theorem base58_means (H : Host) : Defines H (strOf (ExceptionsDefs H)) [v!"bip38.libs", v!"bip38"] (program H).world (fun _ => []) Base58Text (Base58Defs H) := by
  rw [strOf_eq]
  exact ⟨base58Tree, _, base58_parse, base58_imports_in H _ _ _ _ _ _ _ _, base58_definitions H⟩

theorem wif_means (H : Host) : Defines H (strOf (ExceptionsDefs H)) [v!"bip38"] (program H).world (fun _ => allMethods (classMethods pointNames (PointDefs H)) ++ allMethods (classMethods publicKeyNames (PublicKeyDefs H)) ++ allMethods (classMethods privateKeyNames (PrivateKeyDefs H))) WifText (WifDefs H) := by
  rw [strOf_eq, point_order, publicKey_order, privateKey_order]
  exact ⟨wifTree, _, wif_parse, wif_imports_in H _ _ _, wif_definitions H⟩

theorem point_means (H : Host) : Defines H (strOf (ExceptionsDefs H)) [v!"bip38.secp256k1", v!"bip38"] (program H).world (fun n => methodsBefore n (classMethods pointNames (PointDefs H))) PointText (PointDefs H) := by
  rw [strOf_eq, point_order]
  exact ⟨pointTree, _, point_parse, point_imports_in H _ _ _ _ _ _ _, point_definitions H⟩

theorem publicKey_means (H : Host) : Defines H (strOf (ExceptionsDefs H)) [v!"bip38.secp256k1", v!"bip38"] (program H).world (fun n => allMethods (classMethods pointNames (PointDefs H)) ++ methodsBefore n (classMethods publicKeyNames (PublicKeyDefs H))) PublicKeyText (PublicKeyDefs H) := by
  rw [strOf_eq, point_order, publicKey_order]
  exact ⟨publicKeyTree, _, publicKey_parse, publicKey_imports_in H _ _ _ _ _ _, publicKey_definitions H⟩

theorem privateKey_means (H : Host) : Defines H (strOf (ExceptionsDefs H)) [v!"bip38.secp256k1", v!"bip38"] (program H).world (fun n => allMethods (classMethods pointNames (PointDefs H)) ++ allMethods (classMethods publicKeyNames (PublicKeyDefs H)) ++ methodsBefore n (classMethods privateKeyNames (PrivateKeyDefs H))) PrivateKeyText (PrivateKeyDefs H) := by
  rw [strOf_eq, point_order, publicKey_order, privateKey_order]
  exact ⟨privateKeyTree, _, privateKey_parse, privateKey_imports_in H _ _ _ _ _, privateKey_definitions H⟩

theorem p2pkhAddress_means (H : Host) : Defines H (strOf (ExceptionsDefs H)) [v!"bip38"] (program H).world (fun n => allMethods (classMethods pointNames (PointDefs H)) ++ allMethods (classMethods publicKeyNames (PublicKeyDefs H)) ++ allMethods (classMethods privateKeyNames (PrivateKeyDefs H)) ++ methodsBefore n (classMethods p2pkhAddressNames (P2pkhAddressDefs H))) P2pkhAddressText (P2pkhAddressDefs H) := by
  rw [strOf_eq, point_order, publicKey_order, privateKey_order, p2pkhAddress_order]
  exact ⟨p2pkhAddressTree, _, p2pkhAddress_parse, p2pkhAddress_imports_in H _ _, p2pkhAddress_definitions H⟩

theorem bip38_means (H : Host) : Defines H (strOf (ExceptionsDefs H)) [v!"bip38"] (program H).world (fun n => allMethods (classMethods pointNames (PointDefs H)) ++ allMethods (classMethods publicKeyNames (PublicKeyDefs H)) ++ allMethods (classMethods privateKeyNames (PrivateKeyDefs H)) ++ allMethods (classMethods p2pkhAddressNames (P2pkhAddressDefs H)) ++ methodsBefore n (classMethods bip38Names (Bip38Defs H))) Bip38Text (Bip38Defs H) := by
  rw [strOf_eq, point_order, publicKey_order, privateKey_order, p2pkhAddress_order, bip38_order]
  exact ⟨bip38Tree, _, bip38_parse, bip38_imports_in H _ , bip38_definitions H⟩

theorem secp256k1_means (H : Host) : HandsOn [v!"bip38.secp256k1", v!"bip38"] (program H).world Secp256k1Text (secp256k1Hands H) :=
  ⟨secp256k1Tree, secp256k1_parse, secp256k1_imports_in H _ _ _ _⟩

/-- The texts mean the terms of `Verif/Src`. -/
theorem program_means (H : Host) : Program H (program H) :=
  ⟨exceptions_means H, const_means H, utils_means H, ripemd160_means H, crypto_means H, base58_means H, point_means H, publicKey_means H, privateKey_means H, secp256k1_means H, wif_means H, p2pkhAddress_means H, bip38_means H⟩

/-- And nothing else. -/
theorem program_only (H : Host) {m : Modules} (h : Program H m) : m = program H := by
  obtain ⟨xexceptions, xconst, xutils, xripemd160, xcrypto, xbase58, xpoint, xpublicKey, xprivateKey, xsecp256k1, xwif, xp2pkhAddress, xbip38⟩ := m
  obtain ⟨hexceptions, hconst, hutils, hripemd160, hcrypto, hbase58, hpoint, hpublicKey, hprivateKey, hsecp256k1, hwif, hp2pkhAddress, hbip38⟩ := h
  have eexceptions := exceptions_in H xconst xutils xripemd160 xcrypto xbase58 xpoint xpublicKey xprivateKey xsecp256k1 xwif xp2pkhAddress xbip38 hexceptions
  subst eexceptions
  have econst := const_in H xutils xripemd160 xcrypto xbase58 xpoint xpublicKey xprivateKey xsecp256k1 xwif xp2pkhAddress xbip38 hconst
  subst econst
  have eutils := utils_in H xripemd160 xcrypto xbase58 xpoint xpublicKey xprivateKey xsecp256k1 xwif xp2pkhAddress xbip38 hutils
  subst eutils
  have eripemd160 := ripemd160_in H xcrypto xbase58 xpoint xpublicKey xprivateKey xsecp256k1 xwif xp2pkhAddress xbip38 hripemd160
  subst eripemd160
  have ecrypto := crypto_in H xbase58 xpoint xpublicKey xprivateKey xsecp256k1 xwif xp2pkhAddress xbip38 hcrypto
  subst ecrypto
  have ebase58 := base58_in H xpoint xpublicKey xprivateKey xsecp256k1 xwif xp2pkhAddress xbip38 hbase58
  subst ebase58
  have epoint := point_in H xpublicKey xprivateKey xsecp256k1 xwif xp2pkhAddress xbip38 hpoint
  subst epoint
  have epublicKey := publicKey_in H xprivateKey xsecp256k1 xwif xp2pkhAddress xbip38 hpublicKey
  subst epublicKey
  have eprivateKey := privateKey_in H xsecp256k1 xwif xp2pkhAddress xbip38 hprivateKey
  subst eprivateKey
  have esecp256k1 := secp256k1_in H xwif xp2pkhAddress xbip38 hsecp256k1
  subst esecp256k1
  have ewif := wif_in H xp2pkhAddress xbip38 hwif
  subst ewif
  have ep2pkhAddress := p2pkhAddress_in H xbip38 hp2pkhAddress
  subst ep2pkhAddress
  have ebip38 := bip38_in H  hbip38
  subst ebip38
  rfl

end Bip38.Py
