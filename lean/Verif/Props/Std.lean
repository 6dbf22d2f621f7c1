import Verif.Std.Prims
import Verif.Lemmas.Aes
import Verif.Lemmas.Ripemd160
/-!
# The assumptions about the external functions are met by the standard functions

The theorems assume `Prims.Lawful`.  Here the assumption is proved of SHA-256, scrypt and AES-256 as their standards define them.
-/
namespace Bip38.Std

theorem beBytes_length (w : UInt32) : (beBytes w).length = 4 := rfl

theorem sha256_length (m : Bytes) : (sha256 m).length = 32 := rfl

theorem hmac_length (k m : Bytes) : (hmac k m).length = 32 := rfl

theorem pbkdf2_length (pw salt : Bytes) (n : Nat) : (pbkdf2 pw salt n).length = n := by
  unfold pbkdf2
  rw [List.length_take, List.length_flatMap]
  simp only [hmac_length, List.map_const', List.length_range, List.sum_replicate, smul_eq_mul]
  omega

theorem scrypt_length (pw salt : Bytes) (n r p len : Nat) : (scrypt pw salt n r p len).length = len := pbkdf2_length _ _ _

/-- The standard functions are lawful, whatever the Unicode normalisation. -/
theorem prims_lawful (nfc : Str → Str) : (prims nfc).Lawful where
  sha256_length := sha256_length
  ripemd160_length := by intro f hf; simp [prims] at hf
  scrypt_length := scrypt_length
  aesEncrypt_length := aesEncrypt_length
  aesDecrypt_length := aesDecrypt_length
  aesDecrypt_aesEncrypt := aesDecrypt_aesEncrypt

/-- Published values: SHA-256 of `abc` (FIPS 180-4), AES-256 (FIPS 197, C.3), scrypt with N = 16 (RFC 7914). -/
example : sha256 (utf8 "abc".toList) = [0xba, 0x78, 0x16, 0xbf, 0x8f, 0x01, 0xcf, 0xea, 0x41, 0x41, 0x40, 0xde, 0x5d, 0xae, 0x22, 0x23,
    0xb0, 0x03, 0x61, 0xa3, 0x96, 0x17, 0x7a, 0x9c, 0xb4, 0x10, 0xff, 0x61, 0xf2, 0x00, 0x15, 0xad] := by decide +kernel
example : aesEncrypt [0x00, 0x01, 0x02, 0x03, 0x04, 0x05, 0x06, 0x07, 0x08, 0x09, 0x0a, 0x0b, 0x0c, 0x0d, 0x0e, 0x0f, 0x10, 0x11, 0x12,
    0x13, 0x14, 0x15, 0x16, 0x17, 0x18, 0x19, 0x1a, 0x1b, 0x1c, 0x1d, 0x1e, 0x1f]
    [0x00, 0x11, 0x22, 0x33, 0x44, 0x55, 0x66, 0x77, 0x88, 0x99, 0xaa, 0xbb, 0xcc, 0xdd, 0xee, 0xff]
    = [0x8e, 0xa2, 0xb7, 0xca, 0x51, 0x67, 0x45, 0xbf, 0xea, 0xfc, 0x49, 0x90, 0x4b, 0x49, 0x60, 0x89] := by decide +kernel
example : scrypt [] [] 16 1 1 64 = [0x77, 0xd6, 0x57, 0x62, 0x38, 0x65, 0x7b, 0x20, 0x3b, 0x19, 0xca, 0x42, 0xc1, 0x8a, 0x04, 0x97,
    0xf1, 0x6b, 0x48, 0x44, 0xe3, 0x07, 0x4a, 0xe8, 0xdf, 0xdf, 0xfa, 0x3f, 0xed, 0xe2, 0x14, 0x42, 0xfc, 0xd0, 0x06, 0x9d, 0xed, 0x09,
    0x48, 0xf8, 0x32, 0x6a, 0x75, 0x3a, 0x0f, 0xc8, 0x1f, 0x17, 0xe8, 0xd3, 0xe0, 0xfb, 0x2e, 0x0d, 0x36, 0x28, 0xcf, 0x35, 0xe2, 0x0c,
    0x38, 0xd1, 0x89, 0x06] := by decide +kernel

end Bip38.Std
