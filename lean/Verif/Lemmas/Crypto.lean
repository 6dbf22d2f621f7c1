import Verif.Spec.Crypto
import Verif.Lemmas.Utils
/-! # Lemmas on `bip38/crypto.py` -/
namespace Bip38
open Spec

variable {P : Prims}

@[simp] theorem sha256_bytes (b : Bytes) : sha256 P (.bytes b) = .ok (P.sha256 b) := by
  simp [sha256, bind, Except.bind]

@[simp] theorem doubleSha256_bytes (b : Bytes) : doubleSha256 P (.bytes b) = .ok (dsha P b) := by
  simp [doubleSha256, bind, Except.bind, dsha]

@[simp] theorem getChecksum_bytes (b : Bytes) : getChecksum P (.bytes b) = .ok (checksum P b) := by
  simp [getChecksum, bind, Except.bind, checksum, CHECKSUM_BYTE_LENGTH]

@[simp] theorem hash160_bytes (b : Bytes) : hash160 P (.bytes b) = .ok (h160 P b) := by
  unfold hash160 h160 rip ripemd160
  cases P.hashlibRipemd160 <;> simp [bind, Except.bind]

theorem dsha_length (hP : P.Lawful) (b : Bytes) : (dsha P b).length = 32 := hP.sha256_length _

theorem checksum_length (hP : P.Lawful) (b : Bytes) : (checksum P b).length = 4 := by
  simp [checksum, dsha_length hP]

theorem ripemd_length (b : Bytes) : (Ripemd.ripemd160 b).length = 20 := by
  simp [Ripemd.ripemd160, Ripemd.packWord]

theorem h160_length (hP : P.Lawful) (b : Bytes) : (h160 P b).length = 20 := by
  unfold h160 rip
  cases h : P.hashlibRipemd160 with
  | none => exact ripemd_length _
  | some f => exact hP.ripemd160_length f h _

end Bip38
