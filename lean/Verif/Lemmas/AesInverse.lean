import Mathlib.Data.List.Basic
import Mathlib.Data.Set.Finite.List
import Verif.Model.Crypto
/-! # Block encryption is also a left inverse of block decryption -/
namespace Bip38

theorem uint8_finite : Finite UInt8 := Finite.of_injective UInt8.toFin (fun _ _ h => UInt8.toFin_inj.mp h)

/-- Decryption undoes encryption on the finitely many blocks, hence encryption undoes decryption. -/
theorem Prims.Lawful.aesEncrypt_aesDecrypt {P : Prims} (hP : P.Lawful) (k b : Bytes) (hk : k.length = 32) (hb : b.length = 16) :
    P.aesEncrypt k (P.aesDecrypt k b) = b := by
  have := uint8_finite
  have : Finite {l : Bytes // l.length = 16} := List.finite_length_eq UInt8 16
  let f : {l : Bytes // l.length = 16} → {l : Bytes // l.length = 16} := fun x => ⟨P.aesEncrypt k x.1, hP.aesEncrypt_length k x.1 hk x.2⟩
  have hf : Function.Injective f := by
    intro x y h
    have h1 : P.aesEncrypt k x.1 = P.aesEncrypt k y.1 := congrArg Subtype.val h
    apply Subtype.ext
    rw [← hP.aesDecrypt_aesEncrypt k x.1 hk x.2, ← hP.aesDecrypt_aesEncrypt k y.1 hk y.2, h1]
  obtain ⟨⟨x, hx⟩, he⟩ := (Finite.injective_iff_surjective.mp hf) ⟨b, hb⟩
  have he : P.aesEncrypt k x = b := congrArg Subtype.val he
  rw [← he, hP.aesDecrypt_aesEncrypt k x hk hx]

end Bip38
