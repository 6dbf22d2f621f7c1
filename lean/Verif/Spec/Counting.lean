import Verif.Model.Crypto
/-!
# Counting the outputs of the key derivation

`withDerived P dk` is `P` with a key derivation function that answers every request with the 64 bytes `dk` (cut to the requested
length). Every 64-byte answer scrypt could give is one such `dk`.
-/
namespace Bip38.Spec

/-- `P` where scrypt returns the bytes `dk` (the first `len` of them; for `len > 64`, which the library never asks, zero bytes follow). -/
def withDerived (P : Prims) (dk : Fin 64 → UInt8) : Prims :=
  { P with scrypt := fun _ _ _ _ _ len => (List.ofFn dk ++ List.replicate len 0).take len }

theorem withDerived_lawful {P : Prims} (hP : P.Lawful) (dk : Fin 64 → UInt8) : (withDerived P dk).Lawful :=
  { sha256_length := hP.sha256_length
    ripemd160_length := hP.ripemd160_length
    scrypt_length := fun _ _ _ _ _ len => by
      simp only [withDerived, List.length_take, List.length_append, List.length_ofFn, List.length_replicate]
      omega
    aesEncrypt_length := hP.aesEncrypt_length
    aesDecrypt_length := hP.aesDecrypt_length
    aesDecrypt_aesEncrypt := hP.aesDecrypt_aesEncrypt }

end Bip38.Spec
