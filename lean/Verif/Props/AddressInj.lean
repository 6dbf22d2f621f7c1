import Verif.Props.Address
import Verif.Props.Curve
/-!
# Property C54: an address determines prefix and public key hash
-/
namespace Bip38.Props
open Bip38 Spec

variable (P : Prims)

/-- C54: two addresses (for prefixes of any size, keys, types) are equal exactly when prefix and HASH160 are. -/
theorem C54_address_injective (hP : P.Lawful) (n m : Nat) (k k' : PublicKey) (type type' : String) (alphabet : Str)
    (ha : ValidAlphabet alphabet) :
    p2pkhEncode P (.key k) (n : Int) type alphabet = p2pkhEncode P (.key k') (m : Int) type' alphabet
      ↔ n = m ∧ h160 P (sec1 k type) = h160 P (sec1 k' type') := by
  obtain ⟨pre, hpre, _, h1⟩ := integerToBytes_ok n
  obtain ⟨pre', hpre', _, h1'⟩ := integerToBytes_ok m
  rw [p2pkhEncode_key k n pre hpre type alphabet, p2pkhEncode_key k' m pre' hpre' type' alphabet]
  constructor
  · intro h
    have h := C01_encode_injective _ ha _ _ (Except.ok.inj h)
    obtain ⟨h, _⟩ := List.append_inj' h (by rw [checksum_length hP, checksum_length hP])
    obtain ⟨ha, hb⟩ := List.append_inj' h (by rw [h160_length hP, h160_length hP])
    refine ⟨?_, hb⟩
    rw [← h1, ← h1', ha]
  · rintro ⟨rfl, h⟩
    have := Except.ok.inj (hpre.symm.trans hpre')
    subst this
    rw [h]

/-- C54: the two serialisations of public keys determine the key, so that addresses of different keys, or of the two types of one key,
are different unless the hash functions collide. -/
theorem C54_serialisation_injective (k k' : PublicKey) (hk : OnSecp256k1 k.x k.y) (hk' : OnSecp256k1 k'.x k'.y) (type type' : String) :
    k.raw type = k'.raw type' ↔ k = k' ∧ (type = "compressed" ↔ type' = "compressed") := by
  constructor
  · intro h
    obtain ⟨h1, l1⟩ := C15_public_key_roundtrip k hk type
    obtain ⟨h2, l2⟩ := C15_public_key_roundtrip k' hk' type'
    refine ⟨?_, ?_⟩
    · rw [h, h2] at h1; exact (Except.ok.inj h1).symm
    · rw [h, l2] at l1
      by_cases t : type = "compressed" <;> by_cases t' : type' = "compressed" <;> simp [t, t'] at l1 ⊢
  · rintro ⟨rfl, ht⟩
    unfold PublicKey.raw
    simp only [ht]

/-- The hypotheses are met by the generator and its negative. -/
example : OnSecp256k1 genX genY ∧ OnSecp256k1 genX (fieldP - genY) ∧ genY ≠ fieldP - genY :=
  ⟨⟨by decide +kernel, by decide +kernel, by decide +kernel⟩, ⟨by decide +kernel, by decide +kernel, by decide +kernel⟩, by decide +kernel⟩

end Bip38.Props
