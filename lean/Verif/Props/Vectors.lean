import Verif.Spec.Vectors
import Verif.Spec.Toy
import Verif.Props.Std
import Verif.Props.NoEc
/-!
# Published vectors

The vectors of `tests/data/values.json` (taken from BIP38 and other implementations) for one key of each kind, with SHA-256, AES-256,
RIPEMD-160 and the curve computed by the kernel. They are cases of the general theorems with the real functions, no proofs of them.
-/
namespace Bip38.Std
open Bip38 Spec

theorem vectorPrims_lawful : vectorPrims.Lawful where
  sha256_length := sha256_length
  ripemd160_length := by intro f hf; simp [vectorPrims, prims] at hf
  scrypt_length := by
    have h : ∀ x ∈ scryptTable, x.2.length = x.1.buflen := by decide +kernel
    intro pw salt n r p len
    show List.length (match scryptTable.lookup ⟨pw, salt, n, r, p, len⟩ with
      | some b => b
      | none => List.replicate len 0) = len
    cases hl : scryptTable.lookup ⟨pw, salt, n, r, p, len⟩ with
    | none => simp
    | some b =>
      obtain ⟨l1, l2, he, _⟩ := List.lookup_eq_some_iff.mp hl
      have := h (⟨pw, salt, n, r, p, len⟩, b) (by rw [he]; simp)
      exact this
  aesEncrypt_length := aesEncrypt_length
  aesDecrypt_length := aesDecrypt_length
  aesDecrypt_aesEncrypt := aesDecrypt_aesEncrypt

/-- `encrypt`, uncompressed key on mainnet. -/
theorem vector_encrypt : bitcoinObject.encrypt vectorPrims "5KN7MzqK5wt2TP1fQCYyHBtDrXdJuXbUzm4A9rKAteGu3Qi5CVR".toList
    "TestingOneTwoThree".toList = .ok "6PRVWUbkzzsbcVac2qwfssoUJAN1Xhrg6bNk8J7Nzm5H7kxEbn2Nh2ZoGg".toList := by decide +kernel

/-- `encrypt`, compressed key on testnet. -/
theorem vector_encrypt_testnet : bitcoinObject.encrypt vectorPrims "cURAYbG6FtvUasdBsooEmmY9MqUfhJ8tdybQWV7iA4BAwunCT2Fu".toList
    "TestingOneTwoThree".toList (some "testnet") = .ok "6PYVB5nHnumbUua1UmsAMPHWHa76Ci48MY79aKYnpKmwxeGqHU2XpXtKvo".toList := by
  decide +kernel

end Bip38.Std
