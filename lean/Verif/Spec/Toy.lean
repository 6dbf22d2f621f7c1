import Verif.Spec.Bip38
/-!
# A small lawful choice of the external primitives

Used only to show that hypotheses can be met and to give counterexamples: SHA-256 and scrypt return constant bytes and AES is
the identity.  (`Std/` has the real primitives; `Props/Std.lean` proves them lawful.)
-/
namespace Bip38.Spec

/-- Hashes are made of the byte `h`, scrypt outputs of the byte `s`. -/
def toy (h s : UInt8) : Prims where
  sha256 _ := List.replicate 32 h
  hashlibRipemd160 := some fun _ => List.replicate 20 0
  scrypt _ _ _ _ _ len := List.replicate len s
  aesEncrypt _ b := b
  aesDecrypt _ b := b
  nfc := id

theorem toy_lawful (h s : UInt8) : (toy h s).Lawful where
  sha256_length := by simp [toy]
  ripemd160_length := by
    intro f hf b
    simp only [toy, Option.some.injEq] at hf
    subst hf; simp
  scrypt_length := by simp [toy]
  aesEncrypt_length := by simp [toy]
  aesDecrypt_length := by simp [toy]
  aesDecrypt_aesEncrypt := by simp [toy]

/-- Hashes are the first 32 bytes of their input (padded with zeros), scrypt outputs are made of the byte `s`. -/
def echo (s : UInt8) : Prims := { toy 0 s with sha256 := fun b => (b ++ List.replicate 32 0).take 32 }

theorem echo_lawful (s : UInt8) : (echo s).Lawful where
  sha256_length := by simp [echo]
  ripemd160_length := (toy_lawful 0 s).ripemd160_length
  scrypt_length := (toy_lawful 0 s).scrypt_length
  aesEncrypt_length := (toy_lawful 0 s).aesEncrypt_length
  aesDecrypt_length := (toy_lawful 0 s).aesDecrypt_length
  aesDecrypt_aesEncrypt := (toy_lawful 0 s).aesDecrypt_aesEncrypt

/-- Hashes are the number 1 in 32 bytes, except that 40-byte strings, and the result of hashing them, give 32 bytes 1;
scrypt outputs are made of the byte `s`. -/
def unit (s : UInt8) : Prims :=
  { toy 0 s with sha256 := fun b => if b.length = 40 ∨ b = List.replicate 32 1 then List.replicate 32 1 else toBE 32 1 }

theorem unit_lawful (s : UInt8) : (unit s).Lawful where
  sha256_length := by
    intro b
    simp only [unit]
    split
    · simp
    · decide
  ripemd160_length := (toy_lawful 0 s).ripemd160_length
  scrypt_length := (toy_lawful 0 s).scrypt_length
  aesEncrypt_length := (toy_lawful 0 s).aesEncrypt_length
  aesDecrypt_length := (toy_lawful 0 s).aesDecrypt_length
  aesDecrypt_aesEncrypt := (toy_lawful 0 s).aesDecrypt_aesEncrypt

/-- `BIP38(Bitcoin)`. -/
def bitcoinObject : BIP38 := ⟨Coins.Bitcoin, Coins.Bitcoin.networkNames, "mainnet", bitcoinAlphabet⟩

theorem bitcoin_selects : Selects bitcoinObject none Coins.Bitcoin "mainnet" ⟨0x80, 0x00⟩ where
  proper := by decide +kernel
  built := ⟨"mainnet", by rfl⟩
  chosen := by simp [bitcoinObject]
  found := by decide +kernel

theorem bitcoin_selects_testnet : Selects bitcoinObject (some "testnet") Coins.Bitcoin "testnet" ⟨0xef, 0x6f⟩ where
  proper := by decide +kernel
  built := ⟨"mainnet", by rfl⟩
  chosen := by simp
  found := by decide +kernel

end Bip38.Spec
