import Verif.Spec.Bip38
/-!
# The records of the BIP38 standard

What any program that follows BIP38 writes, as formulas on 16-byte blocks (no integers, no stripping of zeros).
-/
namespace Bip38.Spec

variable (P : Prims)

/-- First encrypted block of a 24-byte seed: `AES(seedb[0...15] xor derivedhalf1[0...15])`. -/
def standardBlock1 (dk seed : Bytes) : Bytes := P.aesEncrypt (dk.drop 32) (bxor (seed.take 16) (dk.take 16))

/-- Second block: `AES((encryptedpart1[8...15] + seedb[16...23]) xor derivedhalf1[16...31])`. -/
def standardBlock2 (dk seed : Bytes) : Bytes :=
  P.aesEncrypt (dk.drop 32) (bxor ((standardBlock1 P dk seed).drop 8 ++ seed.drop 16) ((dk.take 32).drop 16))

/-- `0x01 0x43 + flagbyte + addresshash + ownerentropy + encryptedpart1[0...7] + encryptedpart2[0...15]`. -/
def standardEcRecord (flag : UInt8) (hash entropy dk seed : Bytes) : Bytes :=
  [0x01, 0x43, flag] ++ hash ++ entropy ++ (standardBlock1 P dk seed).take 8 ++ standardBlock2 P dk seed

/-- `0x64 0x3B 0xF6 0xA8 0x9A + flagbyte + addresshash + ownerentropy + encryptedpointb`, where the first byte of `encryptedpointb` is
that of `pointb` with its lowest bit changed by the last derived byte, and the 32 others are the two encrypted halves. -/
def standardConfirmRecord (flag : UInt8) (hash entropy dk : Bytes) (pointB : PublicKey) : Bytes :=
  [0x64, 0x3b, 0xf6, 0xa8, 0x9a, flag] ++ hash ++ entropy
    ++ [(if pointB.y % 2 = 0 then 2 else 3) ^^^ (dk.getD 63 0 &&& 1)]
    ++ P.aesEncrypt (dk.drop 32) (bxor ((toBE 32 pointB.x).take 16) (dk.take 16))
    ++ P.aesEncrypt (dk.drop 32) (bxor ((toBE 32 pointB.x).drop 16) ((dk.take 32).drop 16))

/-- A key shared between the owner of a passphrase and a printer, as BIP38 defines it: pass factor `pf` from the passphrase and the owner
entropy, pass point `pp`, 24-byte seed, private key `key = pf * factorb mod N` and its public key `pk`, and the 64 derived bytes. -/
structure Shared (v : Net) (pass : Str) (lot : Bool) (ent : Bytes) (type : String) (seed key : Bytes) (pk : PublicKey) (dk : Bytes) :
    Prop where
  entropy : ent.length = 8
  type_ok : IsWifType type
  seed_length : seed.length = 24
  pass_factor : IsPrivateKey (passFactor P lot pass ent)
  seed_factor : IsPrivateKey (dsha P seed)
  key_ok : IsPrivateKey key
  key_value : be key = be (passFactor P lot pass ent) * be (dsha P seed) % n256k1
  public_key : IsPublicKeyOf pk key
  derived : ∃ pp, IsPublicKeyOf pp (passFactor P lot pass ent) ∧ dk = ecDerive P (sec1 pp "compressed") (addressHash P v pk (pubType type)) ent

/-- The lot and sequence numbers stored in the entropy. -/
def storedLot (lot : Bool) (ent : Bytes) : Option (Nat × Nat) :=
  if lot then some (be (ent.drop 4) / 4096, be (ent.drop 4) % 4096) else none

end Bip38.Spec
