import Verif.Spec.External
import Verif.Spec.Bip38
import Verif.Spec.Intermediate
/-!
# Which external functions a call uses, in which order (C99)
-/
namespace Bip38.Spec
open Bip38

/-- A call of an external function without the data it works on: what somebody sees who watches which functions are called. -/
inductive ExtStep
  | urandom (bytes : Nat)
  | sha256
  | ripemd160
  | normalize
  | scrypt (N r p buflen : Nat)
  | aesEncrypt
  | aesDecrypt
  deriving DecidableEq, Repr

/-- The step of a request. -/
def stepOf : Request → ExtStep
  | .urandom k => .urandom k
  | .sha256 _ => .sha256
  | .ripemd160 _ => .ripemd160
  | .normalize _ => .normalize
  | .scrypt _ _ N r p buflen => .scrypt N r p buflen
  | .aesEncrypt _ _ => .aesEncrypt
  | .aesDecrypt _ _ => .aesDecrypt

/-- The steps of a run. -/
def steps (log : List Request) : List ExtStep := log.map stepOf

/-- Two hashes: a checksum, a Base58Check text, a double hash. -/
def twice : List ExtStep := [.sha256, .sha256]

variable (P : Prims)

/-- The address of a public key: its hash (RIPEMD-160 of `hashlib` only where there is one) and the Base58Check text. -/
def addressSteps : List ExtStep := [.sha256] ++ (if P.hashlibRipemd160.isSome then [.ripemd160] else []) ++ twice

/-- A passphrase is normalised and stretched. -/
def stretchSteps (buflen : Nat) : List ExtStep := [.normalize, .scrypt 16384 8 8 buflen]

/-- `encrypt`: address, its hash, key from the passphrase, two blocks, checksum. -/
def encryptSteps : List ExtStep := addressSteps P ++ twice ++ stretchSteps 64 ++ [.aesEncrypt, .aesEncrypt] ++ twice

/-- The pass factor. -/
def factorSteps (lot : Bool) : List ExtStep := stretchSteps 32 ++ if lot then twice else []

/-- `decrypt` of a record without EC multiplication: key from the passphrase, two blocks, address and its hash, the two forms of the WIF. -/
def decryptSteps : List ExtStep := stretchSteps 64 ++ [.aesDecrypt, .aesDecrypt] ++ addressSteps P ++ twice ++ (twice ++ twice)

/-- `decrypt` of a record with EC multiplication and this flag byte. -/
def decryptEcSteps (flag : UInt8) : List ExtStep :=
  factorSteps (hasLot flag) ++ [.scrypt 1024 1 1 64, .aesDecrypt, .aesDecrypt] ++ twice ++ addressSteps P ++ twice ++ (twice ++ twice)

/-- `confirm_code` of a code with this flag byte. -/
def confirmSteps (flag : UInt8) : List ExtStep :=
  twice ++ factorSteps (hasLot flag) ++ [.scrypt 1024 1 1 64, .aesDecrypt, .aesDecrypt] ++ addressSteps P ++ twice

/-- `create_new_encrypted_wif` with or without a given seed. -/
def createSteps (given : Bool) : List ExtStep :=
  (if given then [] else [.urandom 24]) ++ twice ++ twice ++ addressSteps P ++ twice ++
    [.scrypt 1024 1 1 64, .aesEncrypt, .aesEncrypt] ++ twice ++ [.aesEncrypt, .aesEncrypt] ++ twice

/-- `intermediate_code` with or without a given salt, lot and sequence. -/
def intermediateSteps (given lot : Bool) : List ExtStep :=
  (if given then [] else [.urandom 8]) ++ factorSteps lot ++ twice

/-- A run with the outcome `r` and the requests `log` follows the plan `l`: its steps are an initial part of it, and all of it if a value is returned. -/
def Keeps {α : Type} (l : List ExtStep) (r : Py α) (log : List Request) : Prop := steps log <+: l ∧ ∀ a, r = .ok a → steps log = l

end Bip38.Spec
