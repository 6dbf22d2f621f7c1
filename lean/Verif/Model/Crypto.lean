import Verif.Model.Const
import Verif.Model.Ripemd160
/-!
# External primitives, and the model of `bip38/crypto.py`
-/
namespace Bip38

/-- The external functions called by the library.  They are parameters of the model; `Prims.Lawful` states
what the proofs assume about them. -/
structure Prims where
  /-- `hashlib.sha256(b).digest()` -/
  sha256 : Bytes → Bytes
  /-- `hashlib.new("ripemd160", b).digest()` when `"ripemd160" in hashlib.algorithms_available`, else `none` -/
  hashlibRipemd160 : Option (Bytes → Bytes)
  /-- `scrypt.hash(password, salt, N, r, p, buflen)` (a `str` password is encoded as UTF-8 by the package) -/
  scrypt : (password salt : Bytes) → (N r p buflen : Nat) → Bytes
  /-- AES block encryption `pyaes.AES(key).encrypt(block)` -/
  aesEncrypt : (key block : Bytes) → Bytes
  /-- AES block decryption `pyaes.AES(key).decrypt(block)` -/
  aesDecrypt : (key block : Bytes) → Bytes
  /-- `unicodedata.normalize("NFC", s)` -/
  nfc : Str → Str

/-- What is assumed about the external functions. -/
structure Prims.Lawful (P : Prims) : Prop where
  sha256_length : ∀ b, (P.sha256 b).length = 32
  ripemd160_length : ∀ f, P.hashlibRipemd160 = some f → ∀ b, (f b).length = 20
  scrypt_length : ∀ pw salt n r p len, (P.scrypt pw salt n r p len).length = len
  aesEncrypt_length : ∀ k b, k.length = 32 → b.length = 16 → (P.aesEncrypt k b).length = 16
  aesDecrypt_length : ∀ k b, k.length = 32 → b.length = 16 → (P.aesDecrypt k b).length = 16
  aesDecrypt_aesEncrypt : ∀ k b, k.length = 32 → b.length = 16 → P.aesDecrypt k (P.aesEncrypt k b) = b

variable (P : Prims)

/-- `bip38/crypto.py:16-31` `ripemd160`. -/
def ripemd160 (data : Data) : Py Bytes := do
  match P.hashlibRipemd160 with
  | some f => let b ← getBytes data; .ok (f b)
  | none => let b ← getBytes data; .ok (Ripemd.ripemd160 b)

/-- `bip38/crypto.py:34-45` `sha256`. -/
def sha256 (data : Data) : Py Bytes := do
  let b ← getBytes data
  .ok (P.sha256 b)

/-- `bip38/crypto.py:48-59` `double_sha256`. -/
def doubleSha256 (data : Data) : Py Bytes := do
  let h ← sha256 P data
  sha256 P (.bytes h)

/-- `bip38/crypto.py:62-76` `get_checksum`. -/
def getChecksum (data : Data) : Py Bytes := do
  let h ← doubleSha256 P data
  .ok (h.take CHECKSUM_BYTE_LENGTH)

/-- `bip38/crypto.py:79-90` `hash160`. -/
def hash160 (data : Data) : Py Bytes := do
  let h ← sha256 P data
  ripemd160 P (.bytes h)

/-- `scrypt.hash(unicodedata.normalize("NFC", passphrase), salt, 16384, 8, 8, buflen)` as called throughout
`bip38/bip38.py` (137, 142, 207, 415, 532, 587; `buflen` defaults to 64 in the `scrypt` package). -/
def scryptPassphrase (passphrase : Str) (salt : Bytes) (buflen : Nat := 64) : Bytes :=
  P.scrypt (utf8 (P.nfc passphrase)) salt 16384 8 8 buflen

/-- An `AESModeOfOperationECB` object of `pyaes`. -/
structure AES where
  key : Bytes

/-- `pyaes.AESModeOfOperationECB(key)`: raises `ValueError` unless the key has 16, 24 or 32 bytes. -/
def AES.new (key : Bytes) : Py AES := do
  raiseIf (key.length ≠ 16 ∧ key.length ≠ 24 ∧ key.length ≠ 32) .valueError "Invalid key size"
  .ok ⟨key⟩

/-- `aes.encrypt(plaintext)` of `pyaes`: raises `ValueError` unless the block has 16 bytes. -/
def AES.encrypt (aes : AES) (plaintext : Bytes) : Py Bytes := do
  raiseIf (plaintext.length ≠ 16) .valueError "plaintext block must be 16 bytes"
  .ok (P.aesEncrypt aes.key plaintext)

/-- `aes.decrypt(ciphertext)` of `pyaes`: raises `ValueError` unless the block has 16 bytes. -/
def AES.decrypt (aes : AES) (ciphertext : Bytes) : Py Bytes := do
  raiseIf (ciphertext.length ≠ 16) .valueError "ciphertext block must be 16 bytes"
  .ok (P.aesDecrypt aes.key ciphertext)

end Bip38
