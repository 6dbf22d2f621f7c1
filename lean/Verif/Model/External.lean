import Verif.Model.Bip38
/-!
# The methods with their calls of external functions, one by one

`Model/Bip38.lean` has the results of the methods, with the external functions as total functions.  Here the same statements are
written with every call of an external function (`os.urandom`, `hashlib`, `scrypt`, `pyaes`, `unicodedata`) as an event: a run has the
list of the requests made so far, and at any request the function may raise (`MemoryError` of `scrypt`, "unsupported hash type" of
`hashlib`, `NotImplementedError` of `os.urandom`, an interruption, ...).  Which requests raise what is arbitrary (`Faults`).

Simplifications: the point arithmetic of `ecdsa` is not split into calls; the `struct`/`int` operations of Python do not fail
(memory).  The constructor of `AESModeOfOperationECB` is no request of its own: it comes with the first use of the object.
-/
namespace Bip38

variable (P : Prims)

/-- A call of an external function, with its arguments. -/
inductive Request
  /-- `os.urandom(k)` -/
  | urandom (k : Nat)
  /-- `hashlib.sha256(b).digest()` -/
  | sha256 (b : Bytes)
  /-- `hashlib.new("ripemd160", b).digest()` -/
  | ripemd160 (b : Bytes)
  /-- `unicodedata.normalize("NFC", s)` -/
  | normalize (s : Str)
  /-- `scrypt.hash(password, salt, N, r, p, buflen)` -/
  | scrypt (password salt : Bytes) (N r p buflen : Nat)
  /-- `aes.encrypt(block)` -/
  | aesEncrypt (key block : Bytes)
  /-- `aes.decrypt(block)` -/
  | aesDecrypt (key block : Bytes)
  deriving DecidableEq, Repr

/-- What goes wrong: the exception raised by the request at a position (0 for the first request of the call), if any. -/
abbrev Faults := Nat → Request → Option Exc

/-- A computation with external calls: from the faults and the requests made so far to the outcome and the requests made then. -/
def Ext (α : Type) : Type := Faults → List Request → Py α × List Request

/-- Statements one after the other; an exception ends the run. -/
instance : Monad Ext where
  pure a := fun _ log => (.ok a, log)
  bind m f := fun F log => match m F log with
    | (.ok a, log') => f a F log'
    | (.error e, log') => (.error e, log')

/-- Statements without external calls. -/
instance : MonadLift Py Ext where
  monadLift x := fun _ log => (x, log)

/-- An external call: it is recorded, and raises what the faults say or returns `answer`. -/
def ask {α : Type} (q : Request) (answer : α) : Ext α := fun F log =>
  match F log.length q with
  | some e => (.error e, log ++ [q])
  | none => (.ok answer, log ++ [q])

/-- `hashlib.sha256(b).digest()` (`bip38/crypto.py:45`, `bip38/libs/base58.py:43`, `:71`). -/
def sha256X (b : Bytes) : Ext Bytes := ask (.sha256 b) (P.sha256 b)

/-- `bip38/crypto.py:16-31` `ripemd160` on `bytes`; the bundled implementation is no external call. -/
def ripemd160X (b : Bytes) : Ext Bytes :=
  match P.hashlibRipemd160 with
  | some f => ask (.ripemd160 b) (f b)
  | none => pure (Ripemd.ripemd160 b)

/-- `bip38/crypto.py:48-59` `double_sha256` on `bytes`. -/
def doubleSha256X (b : Bytes) : Ext Bytes := do
  let h ← sha256X P b
  sha256X P h

/-- `bip38/crypto.py:62-76` `get_checksum` on `bytes`. -/
def getChecksumX (b : Bytes) : Ext Bytes := do
  let h ← doubleSha256X P b
  return h.take CHECKSUM_BYTE_LENGTH

/-- `bip38/crypto.py:79-90` `hash160` on `bytes`. -/
def hash160X (b : Bytes) : Ext Bytes := do
  let h ← sha256X P b
  ripemd160X P h

/-- `scrypt.hash(password, salt, N, r, p, buflen)`. -/
def scryptX (password salt : Bytes) (N r p buflen : Nat) : Ext Bytes :=
  ask (.scrypt password salt N r p buflen) (P.scrypt password salt N r p buflen)

/-- `scrypt.hash(unicodedata.normalize("NFC", passphrase), salt, 16384, 8, 8, buflen)` (`bip38/bip38.py:137`, `:142`, `:207`, `:415`,
`:532`, `:587`): first the argument, then the call. -/
def scryptPassphraseX (passphrase : Str) (salt : Bytes) (buflen : Nat := 64) : Ext Bytes := do
  let normalized ← ask (.normalize passphrase) (P.nfc passphrase)
  scryptX P (utf8 normalized) salt 16384 8 8 buflen

/-- `aes.encrypt(plaintext)`: `pyaes` refuses blocks of other lengths than 16. -/
def AES.encryptX (aes : AES) (plaintext : Bytes) : Ext Bytes := do
  raiseIf (plaintext.length ≠ 16) .valueError "plaintext block must be 16 bytes"
  ask (.aesEncrypt aes.key plaintext) (P.aesEncrypt aes.key plaintext)

/-- `aes.decrypt(ciphertext)`. -/
def AES.decryptX (aes : AES) (ciphertext : Bytes) : Ext Bytes := do
  raiseIf (ciphertext.length ≠ 16) .valueError "ciphertext block must be 16 bytes"
  ask (.aesDecrypt aes.key ciphertext) (P.aesDecrypt aes.key ciphertext)

/-- `bip38/libs/base58.py:42-44` `check_encode`. -/
def checkEncodeX (raw : Bytes) (alphabet : Str := bitcoinAlphabet) : Ext Str := do
  let h ← sha256X P raw
  let chk ← sha256X P h
  return b58encode (raw ++ chk.take 4) alphabet

/-- `bip38/libs/base58.py:68-74` `check_decode`. -/
def checkDecodeX (enc : Str) (alphabet : Str := bitcoinAlphabet) : Ext Bytes := do
  let dec ← b58decode enc alphabet
  let raw := dropLastN 4 dec
  let chk := lastN 4 dec
  let h ← sha256X P raw
  let sum ← sha256X P h
  if chk ≠ sum.take 4 then
    raise .valueError "base58 decoding checksum error"
  else pure raw

/-- `try: check_decode(text) except ValueError: raise cls(msg)` (`bip38/bip38.py:264-267`, `391-394`): a `ValueError` is caught
wherever it comes from. -/
def checkDecodeOrX (text : Str) (cls : ExcClass) (msg : String) : Ext Bytes := fun F log =>
  match checkDecodeX P text bitcoinAlphabet F log with
  | (.ok b, log') => (.ok b, log')
  | (.error e, log') => (if e.cls.isValueError then raise cls msg else .error e, log')

/-- `bip38/p2pkh_address.py:28-62` `P2PKHAddress.encode` as `bip38/bip38.py` calls it, with a `PublicKey` and the default alphabet. -/
def p2pkhEncodeX (publicKey : PublicKey) (addressPrefix : Int) (publicKeyType : String) : Ext Str := do
  let pre ← integerToBytes addressPrefix
  let publicKeyHash ← hash160X P (if publicKeyType = "compressed" then publicKey.rawCompressed else publicKey.rawUncompressed)
  let text ← checkEncodeX P (pre ++ publicKeyHash)
  return ensureString text

/-- `bip38/wif.py:29-56` `encode_wif` on `bytes`. -/
def encodeWifX (privateKey : Bytes) (wifPrefix : Int) : Ext (Str × Str) := do
  raiseIf (privateKey.length ≠ 32) .secp256k1Error
    (errText "Invalid private key length" (.one true "64".toList) (toString privateKey.length))
  let pre ← integerToBytes wifPrefix
  let one ← integerToBytes COMPRESSED_PRIVATE_KEY_PREFIX
  let payload := pre ++ privateKey
  let compressedPayload := pre ++ privateKey ++ one
  let chk ← getChecksumX P payload
  let chkC ← getChecksumX P compressedPayload
  return (b58encode (payload ++ chk), b58encode (compressedPayload ++ chkC))

/-- `bip38/wif.py:97-124` `private_key_to_wif` on `bytes`. -/
def privateKeyToWifX (privateKey : Bytes) (wifType : String) (coin : Coin) (network : String) : Ext Str := do
  raiseIf (wifType ∉ WIF_TYPES) .wifError (errText "Wrong WIF type" (.list (WIF_TYPES.map String.toList)) wifType)
  let net ← lookupNet coin network
  let (wif, wifCompressed) ← encodeWifX P privateKey net.wifPrefix
  return if wifType = "wif" then wif else wifCompressed

/-- `get_bytes(x) if x else os.urandom(k)` (`bip38/bip38.py:122`, `:263`); `u` is what `os.urandom` returns. -/
def bytesOrRandomX (x : Data) (u : Bytes) (k : Nat) : Ext Bytes :=
  if x.truthy then liftM (getBytes x) else ask (.urandom k) u

/-- `bip38/bip38.py:130-140`: pass factor, magic and owner entropy with lot and sequence. -/
def lotFactorX (passphrase : Str) (lot sequence : Int) (ownerSalt : Bytes) : Ext (Bytes × Bytes × Bytes) := do
  raiseIf (¬ (100000 ≤ lot ∧ lot ≤ 999999)) .error
    (errText "Invalid lot" (.one true "100000 <= lot <= 999999".toList) (toString lot))
  raiseIf (¬ (0 ≤ sequence ∧ sequence ≤ 4095)) .error
    (errText "Invalid sequence" (.one true "0 <= sequence <= 4095".toList) (toString sequence))
  let preFactor ← scryptPassphraseX P passphrase (ownerSalt.take 4) 32
  let lotSequence ← integerToBytes (lot * 4096 + sequence) (some 4)
  let ownerEntropy := ownerSalt.take 4 ++ lotSequence
  let passFactor ← doubleSha256X P (preFactor ++ ownerEntropy)
  let magic ← integerToBytes MAGIC_LOT_AND_SEQUENCE
  return (passFactor, magic, ownerEntropy)

/-- `bip38/bip38.py:141-144`: the same without lot and sequence. -/
def noLotFactorX (passphrase : Str) (ownerSalt : Bytes) : Ext (Bytes × Bytes × Bytes) := do
  let passFactor ← scryptPassphraseX P passphrase ownerSalt 32
  let magic ← integerToBytes MAGIC_NO_LOT_AND_SEQUENCE
  return (passFactor, magic, ownerSalt)

/-- `bip38/bip38.py:90-151` `BIP38.intermediate_code`. -/
def intermediateCodeX (passphrase : Str) (lot sequence : Option Int) (ownerSalt : Data) (urandom8 : Bytes) : Ext Str := do
  let ownerSalt ← bytesOrRandomX ownerSalt urandom8 8
  raiseIf (ownerSalt.length ∉ [4, 8]) .error
    (errText "Invalid owner salt length" (.list ["8".toList, "16".toList]) (toString (hexText ownerSalt).length))
  raiseIf (ownerSalt.length = 4 ∧ (lot = none ∨ sequence = none)) .error
    (errText "Invalid owner salt length for non lot/sequence" (.one true "16".toList) (toString (hexText ownerSalt).length))
  raiseIf ((truthyInt lot ∧ sequence = none) ∨ (lot = none ∧ truthyInt sequence)) .error
    (errText "Both lot & sequence are required" (detail := some ("got: (lot " ++ pyInt lot ++ ") & (sequence " ++ pyInt sequence ++ ")")))
  let (passFactor, magic, ownerEntropy) ←
    if truthyInt lot ∧ truthyInt sequence then lotFactorX P passphrase (lot.getD 0) (sequence.getD 0) ownerSalt
    else noLotFactorX P passphrase ownerSalt
  let privateKey ← PrivateKey.fromBytes passFactor
  let passPoint := privateKey.publicKey
  let text ← checkEncodeX P (magic ++ ownerEntropy ++ passPoint.rawCompressed)
  return ensureString text

/-- `bip38/bip38.py:153-225` `BIP38.encrypt`. -/
def BIP38.encryptX (self : BIP38) (wif passphrase : Str) (network : Option String := none) : Ext Str := do
  let network := self.selectNetwork network
  raiseIf (network ∉ self.networks) .networkError (wrongNetwork self.networks)
  let wifType ← getWifType wif self.cryptocurrency network
  let (flag, privateKey, publicKeyType) ←
    if wifType = "wif" then do
      let flag ← integerToBytes NO_EC_MULTIPLIED_WIF_FLAG
      let privateKey ← PrivateKey.fromBytes (← getBytes (.str (← wifToPrivateKey wif self.cryptocurrency network)))
      liftM (.ok (flag, privateKey, "uncompressed") : Py (Bytes × PrivateKey × String))
    else do
      let flag ← integerToBytes NO_EC_MULTIPLIED_WIF_COMPRESSED_FLAG
      let privateKey ← PrivateKey.fromBytes (← getBytes (.str (← wifToPrivateKey wif self.cryptocurrency network)))
      liftM (.ok (flag, privateKey, "compressed") : Py (Bytes × PrivateKey × String))
  let net ← lookupNet self.cryptocurrency network
  let address ← p2pkhEncodeX P privateKey.publicKey net.addressPrefix publicKeyType
  let addressBytes ← getBytes (.str address) (unhexlify := false)
  let addressHash ← getChecksumX P addressBytes
  let key ← scryptPassphraseX P passphrase addressHash
  let derivedHalf1 := slice 0 32 key
  let derivedHalf2 := slice 32 64 key
  let aes ← AES.new derivedHalf2
  let block1 ← xorBytes (slice 0 16 privateKey.raw) (slice 0 16 derivedHalf1)
  let encryptedHalf1 ← aes.encryptX P block1
  let block2 ← xorBytes (slice 16 32 privateKey.raw) (slice 16 32 derivedHalf1)
  let encryptedHalf2 ← aes.encryptX P block2
  let pre ← integerToBytes NO_EC_MULTIPLIED_PRIVATE_KEY_PREFIX
  let encryptedPrivateKey := pre ++ flag ++ addressHash ++ encryptedHalf1 ++ encryptedHalf2
  let checksum ← getChecksumX P encryptedPrivateKey
  return ensureString (b58encode (encryptedPrivateKey ++ checksum))

/-- `bip38/bip38.py:227-355` `BIP38.create_new_encrypted_wif`. -/
def BIP38.createX (self : BIP38) (intermediatePassphrase : Str) (wifType : String := "wif")
    (seed : Data := .none) (network : Option String := none) (urandom24 : Bytes) : Ext Created := do
  let network := self.selectNetwork network
  raiseIf (network ∉ self.networks) .networkError (wrongNetwork self.networks)
  let seedB ← bytesOrRandomX seed urandom24 24
  let intermediateDecode ← checkDecodeOrX P intermediatePassphrase .passphraseError "Invalid intermediate passphrase"
  raiseIf (intermediateDecode.length ≠ 49) .passphraseError
    (errText "Invalid intermediate passphrase length" (.one true "49".toList) (toString intermediateDecode.length))
  let magic := intermediateDecode.take 8
  let ownerEntropy := slice 8 16 intermediateDecode
  let passPoint := intermediateDecode.drop 16
  let publicKeyType ← publicKeyTypeOf wifType
  let flag ← newFlag magic publicKeyType
  let factorB ← doubleSha256X P seedB
  raiseIf (¬ (0 < b2i factorB ∧ b2i factorB < N)) .error "Invalid EC encrypted WIF (Wallet Import Format)"
  let passPublicKey ← PublicKey.fromBytes passPoint
  let publicKey ← PublicKey.fromPoint (passPublicKey.point.mul (b2i factorB))
  let net ← lookupNet self.cryptocurrency network
  let address ← p2pkhEncodeX P publicKey net.addressPrefix publicKeyType
  let addressBytes ← getBytes (.str address) (unhexlify := false)
  let addressHash ← getChecksumX P addressBytes
  let salt := addressHash ++ ownerEntropy
  let scryptHash ← scryptX P passPoint salt 1024 1 1 64
  let derivedHalf1 := scryptHash.take 16
  let derivedHalf2 := slice 16 32 scryptHash
  let key := scryptHash.drop 32
  let aes ← AES.new key
  let block1 ← xorBytes (seedB.take 16) derivedHalf1
  let encryptedHalf1 ← aes.encryptX P block1
  let block2 ← xorBytes (encryptedHalf1.drop 8 ++ seedB.drop 16) derivedHalf2
  let encryptedHalf2 ← aes.encryptX P block2
  let ecPrefix ← integerToBytes EC_MULTIPLIED_PRIVATE_KEY_PREFIX
  let encryptedText ← checkEncodeX P
    (ecPrefix ++ flag ++ addressHash ++ ownerEntropy ++ encryptedHalf1.take 8 ++ encryptedHalf2)
  let encryptedWif := ensureString encryptedText
  let pointBKey ← PrivateKey.fromBytes factorB
  let pointB := pointBKey.publicKey.rawCompressed
  let pointBPrefix ← integerToBytes (((b2i (scryptHash.drop 63) &&& 1) ^^^ b2i (pointB.take 1) : Nat) : Int)
  let block3 ← xorBytes (slice 1 17 pointB) derivedHalf1
  let pointBHalf1 ← aes.encryptX P block3
  let block4 ← xorBytes (pointB.drop 17) derivedHalf2
  let pointBHalf2 ← aes.encryptX P block4
  let encryptedPointB := pointBPrefix ++ pointBHalf1 ++ pointBHalf2
  let confPrefix ← integerToBytes CONFIRMATION_CODE_PREFIX
  let confirmationText ← checkEncodeX P
    (confPrefix ++ flag ++ addressHash ++ ownerEntropy ++ encryptedPointB)
  let confirmationCode := ensureString confirmationText
  let publicKeyText ← bytesToString (.bytes (publicKey.raw publicKeyType))
  let seedText ← bytesToString (.bytes seedB)
  return { encryptedWif, confirmationCode, publicKey := publicKeyText, seed := seedText, publicKeyType, address }

/-- Pass factor from passphrase and owner entropy (`bip38/bip38.py:415-417`, `:587-589`). -/
def passFactorOfX (passphrase : Str) (ownerSalt : Bytes) (lotAndSequence : Option Bytes) (ownerEntropy : Bytes) : Ext Bytes := do
  let passFactor ← scryptPassphraseX P passphrase ownerSalt 32
  match lotAndSequence with
  | some (_ :: _) => doubleSha256X P (passFactor ++ ownerEntropy)
  | _ => return passFactor

/-- `bip38/bip38.py:357-470` `BIP38.confirm_code`. -/
def BIP38.confirmX (self : BIP38) (passphrase confirmationCode : Str) (network : Option String := none)
    (detail : Bool := false) : Ext ConfirmOut := do
  let network := self.selectNetwork network
  raiseIf (network ∉ self.networks) .networkError (wrongNetwork self.networks)
  let decoded ← checkDecodeOrX P confirmationCode .error "Invalid confirmation code"
  raiseIf (decoded.length ≠ 51) .error
    (errText "Invalid confirmation code length" (.one true "102".toList) (toString decoded.length))
  let confPrefix ← integerToBytes CONFIRMATION_CODE_PREFIX
  let prefixLength := confPrefix.length
  let prefixGot := decoded.take prefixLength
  raiseIf (confPrefix ≠ prefixGot) .error
    (errText "Invalid confirmation code prefix" (.one true (toString prefixLength).toList) (String.ofList (bytesRepr prefixGot)))
  let flag := slice 5 6 decoded
  let addressHash := slice 6 10 decoded
  let ownerEntropy := slice 10 18 decoded
  let encryptedPointB := decoded.drop 18
  let (ownerSalt, lotAndSequence) := splitEntropy flag ownerEntropy
  let passFactor ← passFactorOfX P passphrase ownerSalt lotAndSequence ownerEntropy
  raiseIf (b2i passFactor = 0 ∨ b2i passFactor ≥ N) .error "Invalid EC encrypted WIF (Wallet Import Format)"
  let passKey ← PrivateKey.fromBytes passFactor
  let passPoint := passKey.publicKey.rawCompressed
  let salt := addressHash ++ ownerEntropy
  let scryptHash ← scryptX P passPoint salt 1024 1 1 64
  let derivedHalf1 := slice 1 17 encryptedPointB
  let derivedHalf2 := encryptedPointB.drop 17
  let key := scryptHash.drop 32
  let aes ← AES.new key
  let block1 ← aes.decryptX P derivedHalf1
  let pointBHalf1 ← xorBytes block1 (scryptHash.take 16)
  let block2 ← aes.decryptX P derivedHalf2
  let pointBHalf2 ← xorBytes block2 (slice 16 32 scryptHash)
  let pointBPrefix ← integerToBytes ((b2i (encryptedPointB.take 1) ^^^ (b2i (scryptHash.drop 63) &&& 1) : Nat) : Int)
  let pointB := pointBPrefix ++ pointBHalf1 ++ pointBHalf2
  let (publicKey, publicKeyType) ← orIncorrectPassphrase (do
    let pb ← PublicKey.fromBytes pointB
    let publicKey ← PublicKey.fromPoint (pb.point.mul (b2i passFactor))
    .ok (publicKey, if b2i flag ∈ FLAGS_compression then "compressed" else "uncompressed"))
  let net ← lookupNet self.cryptocurrency network
  let address ← p2pkhEncodeX P publicKey net.addressPrefix publicKeyType
  let addressBytes ← getBytes (.str address) (unhexlify := false)
  let addressChecksum ← getChecksumX P addressBytes
  if addressChecksum = addressHash then
    if detail then do
      let (lot, sequence) := lotSequenceOf lotAndSequence
      let publicKeyText ← bytesToString (.bytes (publicKey.raw publicKeyType))
      return .detail { publicKey := publicKeyText, publicKeyType, address, lot, sequence }
    else return .address address
  else raise .passphraseError "Incorrect passphrase"

/-- `bip38/bip38.py:518-573`: the branch of `decrypt` for records with prefix `0x0142`. -/
def BIP38.decryptNoEcX (self : BIP38) (decoded : Bytes) (passphrase : Str) (network : String) (detail : Bool) :
    Ext DecryptOut := do
  let flag := slice 2 3 decoded
  let addressHash := slice 3 7 decoded
  let flagU ← integerToBytes NO_EC_MULTIPLIED_WIF_FLAG
  let flagC ← integerToBytes NO_EC_MULTIPLIED_WIF_COMPRESSED_FLAG
  let (wifType, publicKeyType) ←
    if flag = flagU then liftM (.ok ("wif", "uncompressed") : Py (String × String))
    else if flag = flagC then liftM (.ok ("wif-compressed", "compressed") : Py (String × String))
    else raise .error (errText "Invalid flag" (.list [hexText flagU, hexText flagC]) (String.ofList (hexText flag)))
  let key ← scryptPassphraseX P passphrase addressHash
  let derivedHalf1 := slice 0 32 key
  let derivedHalf2 := slice 32 64 key
  let encryptedHalf1 := slice 7 23 decoded
  let encryptedHalf2 := slice 23 39 decoded
  let aes ← AES.new derivedHalf2
  let decryptedHalf2 ← aes.decryptX P encryptedHalf2
  let decryptedHalf1 ← aes.decryptX P encryptedHalf1
  let privateKey ← xorBytes (decryptedHalf1 ++ decryptedHalf2) derivedHalf1
  raiseIf (b2i privateKey = 0 ∨ b2i privateKey ≥ N) .error "Invalid Non-EC encrypted WIF (Wallet Import Format)"
  let sk ← PrivateKey.fromBytes privateKey
  let publicKey := sk.publicKey
  let net ← lookupNet self.cryptocurrency network
  let address ← p2pkhEncodeX P publicKey net.addressPrefix publicKeyType
  let addressBytes ← getBytes (.str address) (unhexlify := false)
  let addressChecksum ← getChecksumX P addressBytes
  raiseIf (addressChecksum ≠ addressHash) .passphraseError "Incorrect passphrase"
  let wif ← privateKeyToWifX P privateKey wifType self.cryptocurrency network
  if detail then do
    let privateKeyText ← bytesToString (.bytes privateKey)
    let publicKeyText ← bytesToString (.bytes (publicKey.raw publicKeyType))
    return .detail { wif, privateKey := privateKeyText, wifType, publicKey := publicKeyText, publicKeyType
                     seed := none, address, lot := none, sequence := none }
  else return .wif wif

/-- `bip38/bip38.py:576-652`: the branch of `decrypt` for records with prefix `0x0143`. -/
def BIP38.decryptEcX (self : BIP38) (decoded : Bytes) (passphrase : Str) (network : String) (detail : Bool) :
    Ext DecryptOut := do
  let flag := slice 2 3 decoded
  let addressHash := slice 3 7 decoded
  let ownerEntropy := slice 7 15 decoded
  let encryptedHalf1Half1 := slice 15 23 decoded
  let encryptedHalf2 := dropLastN 4 decoded |>.drop 23
  let (ownerSalt, lotAndSequence) := splitEntropy flag ownerEntropy
  let passFactor ← passFactorOfX P passphrase ownerSalt lotAndSequence ownerEntropy
  raiseIf (b2i passFactor = 0 ∨ b2i passFactor ≥ N) .error "Invalid EC encrypted WIF (Wallet Import Format)"
  let passKey ← PrivateKey.fromBytes passFactor
  let prePublicKey := passKey.publicKey
  let salt := addressHash ++ ownerEntropy
  let encryptedSeedB ← scryptX P prePublicKey.rawCompressed salt 1024 1 1 64
  let key := encryptedSeedB.drop 32
  let aes ← AES.new key
  let block2 ← aes.decryptX P encryptedHalf2
  let tail ← xorBytes block2 (slice 16 32 encryptedSeedB)
  let encryptedHalf1Half2 := tail.take 8
  let encryptedHalf1 := encryptedHalf1Half1 ++ encryptedHalf1Half2
  let block1 ← aes.decryptX P encryptedHalf1
  let head ← xorBytes block1 (encryptedSeedB.take 16)
  let seedB := head ++ tail.drop 8
  let factorB ← doubleSha256X P seedB
  raiseIf (b2i factorB = 0 ∨ b2i factorB ≥ N) .error "Invalid EC encrypted WIF (Wallet Import Format)"
  let privateKey ← integerToBytes ((b2i passFactor * b2i factorB % N : Nat) : Int)
  let sk ← PrivateKey.fromBytes privateKey
  let publicKey := sk.publicKey
  let (wifType, publicKeyType) :=
    if b2i flag ∈ FLAGS_compression then ("wif-compressed", "compressed") else ("wif", "uncompressed")
  let net ← lookupNet self.cryptocurrency network
  let address ← p2pkhEncodeX P publicKey net.addressPrefix publicKeyType
  let addressBytes ← getBytes (.str address) (unhexlify := false)
  let addressChecksum ← getChecksumX P addressBytes
  if addressChecksum = addressHash then do
    let wif ← privateKeyToWifX P privateKey wifType self.cryptocurrency network
    if detail then do
      let (lot, sequence) := lotSequenceOf lotAndSequence
      let privateKeyText ← bytesToString (.bytes privateKey)
      let publicKeyText ← bytesToString (.bytes (publicKey.raw publicKeyType))
      let seedText ← bytesToString (.bytes seedB)
      return .detail { wif, privateKey := privateKeyText, wifType, publicKey := publicKeyText, publicKeyType
                       seed := some seedText, address, lot, sequence }
    else return .wif wif
  else raise .passphraseError "Incorrect passphrase"

/-- `bip38/bip38.py:472-659` `BIP38.decrypt`. -/
def BIP38.decryptX (self : BIP38) (encryptedWif passphrase : Str) (network : Option String := none)
    (detail : Bool := false) : Ext DecryptOut := do
  let network := self.selectNetwork network
  raiseIf (network ∉ self.networks) .networkError (wrongNetwork self.networks)
  let decoded ← b58decode encryptedWif
  raiseIf (decoded.length ≠ 43) .wifError
    (errText "Invalid encrypted WIF length" (.one true "43".toList) (toString decoded.length))
  let pre := decoded.take 2
  let noEcPrefix ← integerToBytes NO_EC_MULTIPLIED_PRIVATE_KEY_PREFIX
  let ecPrefix ← integerToBytes EC_MULTIPLIED_PRIVATE_KEY_PREFIX
  if pre = noEcPrefix then self.decryptNoEcX P decoded passphrase network detail
  else if pre = ecPrefix then self.decryptEcX P decoded passphrase network detail
  else raise .error (errText "Invalid prefix" (.list [hexText noEcPrefix, hexText ecPrefix]) (String.ofList (hexText pre)))

end Bip38
