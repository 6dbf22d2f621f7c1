import Verif.Model.Wif
import Verif.Model.P2pkh
/-!
# Model of `bip38/bip38.py`

`os.urandom` results are explicit arguments.  `bytes_to_integer(b)` with its default arguments is written `b2i b`.
-/
namespace Bip38

variable (P : Prims)

/-- `bytes_to_integer(data)` with the default arguments (big-endian, unsigned: never negative). -/
def b2i (data : Bytes) : Nat := (bytesToInteger data).toNat

/-- `integer_to_bytes(bytes_to_integer(a) ^ bytes_to_integer(b))`, the masking expression of `bip38/bip38.py:211-216`,
`:318-323`, `:333-338`, `:427-432`, `:543-545`, `:599-601`, `:607-609`: no byte count is given, so leading zero bytes are
dropped. -/
def xorBytes (a b : Bytes) : Py Bytes := integerToBytes ((b2i a ^^^ b2i b : Nat) : Int)

/-- The argument `cryptocurrency` of `BIP38.__init__`. -/
inductive CoinArg
  /-- a subclass with a `NETWORKS` dictionary -/
  | coin (c : Coin)
  /-- `ICryptocurrency` itself, which has no `NETWORKS` -/
  | base
  /-- a class not derived from `ICryptocurrency` -/
  | otherClass
  /-- not a class: `issubclass` raises `TypeError` -/
  | notAClass

/-- A `BIP38` object (`bip38/bip38.py:66-69`). -/
structure BIP38 where
  cryptocurrency : Coin
  networks : List String
  network : String
  alphabet : Str

/-- `bytes_to_string(b)` of a `bytes` object where it is an argument of an error; it does not raise (`C06_bytes_to_string`). -/
def hexText (b : Bytes) : Str :=
  match bytesToString (.bytes b) with
  | .ok t => t
  | .error _ => []

/-- The text of the error for an unknown network; it shows the type of the argument, not the argument
(`bip38/bip38.py:83`, `:184`, `:262`, `:390`, `:507`). -/
def wrongNetwork (networks : List String) : String :=
  errText "Wrong network type" (.list (networks.map String.toList)) "<class 'str'>"

/-- `bip38/bip38.py:71-88` `BIP38.__init__`.  Simplification: the type of a class is `type` (a class with another metaclass shows that
in the text of the error). -/
def BIP38.new (cryptocurrency : CoinArg) (network : String := "mainnet") : Py BIP38 := do
  match cryptocurrency with
  | .notAClass => raise .typeError "issubclass() arg 1 must be a class"
  | .otherClass => raise .cryptocurrencyError (errText "Invalid cryptocurrency sub-class"
      (.one true "typing.Type[bip38.cryptocurrencies.ICryptocurrency]".toList) "<class 'type'>")
  | .base => raise .attributeError "type object 'ICryptocurrency' has no attribute 'NETWORKS'"
  | .coin c =>
    let networks := c.networkNames
    raiseIf (network ∉ networks) .networkError (wrongNetwork networks)
    .ok { cryptocurrency := c, networks, network
          alphabet := match c.alphabet with
            | some a => if a.isEmpty then bitcoinAlphabet else a
            | none => bitcoinAlphabet }

/-- `network if network else self.network` (`bip38/bip38.py:180-182`, `258-260`, `386-388`, `503-505`). -/
def BIP38.selectNetwork (self : BIP38) (network : Option String) : String :=
  match network with
  | some n => if n = "" then self.network else n
  | none => self.network

/-- Python truth value of an optional integer. -/
def truthyInt : Option Int → Bool
  | none => false
  | some n => n ≠ 0

/-- `get_bytes(x) if x else os.urandom(k)` (`bip38/bip38.py:122`, `:263`); `u` is the result of `os.urandom`. -/
def bytesOrRandom (x : Data) (u : Bytes) : Py Bytes := if x.truthy then getBytes x else .ok u

/-- `bip38/bip38.py:130-140`: pass factor, magic and owner entropy with lot and sequence. -/
def lotFactor (passphrase : Str) (lot sequence : Int) (ownerSalt : Bytes) : Py (Bytes × Bytes × Bytes) := do
  raiseIf (¬ (100000 ≤ lot ∧ lot ≤ 999999)) .error
    (errText "Invalid lot" (.one true "100000 <= lot <= 999999".toList) (toString lot))
  raiseIf (¬ (0 ≤ sequence ∧ sequence ≤ 4095)) .error
    (errText "Invalid sequence" (.one true "0 <= sequence <= 4095".toList) (toString sequence))
  let preFactor := scryptPassphrase P passphrase (ownerSalt.take 4) 32
  let lotSequence ← integerToBytes (lot * 4096 + sequence) (some 4)
  let ownerEntropy := ownerSalt.take 4 ++ lotSequence
  let passFactor ← doubleSha256 P (.bytes (preFactor ++ ownerEntropy))
  let magic ← integerToBytes MAGIC_LOT_AND_SEQUENCE
  .ok (passFactor, magic, ownerEntropy)

/-- `bip38/bip38.py:141-144`: the same without lot and sequence. -/
def noLotFactor (passphrase : Str) (ownerSalt : Bytes) : Py (Bytes × Bytes × Bytes) := do
  let passFactor := scryptPassphrase P passphrase ownerSalt 32
  let magic ← integerToBytes MAGIC_NO_LOT_AND_SEQUENCE
  .ok (passFactor, magic, ownerSalt)

/-- `f"{x}"` of an optional integer. -/
def pyInt : Option Int → String
  | none => "None"
  | some n => toString n

/-- `bip38/bip38.py:90-151` `BIP38.intermediate_code`; `urandom8` is the result of `os.urandom(8)`. -/
def intermediateCode (passphrase : Str) (lot sequence : Option Int) (ownerSalt : Data) (urandom8 : Bytes) :
    Py Str := do
  let ownerSalt ← bytesOrRandom ownerSalt urandom8
  raiseIf (ownerSalt.length ∉ [4, 8]) .error
    (errText "Invalid owner salt length" (.list ["8".toList, "16".toList]) (toString (hexText ownerSalt).length))
  raiseIf (ownerSalt.length = 4 ∧ (lot = none ∨ sequence = none)) .error
    (errText "Invalid owner salt length for non lot/sequence" (.one true "16".toList) (toString (hexText ownerSalt).length))
  raiseIf ((truthyInt lot ∧ sequence = none) ∨ (lot = none ∧ truthyInt sequence)) .error
    (errText "Both lot & sequence are required" (detail := some ("got: (lot " ++ pyInt lot ++ ") & (sequence " ++ pyInt sequence ++ ")")))
  let (passFactor, magic, ownerEntropy) ←
    if truthyInt lot ∧ truthyInt sequence then lotFactor P passphrase (lot.getD 0) (sequence.getD 0) ownerSalt
    else noLotFactor P passphrase ownerSalt
  let privateKey ← PrivateKey.fromBytes passFactor
  let passPoint := privateKey.publicKey
  .ok (ensureString (checkEncode P.sha256 (magic ++ ownerEntropy ++ passPoint.rawCompressed)))

/-- `bip38/bip38.py:153-225` `BIP38.encrypt`. -/
def BIP38.encrypt (self : BIP38) (wif passphrase : Str) (network : Option String := none) : Py Str := do
  let network := self.selectNetwork network
  raiseIf (network ∉ self.networks) .networkError (wrongNetwork self.networks)
  let wifType ← getWifType wif self.cryptocurrency network
  let (flag, privateKey, publicKeyType) ←
    if wifType = "wif" then do
      let flag ← integerToBytes NO_EC_MULTIPLIED_WIF_FLAG
      let privateKey ← PrivateKey.fromBytes (← getBytes (.str (← wifToPrivateKey wif self.cryptocurrency network)))
      (.ok (flag, privateKey, "uncompressed") : Py (Bytes × PrivateKey × String))
    else do
      let flag ← integerToBytes NO_EC_MULTIPLIED_WIF_COMPRESSED_FLAG
      let privateKey ← PrivateKey.fromBytes (← getBytes (.str (← wifToPrivateKey wif self.cryptocurrency network)))
      .ok (flag, privateKey, "compressed")
  let net ← lookupNet self.cryptocurrency network
  let address ← p2pkhEncode P (.key privateKey.publicKey) net.addressPrefix publicKeyType
  let addressHash ← getChecksum P (.bytes (← getBytes (.str address) (unhexlify := false)))
  let key := scryptPassphrase P passphrase addressHash
  let derivedHalf1 := slice 0 32 key
  let derivedHalf2 := slice 32 64 key
  let aes ← AES.new derivedHalf2
  let encryptedHalf1 ← aes.encrypt P (← xorBytes (slice 0 16 privateKey.raw) (slice 0 16 derivedHalf1))
  let encryptedHalf2 ← aes.encrypt P (← xorBytes (slice 16 32 privateKey.raw) (slice 16 32 derivedHalf1))
  let pre ← integerToBytes NO_EC_MULTIPLIED_PRIVATE_KEY_PREFIX
  let encryptedPrivateKey := pre ++ flag ++ addressHash ++ encryptedHalf1 ++ encryptedHalf2
  let checksum ← getChecksum P (.bytes encryptedPrivateKey)
  .ok (ensureString (b58encode (encryptedPrivateKey ++ checksum)))

/-- The dictionary returned by `create_new_encrypted_wif` (`bip38/bip38.py:346-355`). -/
structure Created where
  encryptedWif : Str
  confirmationCode : Str
  publicKey : Str
  seed : Str
  publicKeyType : String
  address : Str
  deriving DecidableEq, Repr

/-- `try: check_decode(text) except ValueError: raise cls(msg)` (`bip38/bip38.py:264-267`, `391-394`). -/
def checkDecodeOr (text : Str) (cls : ExcClass) (msg : String) : Py Bytes :=
  match checkDecode P.sha256 text with
  | .ok b => .ok b
  | .error e => if e.cls.isValueError then raise cls msg else .error e

/-- `bip38/bip38.py:275-280`: public key type for a WIF type. -/
def publicKeyTypeOf (wifType : String) : Py String :=
  if wifType = "wif" then .ok "uncompressed"
  else if wifType = "wif-compressed" then .ok "compressed"
  else raise .wifError (errText "Invalid wif type" (.list (WIF_TYPES.map String.toList)) wifType)

/-- `bip38/bip38.py:282-298`: flag byte for the magic of the intermediate code and the public key type. -/
def newFlag (magic : Bytes) (publicKeyType : String) : Py Bytes := do
  let magicLot ← integerToBytes MAGIC_LOT_AND_SEQUENCE
  let magicNoLot ← integerToBytes MAGIC_NO_LOT_AND_SEQUENCE
  if magic = magicLot then
    if publicKeyType = "uncompressed" then integerToBytes MAGIC_LOT_AND_SEQUENCE_UNCOMPRESSED_FLAG
    else integerToBytes MAGIC_LOT_AND_SEQUENCE_COMPRESSED_FLAG
  else if magic = magicNoLot then
    if publicKeyType = "uncompressed" then integerToBytes MAGIC_NO_LOT_AND_SEQUENCE_UNCOMPRESSED_FLAG
    else integerToBytes MAGIC_NO_LOT_AND_SEQUENCE_COMPRESSED_FLAG
  else raise .error (errText "Invalid magic" (.list [hexText magicLot, hexText magicNoLot]) (String.ofList (hexText magic)))

/-- `bip38/bip38.py:227-355` `BIP38.create_new_encrypted_wif`; `urandom24` is the result of `os.urandom(24)`. -/
def BIP38.createNewEncryptedWif (self : BIP38) (intermediatePassphrase : Str) (wifType : String := "wif")
    (seed : Data := .none) (network : Option String := none) (urandom24 : Bytes) : Py Created := do
  let network := self.selectNetwork network
  raiseIf (network ∉ self.networks) .networkError (wrongNetwork self.networks)
  let seedB ← bytesOrRandom seed urandom24
  let intermediateDecode ← checkDecodeOr P intermediatePassphrase .passphraseError "Invalid intermediate passphrase"
  raiseIf (intermediateDecode.length ≠ 49) .passphraseError
    (errText "Invalid intermediate passphrase length" (.one true "49".toList) (toString intermediateDecode.length))
  let magic := intermediateDecode.take 8
  let ownerEntropy := slice 8 16 intermediateDecode
  let passPoint := intermediateDecode.drop 16
  let publicKeyType ← publicKeyTypeOf wifType
  let flag ← newFlag magic publicKeyType
  let factorB ← doubleSha256 P (.bytes seedB)
  raiseIf (¬ (0 < b2i factorB ∧ b2i factorB < N)) .error "Invalid EC encrypted WIF (Wallet Import Format)"
  let passPublicKey ← PublicKey.fromBytes passPoint
  let publicKey ← PublicKey.fromPoint (passPublicKey.point.mul (b2i factorB))
  let net ← lookupNet self.cryptocurrency network
  let address ← p2pkhEncode P (.key publicKey) net.addressPrefix publicKeyType
  let addressHash ← getChecksum P (.bytes (← getBytes (.str address) (unhexlify := false)))
  let salt := addressHash ++ ownerEntropy
  let scryptHash := P.scrypt passPoint salt 1024 1 1 64
  let derivedHalf1 := scryptHash.take 16
  let derivedHalf2 := slice 16 32 scryptHash
  let key := scryptHash.drop 32
  let aes ← AES.new key
  let encryptedHalf1 ← aes.encrypt P (← xorBytes (seedB.take 16) derivedHalf1)
  let encryptedHalf2 ← aes.encrypt P (← xorBytes (encryptedHalf1.drop 8 ++ seedB.drop 16) derivedHalf2)
  let ecPrefix ← integerToBytes EC_MULTIPLIED_PRIVATE_KEY_PREFIX
  let encryptedWif := ensureString (checkEncode P.sha256
    (ecPrefix ++ flag ++ addressHash ++ ownerEntropy ++ encryptedHalf1.take 8 ++ encryptedHalf2))
  let pointBKey ← PrivateKey.fromBytes factorB
  let pointB := pointBKey.publicKey.rawCompressed
  let pointBPrefix ← integerToBytes (((b2i (scryptHash.drop 63) &&& 1) ^^^ b2i (pointB.take 1) : Nat) : Int)
  let pointBHalf1 ← aes.encrypt P (← xorBytes (slice 1 17 pointB) derivedHalf1)
  let pointBHalf2 ← aes.encrypt P (← xorBytes (pointB.drop 17) derivedHalf2)
  let encryptedPointB := pointBPrefix ++ pointBHalf1 ++ pointBHalf2
  let confPrefix ← integerToBytes CONFIRMATION_CODE_PREFIX
  let confirmationCode := ensureString (checkEncode P.sha256
    (confPrefix ++ flag ++ addressHash ++ ownerEntropy ++ encryptedPointB))
  let publicKeyText ← bytesToString (.bytes (publicKey.raw publicKeyType))
  let seedText ← bytesToString (.bytes seedB)
  .ok { encryptedWif, confirmationCode, publicKey := publicKeyText, seed := seedText, publicKeyType, address }

/-- The dictionary returned by `confirm_code` with `detail=True` (`bip38/bip38.py:462-468`). -/
structure ConfirmDetail where
  publicKey : Str
  publicKeyType : String
  address : Str
  lot : Option Int
  sequence : Option Int
  deriving DecidableEq, Repr

/-- Result of `confirm_code`: `str` or `dict`. -/
inductive ConfirmOut
  | address (a : Str)
  | detail (d : ConfirmDetail)
  deriving DecidableEq, Repr

/-- Owner salt and optional lot/sequence bytes from the owner entropy (`bip38/bip38.py:408-413`, `:580-585`). -/
def splitEntropy (flag ownerEntropy : Bytes) : Bytes × Option Bytes :=
  if b2i flag ∈ FLAGS_lot_and_sequence then (ownerEntropy.take 4, some (ownerEntropy.drop 4))
  else (ownerEntropy, none)

/-- Pass factor from passphrase and owner entropy (`bip38/bip38.py:415-417`, `:587-589`).  `if lot_and_sequence:` is the
truth value of a `bytes` object. -/
def passFactorOf (passphrase : Str) (ownerSalt : Bytes) (lotAndSequence : Option Bytes) (ownerEntropy : Bytes) :
    Py Bytes :=
  let passFactor := scryptPassphrase P passphrase ownerSalt 32
  match lotAndSequence with
  | some (_ :: _) => doubleSha256 P (.bytes (passFactor ++ ownerEntropy))
  | _ => .ok passFactor

/-- `sequence` and `lot` of the detail dictionaries (`bip38/bip38.py:456-461`, `:634-639`): `(lot, sequence)`. -/
def lotSequenceOf (lotAndSequence : Option Bytes) : Option Int × Option Int :=
  match lotAndSequence with
  | some (c :: cs) =>
    let sequence := b2i (c :: cs) % 4096
    let lot := (b2i (c :: cs) - sequence) / 4096
    (some (lot : Nat), some (sequence : Nat))
  | _ => (none, none)

/-- `try: ... except Secp256k1Error: raise PassphraseError("Incorrect passphrase")` (`bip38/bip38.py:440-448`). -/
def orIncorrectPassphrase {α : Type} (x : Py α) : Py α :=
  match x with
  | .ok a => .ok a
  | .error e => if e.cls = .secp256k1Error then raise .passphraseError "Incorrect passphrase" else .error e

/-- `bip38/bip38.py:357-470` `BIP38.confirm_code`. -/
def BIP38.confirmCode (self : BIP38) (passphrase confirmationCode : Str) (network : Option String := none)
    (detail : Bool := false) : Py ConfirmOut := do
  let network := self.selectNetwork network
  raiseIf (network ∉ self.networks) .networkError (wrongNetwork self.networks)
  let decoded ← checkDecodeOr P confirmationCode .error "Invalid confirmation code"
  raiseIf (decoded.length ≠ 51) .error
    (errText "Invalid confirmation code length" (.one true "102".toList) (toString decoded.length))
  let confPrefix ← integerToBytes CONFIRMATION_CODE_PREFIX
  let prefixLength := confPrefix.length
  let prefixGot := decoded.take prefixLength
  raiseIf (confPrefix ≠ prefixGot) .error
    (errText "Invalid confirmation code prefix" (.one true (toString prefixLength).toList) (String.ofList (bytesRepr prefixGot)))
  let flag := slice 5 6 decoded
  let addressHash := slice 6 10 decoded
  let ownerEntropy := slice 10 18 decoded
  let encryptedPointB := decoded.drop 18
  let (ownerSalt, lotAndSequence) := splitEntropy flag ownerEntropy
  let passFactor ← passFactorOf P passphrase ownerSalt lotAndSequence ownerEntropy
  raiseIf (b2i passFactor = 0 ∨ b2i passFactor ≥ N) .error "Invalid EC encrypted WIF (Wallet Import Format)"
  let passKey ← PrivateKey.fromBytes passFactor
  let passPoint := passKey.publicKey.rawCompressed
  let salt := addressHash ++ ownerEntropy
  let scryptHash := P.scrypt passPoint salt 1024 1 1 64
  let derivedHalf1 := slice 1 17 encryptedPointB
  let derivedHalf2 := encryptedPointB.drop 17
  let key := scryptHash.drop 32
  let aes ← AES.new key
  let pointBHalf1 ← xorBytes (← aes.decrypt P derivedHalf1) (scryptHash.take 16)
  let pointBHalf2 ← xorBytes (← aes.decrypt P derivedHalf2) (slice 16 32 scryptHash)
  let pointBPrefix ← integerToBytes ((b2i (encryptedPointB.take 1) ^^^ (b2i (scryptHash.drop 63) &&& 1) : Nat) : Int)
  let pointB := pointBPrefix ++ pointBHalf1 ++ pointBHalf2
  let (publicKey, publicKeyType) ← orIncorrectPassphrase (do
    let pb ← PublicKey.fromBytes pointB
    let publicKey ← PublicKey.fromPoint (pb.point.mul (b2i passFactor))
    .ok (publicKey, if b2i flag ∈ FLAGS_compression then "compressed" else "uncompressed"))
  let net ← lookupNet self.cryptocurrency network
  let address ← p2pkhEncode P (.key publicKey) net.addressPrefix publicKeyType
  let addressChecksum ← getChecksum P (.bytes (← getBytes (.str address) (unhexlify := false)))
  if addressChecksum = addressHash then
    if detail then do
      let (lot, sequence) := lotSequenceOf lotAndSequence
      let publicKeyText ← bytesToString (.bytes (publicKey.raw publicKeyType))
      .ok (.detail { publicKey := publicKeyText, publicKeyType, address, lot, sequence })
    else .ok (.address address)
  else raise .passphraseError "Incorrect passphrase"

/-- The dictionary returned by `decrypt` with `detail=True` (`bip38/bip38.py:562-572`, `:640-650`). -/
structure DecryptDetail where
  wif : Str
  privateKey : Str
  wifType : String
  publicKey : Str
  publicKeyType : String
  seed : Option Str
  address : Str
  lot : Option Int
  sequence : Option Int
  deriving DecidableEq, Repr

/-- Result of `decrypt`: `str` or `dict`. -/
inductive DecryptOut
  | wif (w : Str)
  | detail (d : DecryptDetail)
  deriving DecidableEq, Repr

/-- `bip38/bip38.py:518-573`: the branch of `decrypt` for records with prefix `0x0142`. -/
def BIP38.decryptNoEc (self : BIP38) (decoded : Bytes) (passphrase : Str) (network : String) (detail : Bool) :
    Py DecryptOut := do
  let flag := slice 2 3 decoded
  let addressHash := slice 3 7 decoded
  let flagU ← integerToBytes NO_EC_MULTIPLIED_WIF_FLAG
  let flagC ← integerToBytes NO_EC_MULTIPLIED_WIF_COMPRESSED_FLAG
  let (wifType, publicKeyType) ←
    if flag = flagU then (.ok ("wif", "uncompressed") : Py (String × String))
    else if flag = flagC then .ok ("wif-compressed", "compressed")
    else raise .error (errText "Invalid flag" (.list [hexText flagU, hexText flagC]) (String.ofList (hexText flag)))
  let key := scryptPassphrase P passphrase addressHash
  let derivedHalf1 := slice 0 32 key
  let derivedHalf2 := slice 32 64 key
  let encryptedHalf1 := slice 7 23 decoded
  let encryptedHalf2 := slice 23 39 decoded
  let aes ← AES.new derivedHalf2
  let decryptedHalf2 ← aes.decrypt P encryptedHalf2
  let decryptedHalf1 ← aes.decrypt P encryptedHalf1
  let privateKey ← xorBytes (decryptedHalf1 ++ decryptedHalf2) derivedHalf1
  raiseIf (b2i privateKey = 0 ∨ b2i privateKey ≥ N) .error "Invalid Non-EC encrypted WIF (Wallet Import Format)"
  let sk ← PrivateKey.fromBytes privateKey
  let publicKey := sk.publicKey
  let net ← lookupNet self.cryptocurrency network
  let address ← p2pkhEncode P (.key publicKey) net.addressPrefix publicKeyType
  let addressChecksum ← getChecksum P (.bytes (← getBytes (.str address) (unhexlify := false)))
  raiseIf (addressChecksum ≠ addressHash) .passphraseError "Incorrect passphrase"
  let wif ← privateKeyToWif P (.bytes privateKey) wifType self.cryptocurrency network
  if detail then do
    let privateKeyText ← bytesToString (.bytes privateKey)
    let publicKeyText ← bytesToString (.bytes (publicKey.raw publicKeyType))
    .ok (.detail { wif, privateKey := privateKeyText, wifType, publicKey := publicKeyText, publicKeyType
                   seed := none, address, lot := none, sequence := none })
  else .ok (.wif wif)

/-- `bip38/bip38.py:576-652`: the branch of `decrypt` for records with prefix `0x0143`. -/
def BIP38.decryptEc (self : BIP38) (decoded : Bytes) (passphrase : Str) (network : String) (detail : Bool) :
    Py DecryptOut := do
  let flag := slice 2 3 decoded
  let addressHash := slice 3 7 decoded
  let ownerEntropy := slice 7 15 decoded
  let encryptedHalf1Half1 := slice 15 23 decoded
  let encryptedHalf2 := dropLastN 4 decoded |>.drop 23
  let (ownerSalt, lotAndSequence) := splitEntropy flag ownerEntropy
  let passFactor ← passFactorOf P passphrase ownerSalt lotAndSequence ownerEntropy
  raiseIf (b2i passFactor = 0 ∨ b2i passFactor ≥ N) .error "Invalid EC encrypted WIF (Wallet Import Format)"
  let passKey ← PrivateKey.fromBytes passFactor
  let prePublicKey := passKey.publicKey
  let salt := addressHash ++ ownerEntropy
  let encryptedSeedB := P.scrypt prePublicKey.rawCompressed salt 1024 1 1 64
  let key := encryptedSeedB.drop 32
  let aes ← AES.new key
  let tail ← xorBytes (← aes.decrypt P encryptedHalf2) (slice 16 32 encryptedSeedB)
  let encryptedHalf1Half2 := tail.take 8
  let encryptedHalf1 := encryptedHalf1Half1 ++ encryptedHalf1Half2
  let head ← xorBytes (← aes.decrypt P encryptedHalf1) (encryptedSeedB.take 16)
  let seedB := head ++ tail.drop 8
  let factorB ← doubleSha256 P (.bytes seedB)
  raiseIf (b2i factorB = 0 ∨ b2i factorB ≥ N) .error "Invalid EC encrypted WIF (Wallet Import Format)"
  let privateKey ← integerToBytes ((b2i passFactor * b2i factorB % N : Nat) : Int)
  let sk ← PrivateKey.fromBytes privateKey
  let publicKey := sk.publicKey
  let (wifType, publicKeyType) :=
    if b2i flag ∈ FLAGS_compression then ("wif-compressed", "compressed") else ("wif", "uncompressed")
  let net ← lookupNet self.cryptocurrency network
  let address ← p2pkhEncode P (.key publicKey) net.addressPrefix publicKeyType
  let addressChecksum ← getChecksum P (.bytes (← getBytes (.str address) (unhexlify := false)))
  if addressChecksum = addressHash then do
    let wif ← privateKeyToWif P (.bytes privateKey) wifType self.cryptocurrency network
    if detail then do
      let (lot, sequence) := lotSequenceOf lotAndSequence
      let privateKeyText ← bytesToString (.bytes privateKey)
      let publicKeyText ← bytesToString (.bytes (publicKey.raw publicKeyType))
      let seedText ← bytesToString (.bytes seedB)
      .ok (.detail { wif, privateKey := privateKeyText, wifType, publicKey := publicKeyText, publicKeyType
                     seed := some seedText, address, lot, sequence })
    else .ok (.wif wif)
  else raise .passphraseError "Incorrect passphrase"

/-- `bip38/bip38.py:472-659` `BIP38.decrypt`. -/
def BIP38.decrypt (self : BIP38) (encryptedWif passphrase : Str) (network : Option String := none)
    (detail : Bool := false) : Py DecryptOut := do
  let network := self.selectNetwork network
  raiseIf (network ∉ self.networks) .networkError (wrongNetwork self.networks)
  let decoded ← b58decode encryptedWif
  raiseIf (decoded.length ≠ 43) .wifError
    (errText "Invalid encrypted WIF length" (.one true "43".toList) (toString decoded.length))
  let pre := decoded.take 2
  let noEcPrefix ← integerToBytes NO_EC_MULTIPLIED_PRIVATE_KEY_PREFIX
  let ecPrefix ← integerToBytes EC_MULTIPLIED_PRIVATE_KEY_PREFIX
  if pre = noEcPrefix then self.decryptNoEc P decoded passphrase network detail
  else if pre = ecPrefix then self.decryptEc P decoded passphrase network detail
  else raise .error (errText "Invalid prefix" (.list [hexText noEcPrefix, hexText ecPrefix]) (String.ofList (hexText pre)))

end Bip38
