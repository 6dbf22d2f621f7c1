import Verif.Model.World
/-!
# Model of method calls in several threads

`Model/World.lean` takes a call of a method as one action. Here a call is a program that reads attributes of its object and of the coin class one by
one, and between two reads other threads may run and change them. The reads are the only points where a call depends on anything shared: the library
assigns no attribute after construction and has no other mutable state; everything between two reads is a function of local values.

Simplifications: reads and actions are atomic and in one order (as under CPython's global interpreter lock); `C.NETWORKS[name]["…_prefix"]`
is one read, so a class is changed by assigning a new dictionary, not by changing the entries of the old one between the lookups of one expression.
-/
namespace Bip38

variable (P : Prims)

/-- What a method reads: `self.network`, `self.networks`, `self.cryptocurrency` of object `i`, `NETWORKS` of class `k`. -/
inductive Read
  | network (i : Nat)
  | networks (i : Nat)
  | cls (i : Nat)
  | table (k : Nat)
  deriving DecidableEq

/-- The values of a read. -/
def Read.Val : Read → Type
  | .network _ => String
  | .networks _ => List String
  | .cls _ => Nat
  | .table _ => Coin

/-- An object that does not exist (never reached by a call on an existing object). -/
def ObjectRec.absent : ObjectRec := ⟨0, [], "", []⟩

/-- A class that does not exist. -/
def Coin.absent : Coin := ⟨"", [], none⟩

/-- The value of a read now. -/
def World.value (w : World) : (q : Read) → q.Val
  | .network i => (w.objects.getD i .absent).network
  | .networks i => (w.objects.getD i .absent).networks
  | .cls i => (w.objects.getD i .absent).cls
  | .table k => w.classes.getD k .absent

/-- A running call: finished, with the value or the exception, or about to read. -/
inductive Prog (α : Type)
  | done (r : Py α)
  | read (q : Read) (next : q.Val → Prog α)

/-- Sequential composition; an exception ends the call. -/
def Prog.bind {α β : Type} : Prog α → (α → Prog β) → Prog β
  | .done (.ok a), f => f a
  | .done (.error e), _ => .done (.error e)
  | .read q next, f => .read q fun v => (next v).bind f

instance : Monad Prog where
  pure a := .done (.ok a)
  bind := Prog.bind

/-- Code that reads nothing shared. -/
instance : MonadLift Py Prog where
  monadLift m := .done m

/-- `self.network`. -/
def readNetwork (i : Nat) : Prog String := .read (.network i) fun v => .done (.ok v)

/-- `self.networks`. -/
def readNetworks (i : Nat) : Prog (List String) := .read (.networks i) fun v => .done (.ok v)

/-- `self.cryptocurrency`. -/
def readClass (i : Nat) : Prog Nat := .read (.cls i) fun v => .done (.ok v)

/-- `NETWORKS` of a class. -/
def readTable (k : Nat) : Prog Coin := .read (.table k) fun v => .done (.ok v)

/-- `network if network else self.network`. -/
def chosenSteps (i : Nat) (network : Option String) : Prog String :=
  match network with
  | some n => if n = "" then readNetwork i else pure n
  | none => readNetwork i

/-- `network = network if network else self.network`, then the test (`bip38/bip38.py:180-184`, `:258-262`, `:386-390`, `:503-507`). The list
is read a second time for the text of the error. -/
def networkSteps (i : Nat) (network : Option String) : Prog String := do
  let network ← chosenSteps i network
  let networks ← readNetworks i
  if network ∈ networks then pure network
  else do
    let networks ← readNetworks i
    (raise .networkError (wrongNetwork networks) : Py String)

/-- `self.cryptocurrency`, then its `NETWORKS`. -/
def coinSteps (i : Nat) : Prog Coin := do
  let k ← readClass i
  readTable k

/-- `bip38/bip38.py:153-225` `BIP38.encrypt` (reads: `:181`, `:183`, `:186`, `:191` or `:197`, `:203`). -/
def encryptSteps (i : Nat) (wif passphrase : Str) (network : Option String) : Prog Str := do
  let network ← networkSteps i network
  let wifType ← getWifType wif (← coinSteps i) network
  let (flag, privateKey, publicKeyType) ←
    if wifType = "wif" then do
      let flag ← integerToBytes NO_EC_MULTIPLIED_WIF_FLAG
      let privateKey ← PrivateKey.fromBytes (← getBytes (.str (← wifToPrivateKey wif (← coinSteps i) network)))
      (pure (flag, privateKey, "uncompressed") : Prog (Bytes × PrivateKey × String))
    else do
      let flag ← integerToBytes NO_EC_MULTIPLIED_WIF_COMPRESSED_FLAG
      let privateKey ← PrivateKey.fromBytes (← getBytes (.str (← wifToPrivateKey wif (← coinSteps i) network)))
      pure (flag, privateKey, "compressed")
  let net ← lookupNet (← coinSteps i) network
  let address ← p2pkhEncode P (.key privateKey.publicKey) net.addressPrefix publicKeyType
  let addressHash ← getChecksum P (.bytes (← getBytes (.str address) (unhexlify := false)))
  let key := scryptPassphrase P passphrase addressHash
  let derivedHalf1 := slice 0 32 key
  let derivedHalf2 := slice 32 64 key
  let aes ← AES.new derivedHalf2
  let encryptedHalf1 ← aes.encrypt P (← xorBytes (slice 0 16 privateKey.raw) (slice 0 16 derivedHalf1))
  let encryptedHalf2 ← aes.encrypt P (← xorBytes (slice 16 32 privateKey.raw) (slice 16 32 derivedHalf1))
  let pre ← integerToBytes NO_EC_MULTIPLIED_PRIVATE_KEY_PREFIX
  let encryptedPrivateKey := pre ++ flag ++ addressHash ++ encryptedHalf1 ++ encryptedHalf2
  let checksum ← getChecksum P (.bytes encryptedPrivateKey)
  pure (ensureString (b58encode (encryptedPrivateKey ++ checksum)))

/-- `bip38/bip38.py:227-355` `BIP38.create_new_encrypted_wif` (reads: `:259`, `:261`, `:309`). -/
def createSteps (i : Nat) (intermediatePassphrase : Str) (wifType : String) (seed : Data) (network : Option String) (urandom24 : Bytes) :
    Prog Created := do
  let network ← networkSteps i network
  let seedB ← bytesOrRandom seed urandom24
  let intermediateDecode ← checkDecodeOr P intermediatePassphrase .passphraseError "Invalid intermediate passphrase"
  raiseIf (intermediateDecode.length ≠ 49) .passphraseError
    (errText "Invalid intermediate passphrase length" (.one true "49".toList) (toString intermediateDecode.length))
  let magic := intermediateDecode.take 8
  let ownerEntropy := slice 8 16 intermediateDecode
  let passPoint := intermediateDecode.drop 16
  let publicKeyType ← publicKeyTypeOf wifType
  let flag ← newFlag magic publicKeyType
  let factorB ← doubleSha256 P (.bytes seedB)
  raiseIf (¬ (0 < b2i factorB ∧ b2i factorB < N)) .error "Invalid EC encrypted WIF (Wallet Import Format)"
  let passPublicKey ← PublicKey.fromBytes passPoint
  let publicKey ← PublicKey.fromPoint (passPublicKey.point.mul (b2i factorB))
  let net ← lookupNet (← coinSteps i) network
  let address ← p2pkhEncode P (.key publicKey) net.addressPrefix publicKeyType
  let addressHash ← getChecksum P (.bytes (← getBytes (.str address) (unhexlify := false)))
  let salt := addressHash ++ ownerEntropy
  let scryptHash := P.scrypt passPoint salt 1024 1 1 64
  let derivedHalf1 := scryptHash.take 16
  let derivedHalf2 := slice 16 32 scryptHash
  let key := scryptHash.drop 32
  let aes ← AES.new key
  let encryptedHalf1 ← aes.encrypt P (← xorBytes (seedB.take 16) derivedHalf1)
  let encryptedHalf2 ← aes.encrypt P (← xorBytes (encryptedHalf1.drop 8 ++ seedB.drop 16) derivedHalf2)
  let ecPrefix ← integerToBytes EC_MULTIPLIED_PRIVATE_KEY_PREFIX
  let encryptedWif := ensureString (checkEncode P.sha256
    (ecPrefix ++ flag ++ addressHash ++ ownerEntropy ++ encryptedHalf1.take 8 ++ encryptedHalf2))
  let pointBKey ← PrivateKey.fromBytes factorB
  let pointB := pointBKey.publicKey.rawCompressed
  let pointBPrefix ← integerToBytes (((b2i (scryptHash.drop 63) &&& 1) ^^^ b2i (pointB.take 1) : Nat) : Int)
  let pointBHalf1 ← aes.encrypt P (← xorBytes (slice 1 17 pointB) derivedHalf1)
  let pointBHalf2 ← aes.encrypt P (← xorBytes (pointB.drop 17) derivedHalf2)
  let encryptedPointB := pointBPrefix ++ pointBHalf1 ++ pointBHalf2
  let confPrefix ← integerToBytes CONFIRMATION_CODE_PREFIX
  let confirmationCode := ensureString (checkEncode P.sha256
    (confPrefix ++ flag ++ addressHash ++ ownerEntropy ++ encryptedPointB))
  let publicKeyText ← bytesToString (.bytes (publicKey.raw publicKeyType))
  let seedText ← bytesToString (.bytes seedB)
  pure { encryptedWif, confirmationCode, publicKey := publicKeyText, seed := seedText, publicKeyType, address }

/-- `bip38/bip38.py:357-470` `BIP38.confirm_code` (reads: `:387`, `:389`, `:452`). -/
def confirmSteps (i : Nat) (passphrase confirmationCode : Str) (network : Option String) (detail : Bool) : Prog ConfirmOut := do
  let network ← networkSteps i network
  let decoded ← checkDecodeOr P confirmationCode .error "Invalid confirmation code"
  raiseIf (decoded.length ≠ 51) .error
    (errText "Invalid confirmation code length" (.one true "102".toList) (toString decoded.length))
  let confPrefix ← integerToBytes CONFIRMATION_CODE_PREFIX
  let prefixLength := confPrefix.length
  let prefixGot := decoded.take prefixLength
  raiseIf (confPrefix ≠ prefixGot) .error
    (errText "Invalid confirmation code prefix" (.one true (toString prefixLength).toList) (String.ofList (bytesRepr prefixGot)))
  let flag := slice 5 6 decoded
  let addressHash := slice 6 10 decoded
  let ownerEntropy := slice 10 18 decoded
  let encryptedPointB := decoded.drop 18
  let (ownerSalt, lotAndSequence) := splitEntropy flag ownerEntropy
  let passFactor ← passFactorOf P passphrase ownerSalt lotAndSequence ownerEntropy
  raiseIf (b2i passFactor = 0 ∨ b2i passFactor ≥ N) .error "Invalid EC encrypted WIF (Wallet Import Format)"
  let passKey ← PrivateKey.fromBytes passFactor
  let passPoint := passKey.publicKey.rawCompressed
  let salt := addressHash ++ ownerEntropy
  let scryptHash := P.scrypt passPoint salt 1024 1 1 64
  let derivedHalf1 := slice 1 17 encryptedPointB
  let derivedHalf2 := encryptedPointB.drop 17
  let key := scryptHash.drop 32
  let aes ← AES.new key
  let pointBHalf1 ← xorBytes (← aes.decrypt P derivedHalf1) (scryptHash.take 16)
  let pointBHalf2 ← xorBytes (← aes.decrypt P derivedHalf2) (slice 16 32 scryptHash)
  let pointBPrefix ← integerToBytes ((b2i (encryptedPointB.take 1) ^^^ (b2i (scryptHash.drop 63) &&& 1) : Nat) : Int)
  let pointB := pointBPrefix ++ pointBHalf1 ++ pointBHalf2
  let (publicKey, publicKeyType) ← orIncorrectPassphrase (do
    let pb ← PublicKey.fromBytes pointB
    let publicKey ← PublicKey.fromPoint (pb.point.mul (b2i passFactor))
    .ok (publicKey, if b2i flag ∈ FLAGS_compression then "compressed" else "uncompressed"))
  let net ← lookupNet (← coinSteps i) network
  let address ← p2pkhEncode P (.key publicKey) net.addressPrefix publicKeyType
  let addressChecksum ← getChecksum P (.bytes (← getBytes (.str address) (unhexlify := false)))
  if addressChecksum = addressHash then
    if detail then do
      let (lot, sequence) := lotSequenceOf lotAndSequence
      let publicKeyText ← bytesToString (.bytes (publicKey.raw publicKeyType))
      pure (.detail { publicKey := publicKeyText, publicKeyType, address, lot, sequence })
    else pure (.address address)
  else (raise .passphraseError "Incorrect passphrase" : Py ConfirmOut)

/-- `bip38/bip38.py:518-573`: the branch of `decrypt` for records with prefix `0x0142` (reads: `:552`, `:559`). -/
def decryptNoEcSteps (i : Nat) (decoded : Bytes) (passphrase : Str) (network : String) (detail : Bool) : Prog DecryptOut := do
  let flag := slice 2 3 decoded
  let addressHash := slice 3 7 decoded
  let flagU ← integerToBytes NO_EC_MULTIPLIED_WIF_FLAG
  let flagC ← integerToBytes NO_EC_MULTIPLIED_WIF_COMPRESSED_FLAG
  let (wifType, publicKeyType) ←
    if flag = flagU then (pure ("wif", "uncompressed") : Prog (String × String))
    else if flag = flagC then pure ("wif-compressed", "compressed")
    else (raise .error (errText "Invalid flag" (.list [hexText flagU, hexText flagC]) (String.ofList (hexText flag))) : Py (String × String))
  let key := scryptPassphrase P passphrase addressHash
  let derivedHalf1 := slice 0 32 key
  let derivedHalf2 := slice 32 64 key
  let encryptedHalf1 := slice 7 23 decoded
  let encryptedHalf2 := slice 23 39 decoded
  let aes ← AES.new derivedHalf2
  let decryptedHalf2 ← aes.decrypt P encryptedHalf2
  let decryptedHalf1 ← aes.decrypt P encryptedHalf1
  let privateKey ← xorBytes (decryptedHalf1 ++ decryptedHalf2) derivedHalf1
  raiseIf (b2i privateKey = 0 ∨ b2i privateKey ≥ N) .error "Invalid Non-EC encrypted WIF (Wallet Import Format)"
  let sk ← PrivateKey.fromBytes privateKey
  let publicKey := sk.publicKey
  let net ← lookupNet (← coinSteps i) network
  let address ← p2pkhEncode P (.key publicKey) net.addressPrefix publicKeyType
  let addressChecksum ← getChecksum P (.bytes (← getBytes (.str address) (unhexlify := false)))
  raiseIf (addressChecksum ≠ addressHash) .passphraseError "Incorrect passphrase"
  let wif ← privateKeyToWif P (.bytes privateKey) wifType (← coinSteps i) network
  if detail then do
    let privateKeyText ← bytesToString (.bytes privateKey)
    let publicKeyText ← bytesToString (.bytes (publicKey.raw publicKeyType))
    pure (.detail { wif, privateKey := privateKeyText, wifType, publicKey := publicKeyText, publicKeyType
                    seed := none, address, lot := none, sequence := none })
  else pure (.wif wif)

/-- `bip38/bip38.py:576-652`: the branch of `decrypt` for records with prefix `0x0143` (reads: `:627`, `:632`). -/
def decryptEcSteps (i : Nat) (decoded : Bytes) (passphrase : Str) (network : String) (detail : Bool) : Prog DecryptOut := do
  let flag := slice 2 3 decoded
  let addressHash := slice 3 7 decoded
  let ownerEntropy := slice 7 15 decoded
  let encryptedHalf1Half1 := slice 15 23 decoded
  let encryptedHalf2 := dropLastN 4 decoded |>.drop 23
  let (ownerSalt, lotAndSequence) := splitEntropy flag ownerEntropy
  let passFactor ← passFactorOf P passphrase ownerSalt lotAndSequence ownerEntropy
  raiseIf (b2i passFactor = 0 ∨ b2i passFactor ≥ N) .error "Invalid EC encrypted WIF (Wallet Import Format)"
  let passKey ← PrivateKey.fromBytes passFactor
  let prePublicKey := passKey.publicKey
  let salt := addressHash ++ ownerEntropy
  let encryptedSeedB := P.scrypt prePublicKey.rawCompressed salt 1024 1 1 64
  let key := encryptedSeedB.drop 32
  let aes ← AES.new key
  let tail ← xorBytes (← aes.decrypt P encryptedHalf2) (slice 16 32 encryptedSeedB)
  let encryptedHalf1Half2 := tail.take 8
  let encryptedHalf1 := encryptedHalf1Half1 ++ encryptedHalf1Half2
  let head ← xorBytes (← aes.decrypt P encryptedHalf1) (encryptedSeedB.take 16)
  let seedB := head ++ tail.drop 8
  let factorB ← doubleSha256 P (.bytes seedB)
  raiseIf (b2i factorB = 0 ∨ b2i factorB ≥ N) .error "Invalid EC encrypted WIF (Wallet Import Format)"
  let privateKey ← integerToBytes ((b2i passFactor * b2i factorB % N : Nat) : Int)
  let sk ← PrivateKey.fromBytes privateKey
  let publicKey := sk.publicKey
  let (wifType, publicKeyType) :=
    if b2i flag ∈ FLAGS_compression then ("wif-compressed", "compressed") else ("wif", "uncompressed")
  let net ← lookupNet (← coinSteps i) network
  let address ← p2pkhEncode P (.key publicKey) net.addressPrefix publicKeyType
  let addressChecksum ← getChecksum P (.bytes (← getBytes (.str address) (unhexlify := false)))
  if addressChecksum = addressHash then do
    let wif ← privateKeyToWif P (.bytes privateKey) wifType (← coinSteps i) network
    if detail then do
      let (lot, sequence) := lotSequenceOf lotAndSequence
      let privateKeyText ← bytesToString (.bytes privateKey)
      let publicKeyText ← bytesToString (.bytes (publicKey.raw publicKeyType))
      let seedText ← bytesToString (.bytes seedB)
      pure (.detail { wif, privateKey := privateKeyText, wifType, publicKey := publicKeyText, publicKeyType
                      seed := some seedText, address, lot, sequence })
    else pure (.wif wif)
  else (raise .passphraseError "Incorrect passphrase" : Py DecryptOut)

/-- `bip38/bip38.py:472-659` `BIP38.decrypt` (reads: `:504`, `:506`, then those of the branch). -/
def decryptSteps (i : Nat) (encryptedWif passphrase : Str) (network : Option String) (detail : Bool) : Prog DecryptOut := do
  let network ← networkSteps i network
  let decoded ← b58decode encryptedWif
  raiseIf (decoded.length ≠ 43) .wifError
    (errText "Invalid encrypted WIF length" (.one true "43".toList) (toString decoded.length))
  let pre := decoded.take 2
  let noEcPrefix ← integerToBytes NO_EC_MULTIPLIED_PRIVATE_KEY_PREFIX
  let ecPrefix ← integerToBytes EC_MULTIPLIED_PRIVATE_KEY_PREFIX
  if pre = noEcPrefix then decryptNoEcSteps P i decoded passphrase network detail
  else if pre = ecPrefix then decryptEcSteps P i decoded passphrase network detail
  else (raise .error (errText "Invalid prefix" (.list [hexText noEcPrefix, hexText ecPrefix]) (String.ofList (hexText pre))) : Py DecryptOut)

/-- A call on object `i` as a program. `intermediate_code` is a static method and reads nothing (`bip38/bip38.py:90-151`). -/
def Call.steps (i : Nat) : Call → Prog Out
  | .encrypt w pass n => do pure (.text (← encryptSteps P i w pass n))
  | .decrypt e pass n detail => do pure (.decrypted (← decryptSteps P i e pass n detail))
  | .confirm pass code n detail => do pure (.confirmed (← confirmSteps P i pass code n detail))
  | .create it type seed n u => do pure (.created (← createSteps P i it type seed n u))
  | .intermediate pass lot sequence salt u => do pure (.text (← intermediateCode P pass lot sequence salt u))

/-- The classes and objects, and the threads: each is a call that runs or has finished. -/
structure Machine where
  world : World
  threads : List (Prog Out)

/-- What happens next: a thread starts a call, thread `t` makes its next read, or some thread performs an action of `Model/World.lean`. -/
inductive Event
  | start (i : Nat) (c : Call)
  | run (t : Nat)
  | act (a : Action)

/-- One read of a running call. -/
def Prog.advance {α : Type} (w : World) : Prog α → Prog α
  | .done r => .done r
  | .read q next => next (w.value q)

/-- One event. -/
def Machine.step (m : Machine) : Event → Machine
  | .start i c => { m with threads := m.threads ++ [c.steps P i] }
  | .run t => { m with threads := m.threads.modify t (Prog.advance m.world) }
  | .act a => { m with world := m.world.step a }

/-- A schedule: events in their order. -/
def Machine.run (m : Machine) (es : List Event) : Machine := es.foldl (Machine.step P) m

/-- The answer of thread `t`, when it has finished. -/
def Machine.answer (m : Machine) (t : Nat) : Option (Py Out) :=
  match m.threads[t]? with
  | some (.done r) => some r
  | _ => none

/-- How often thread `t` runs in a schedule. -/
def turns (t : Nat) (es : List Event) : Nat := es.countP fun e => match e with
  | .run s => s = t
  | _ => false

end Bip38
