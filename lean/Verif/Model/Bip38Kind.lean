import Verif.Model.Bip38
/-!
# Network names, WIF types and public key types of any kind

`Model/Bip38.lean`, `Model/Wif.lean` and `Model/P2pkh.lean` have these arguments as texts. The code only tests their truth value, compares them with
texts, uses them as keys of a dictionary of texts, and shows them or their type in errors; here they are objects of any kind.
-/
namespace Bip38

variable (P : Prims)

/-- An argument: `None`, a text, or another object, given by what the code does with it: `bool(x)`, `hash(x)` (whether it has one), `str(type(x))` and
`str(x)`.  Simplification: no other object is equal to a text (so objects with their own `__eq__` are not modelled), and none of these raise. -/
inductive ObjArg
  | none
  | str (s : String)
  | other (truthy hashable : Bool) (type text : String)
  deriving DecidableEq

/-- `bool(x)`. -/
def ObjArg.truthy : ObjArg → Bool
  | .none => false
  | .str s => s ≠ ""
  | .other t _ _ _ => t

/-- `f"{type(x)}"`. -/
def ObjArg.typeText : ObjArg → String
  | .none => "<class 'NoneType'>"
  | .str _ => "<class 'str'>"
  | .other _ _ t _ => t

/-- `f"{x}"`. -/
def ObjArg.text : ObjArg → String
  | .none => "None"
  | .str s => s
  | .other _ _ _ t => t

/-- `x in texts`. -/
def ObjArg.isIn (x : ObjArg) (texts : List String) : Bool := texts.any fun t => x = .str t

/-- `bip38/bip38.py:71-88` `BIP38.__init__` with a network of any kind. -/
def BIP38.newKind (c : Coin) (network : ObjArg) : Py BIP38 :=
  match network with
  | .str s => BIP38.new (.coin c) s
  | x => do
    raiseIf (¬ x.isIn c.networkNames) .networkError
      (errText "Wrong network type" (.list (c.networkNames.map String.toList)) x.typeText)
    raise .networkError "not reached: only texts are equal to a name"

/-- The network of a call: `network if network else self.network`, then the test (`bip38/bip38.py:180-184`, `:258-262`, `:386-390`, `:503-507`). -/
def BIP38.networkKind (self : BIP38) (network : ObjArg) : Py String := do
  let network := if network.truthy then network else .str self.network
  raiseIf (¬ network.isIn self.networks) .networkError
    (errText "Wrong network type" (.list (self.networks.map String.toList)) network.typeText)
  match network with
  | .str s => .ok s
  | _ => raise .networkError "not reached: only texts are equal to a name"

/-- `bip38/bip38.py:153-225` `BIP38.encrypt`; after its test the network is a text. -/
def BIP38.encryptKind (self : BIP38) (wif passphrase : Str) (network : ObjArg) : Py Str := do
  let network ← self.networkKind network
  self.encrypt P wif passphrase (some network)

/-- `bip38/bip38.py:472-659` `BIP38.decrypt`; after its test the network is a text. -/
def BIP38.decryptKind (self : BIP38) (encryptedWif passphrase : Str) (network : ObjArg) (detail : Bool) : Py DecryptOut := do
  let network ← self.networkKind network
  self.decrypt P encryptedWif passphrase (some network) detail

/-- `bip38/bip38.py:357-470` `BIP38.confirm_code`; after its test the network is a text. -/
def BIP38.confirmKind (self : BIP38) (passphrase confirmationCode : Str) (network : ObjArg) (detail : Bool) : Py ConfirmOut := do
  let network ← self.networkKind network
  self.confirmCode P passphrase confirmationCode (some network) detail

/-- `bip38/bip38.py:227-355` `BIP38.create_new_encrypted_wif`; after its test (`:276-281`) the WIF type is a text. -/
def BIP38.createKind (self : BIP38) (intermediatePassphrase : Str) (wifType : ObjArg) (seed : Data) (network : ObjArg) (urandom24 : Bytes) :
    Py Created := do
  let network ← self.networkKind network
  match wifType with
  | .str t => self.createNewEncryptedWif P intermediatePassphrase t seed (some network) urandom24
  | t => do
    let _ ← bytesOrRandom seed urandom24
    let intermediateDecode ← checkDecodeOr P intermediatePassphrase .passphraseError "Invalid intermediate passphrase"
    raiseIf (intermediateDecode.length ≠ 49) .passphraseError
      (errText "Invalid intermediate passphrase length" (.one true "49".toList) (toString intermediateDecode.length))
    raise .wifError (errText "Invalid wif type" (.list (WIF_TYPES.map String.toList)) t.text)

/-- `cryptocurrency.NETWORKS[network]` (`bip38/wif.py:122`, `:145`, `:167`, `:189`): a key without `hash` raises `TypeError`, one that is no name `KeyError`. -/
def lookupKind (c : Coin) (network : ObjArg) : Py Net :=
  match network with
  | .str s => lookupNet c s
  | .none => raise .keyError "None"
  | .other _ hashable _ text => if hashable then raise .keyError text else raise .typeError "unhashable type"

/-- `bip38/wif.py:97-124` `private_key_to_wif`. -/
def privateKeyToWifKind (privateKey : Data) (wifType : ObjArg) (coin : Coin) (network : ObjArg) : Py Str := do
  raiseIf (¬ wifType.isIn WIF_TYPES) .wifError (errText "Wrong WIF type" (.list (WIF_TYPES.map String.toList)) wifType.text)
  let net ← lookupKind coin network
  let (wif, wifCompressed) ← encodeWif P privateKey net.wifPrefix
  .ok (if wifType = .str "wif" then wif else wifCompressed)

/-- `bip38/wif.py:127-146` `wif_to_private_key`. -/
def wifToPrivateKeyKind (wif : Str) (coin : Coin) (network : ObjArg) : Py Str := do
  let net ← lookupKind coin network
  let (key, _, _) ← decodeWif wif net.wifPrefix
  bytesToString (.bytes key)

/-- `bip38/wif.py:149-168` `get_wif_type`. -/
def getWifTypeKind (wif : Str) (coin : Coin) (network : ObjArg) : Py String := do
  let net ← lookupKind coin network
  let (_, type, _) ← decodeWif wif net.wifPrefix
  .ok type

/-- `bip38/wif.py:171-190` `get_wif_checksum`. -/
def getWifChecksumKind (wif : Str) (coin : Coin) (network : ObjArg) : Py Str := do
  let net ← lookupKind coin network
  let (_, _, checksum) ← decodeWif wif net.wifPrefix
  bytesToString (.bytes checksum)

/-- `bip38/p2pkh_address.py:28-62` `P2PKHAddress.encode`; `none` stands for an absent keyword argument `public_key_type`. -/
def p2pkhEncodeKind (publicKey : PkArg) (addressPrefix : Int) (publicKeyType : Option ObjArg) (alphabet : Str) : Py Str := do
  let pre ← integerToBytes addressPrefix
  let pk ← match publicKey with
    | .key k => (.ok k : Py PublicKey)
    | .data d => do PublicKey.fromBytes (← getBytes d)
  let publicKeyHash ← hash160 P (.bytes
    (if publicKeyType.getD (.str "compressed") = .str "compressed" then pk.rawCompressed else pk.rawUncompressed))
  .ok (ensureString (checkEncode P.sha256 (pre ++ publicKeyHash) alphabet))

end Bip38
