import Verif.Model.Bip38
import Verif.Model.Base58Any
/-!
# The methods of `bip38/bip38.py` and the functions of `bip38/wif.py`, `bip38/p2pkh_address.py` on arguments of any kind

`Model/Bip38.lean` has the methods on texts.  Here the texts and passphrases are any Python value: text, bytes, `None`, another object
(`Data`).  A passphrase is used for the first time in `unicodedata.normalize("NFC", passphrase)`, which raises `TypeError` unless it
is a `str`; a Base58 text is used for the first time in `bytes(data, "ascii")` (`b58decodeAny`), which does the same.
The statements before that use are repeated here; nothing after it is reached.
-/
namespace Bip38

variable (P : Prims)

/-- `unicodedata.normalize("NFC", passphrase)` of something that is not a `str` (`bip38/bip38.py:137`, `:142`, `:207`, `:415`, `:533`,
`:587`). -/
def normalizeFails {α : Type} : Py α := raise .typeError "normalize() argument 2 must be str"

/-- `bip38/bip38.py:90-151` `BIP38.intermediate_code`; without a text as passphrase it ends at line 137 or 142. -/
def intermediateCodeAny (passphrase : Data) (lot sequence : Option Int) (ownerSalt : Data) (urandom8 : Bytes) : Py Str :=
  match passphrase with
  | .str p => intermediateCode P p lot sequence ownerSalt urandom8
  | _ => do
    let ownerSalt ← bytesOrRandom ownerSalt urandom8
    raiseIf (ownerSalt.length ∉ [4, 8]) .error
      (errText "Invalid owner salt length" (.list ["8".toList, "16".toList]) (toString (hexText ownerSalt).length))
    raiseIf (ownerSalt.length = 4 ∧ (lot = none ∨ sequence = none)) .error
      (errText "Invalid owner salt length for non lot/sequence" (.one true "16".toList) (toString (hexText ownerSalt).length))
    raiseIf ((truthyInt lot ∧ sequence = none) ∨ (lot = none ∧ truthyInt sequence)) .error
      (errText "Both lot & sequence are required" (detail := some ("got: (lot " ++ pyInt lot ++ ") & (sequence " ++ pyInt sequence ++ ")")))
    raiseIf ((truthyInt lot ∧ truthyInt sequence) ∧ ¬ (100000 ≤ lot.getD 0 ∧ lot.getD 0 ≤ 999999)) .error
      (errText "Invalid lot" (.one true "100000 <= lot <= 999999".toList) (toString (lot.getD 0)))
    raiseIf ((truthyInt lot ∧ truthyInt sequence) ∧ ¬ (0 ≤ sequence.getD 0 ∧ sequence.getD 0 ≤ 4095)) .error
      (errText "Invalid sequence" (.one true "0 <= sequence <= 4095".toList) (toString (sequence.getD 0)))
    normalizeFails

/-- `bip38/bip38.py:153-225` `BIP38.encrypt`; without a text as WIF it ends at line 185 (`get_wif_type`), without a text as passphrase
at line 207. -/
def BIP38.encryptAny (self : BIP38) (wif passphrase : Data) (network : Option String := none) : Py Str :=
  match wif, passphrase with
  | .str w, .str p => self.encrypt P w p network
  | .str w, _ => do
    let network := self.selectNetwork network
    raiseIf (network ∉ self.networks) .networkError (wrongNetwork self.networks)
    let wifType ← getWifType w self.cryptocurrency network
    let privateKey ← PrivateKey.fromBytes (← getBytes (.str (← wifToPrivateKey w self.cryptocurrency network)))
    let net ← lookupNet self.cryptocurrency network
    let address ← p2pkhEncode P (.key privateKey.publicKey) net.addressPrefix (if wifType = "wif" then "uncompressed" else "compressed")
    let _ ← getChecksum P (.bytes (← getBytes (.str address) (unhexlify := false)))
    normalizeFails
  | d, _ => do
    let network := self.selectNetwork network
    raiseIf (network ∉ self.networks) .networkError (wrongNetwork self.networks)
    let _ ← lookupNet self.cryptocurrency network
    let _ ← b58decodeAny d
    .ok []

/-- `bip38/bip38.py:227-355` `BIP38.create_new_encrypted_wif`; without a text as intermediate passphrase it ends at line 265: the
`TypeError` is not caught by `except ValueError`. -/
def BIP38.createAny (self : BIP38) (intermediatePassphrase : Data) (wifType : String := "wif")
    (seed : Data := .none) (network : Option String := none) (urandom24 : Bytes) : Py Created :=
  match intermediatePassphrase with
  | .str it => self.createNewEncryptedWif P it wifType seed network urandom24
  | d => do
    let network := self.selectNetwork network
    raiseIf (network ∉ self.networks) .networkError (wrongNetwork self.networks)
    let _ ← bytesOrRandom seed urandom24
    match checkDecodeAny P.sha256 d with
    | .ok _ => .ok ⟨[], [], [], [], "", []⟩
    | .error e => if e.cls.isValueError then raise .passphraseError "Invalid intermediate passphrase" else .error e

/-- `bip38/bip38.py:357-470` `BIP38.confirm_code`; without a text as code it ends at line 392, without a text as passphrase at line
415. -/
def BIP38.confirmAny (self : BIP38) (passphrase confirmationCode : Data) (network : Option String := none)
    (detail : Bool := false) : Py ConfirmOut :=
  match passphrase, confirmationCode with
  | .str p, .str code => self.confirmCode P p code network detail
  | _, .str code => do
    let network := self.selectNetwork network
    raiseIf (network ∉ self.networks) .networkError (wrongNetwork self.networks)
    let decoded ← checkDecodeOr P code .error "Invalid confirmation code"
    raiseIf (decoded.length ≠ 51) .error
      (errText "Invalid confirmation code length" (.one true "102".toList) (toString decoded.length))
    let confPrefix ← integerToBytes CONFIRMATION_CODE_PREFIX
    let prefixLength := confPrefix.length
    let prefixGot := decoded.take prefixLength
    raiseIf (confPrefix ≠ prefixGot) .error
      (errText "Invalid confirmation code prefix" (.one true (toString prefixLength).toList) (String.ofList (bytesRepr prefixGot)))
    normalizeFails
  | _, d => do
    let network := self.selectNetwork network
    raiseIf (network ∉ self.networks) .networkError (wrongNetwork self.networks)
    match checkDecodeAny P.sha256 d with
    | .ok _ => .ok (.address [])
    | .error e => if e.cls.isValueError then raise .error "Invalid confirmation code" else .error e

/-- `bip38/bip38.py:472-659` `BIP38.decrypt`; without a text as encrypted WIF it ends at line 508, without a text as passphrase at
line 533 or 587. -/
def BIP38.decryptAny (self : BIP38) (encryptedWif passphrase : Data) (network : Option String := none)
    (detail : Bool := false) : Py DecryptOut :=
  match encryptedWif, passphrase with
  | .str e, .str p => self.decrypt P e p network detail
  | .str e, _ => do
    let network := self.selectNetwork network
    raiseIf (network ∉ self.networks) .networkError (wrongNetwork self.networks)
    let decoded ← b58decode e
    raiseIf (decoded.length ≠ 43) .wifError
      (errText "Invalid encrypted WIF length" (.one true "43".toList) (toString decoded.length))
    let pre := decoded.take 2
    let noEcPrefix ← integerToBytes NO_EC_MULTIPLIED_PRIVATE_KEY_PREFIX
    let ecPrefix ← integerToBytes EC_MULTIPLIED_PRIVATE_KEY_PREFIX
    if pre = noEcPrefix then do
      let flag := slice 2 3 decoded
      let flagU ← integerToBytes NO_EC_MULTIPLIED_WIF_FLAG
      let flagC ← integerToBytes NO_EC_MULTIPLIED_WIF_COMPRESSED_FLAG
      raiseIf (flag ≠ flagU ∧ flag ≠ flagC) .error
        (errText "Invalid flag" (.list [hexText flagU, hexText flagC]) (String.ofList (hexText flag)))
      normalizeFails
    else if pre = ecPrefix then normalizeFails
    else raise .error (errText "Invalid prefix" (.list [hexText noEcPrefix, hexText ecPrefix]) (String.ofList (hexText pre)))
  | d, _ => do
    let network := self.selectNetwork network
    raiseIf (network ∉ self.networks) .networkError (wrongNetwork self.networks)
    let _ ← b58decodeAny d
    .ok (.wif [])

/-- `bip38/wif.py:59-94` `decode_wif`, and with it `wif_to_private_key`, `get_wif_type`, `get_wif_checksum`: the text is decoded
first (line 74). -/
def decodeWifAny (wif : Data) (wifPrefix : Int := 0x80) : Py (Bytes × String × Bytes) :=
  match wif with
  | .str w => decodeWif w wifPrefix
  | d => do
    let _ ← b58decodeAny d
    .ok ([], "", [])

/-- `bip38/p2pkh_address.py:64-97` `P2PKHAddress.decode`: the prefix is converted first (line 79), then the text is decoded. -/
def p2pkhDecodeAny (address : Data) (addressPrefix : Int := 0x00) (alphabet : Str := bitcoinAlphabet) : Py Str :=
  match address with
  | .str a => p2pkhDecode P a addressPrefix alphabet
  | d => do
    let _ ← integerToBytes addressPrefix
    let _ ← checkDecodeAny P.sha256 d alphabet
    .ok []

end Bip38
