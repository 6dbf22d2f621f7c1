import Verif.Spec.Bytes
import Verif.Spec.Address
import Verif.Spec.Wif
import Verif.Spec.Coin
import Verif.Spec.Curve
import Verif.Model.Bip38
/-!
# Specification vocabulary for BIP38 records

Byte-level description of the records of BIP38, independent of the control flow of `bip38/bip38.py`: every definition
is a formula of the BIP.
-/
namespace Bip38.Spec

variable (P : Prims)

/-- `obj` was built by `BIP38(coin, …)` for a class of the library or one made by the user (`ProperCoin`), and a call with this `network` argument selects the network named `n`
with prefixes `v`: the argument if it is given and not empty, else the network of the constructor. -/
structure Selects (obj : BIP38) (network : Option String) (c : Coin) (n : String) (v : Net) : Prop where
  proper : ProperCoin c
  built : ∃ n0, BIP38.new (.coin c) n0 = .ok obj
  chosen : n = if network = none ∨ network = some "" then obj.network else network.getD ""
  found : (n, v) ∈ c.networks

/-- Bytewise exclusive or. -/
def bxor (a b : Bytes) : Bytes := List.zipWith (· ^^^ ·) a b

/-- Exclusive or of two numbers given by their big-endian bytes, written in 16 bytes. -/
def mask (a b : Bytes) : Bytes := toBE 16 (be a ^^^ be b)

/-- The shortest big-endian form of that exclusive or has 16 bytes. -/
def Maskable (a b : Bytes) : Prop := 256 ^ 15 ≤ be a ^^^ be b ∧ be a ^^^ be b < 256 ^ 16

instance (a b : Bytes) : Decidable (Maskable a b) := inferInstanceAs (Decidable (_ ∧ _))

/-- Public key type that goes with a WIF type. -/
def pubType (wifType : String) : String := if wifType = "wif" then "uncompressed" else "compressed"

/-- `pk` is the public key of the private key with these bytes: the private key, read as a number, times the generator. -/
def IsPublicKeyOf (pk : PublicKey) (key : Bytes) : Prop := .aff pk.x pk.y = times (be key) gen

/-- The bytes of a valid private key. -/
def IsPrivateKey (key : Bytes) : Prop := key.length = 32 ∧ 1 ≤ be key ∧ be key < n256k1

instance (key : Bytes) : Decidable (IsPrivateKey key) := inferInstanceAs (Decidable (_ ∧ _ ∧ _))

/-- Text of the P2PKH address of a public key on a network. -/
def addressText (v : Net) (pk : PublicKey) (pkType : String) : Str :=
  b58encode (addressPayload P v.addressPrefix pk pkType ++ checksum P (addressPayload P v.addressPrefix pk pkType))

/-- The 4 bytes by which BIP38 identifies an address: the start of the double SHA-256 of its text. -/
def addressHash (v : Net) (pk : PublicKey) (pkType : String) : Bytes := checksum P (utf8 (addressText P v pk pkType))

/-- Text of the WIF of a private key on a network. -/
def wifText (v : Net) (key : Bytes) (type : String) : Str :=
  b58encode (wifPayload v.wifPrefix key type ++ checksum P (wifPayload v.wifPrefix key type))

/-- Passphrase stretching: scrypt of the UTF-8 of the NFC form. -/
def stretch (passphrase : Str) (salt : Bytes) (len : Nat) : Bytes := P.scrypt (utf8 (P.nfc passphrase)) salt 16384 8 8 len

/-! ### Records without EC multiplication -/

/-- Flag byte. -/
def noEcFlag (wifType : String) : UInt8 := if wifType = "wif" then 0xc0 else 0xe0

/-- The two blocks before encryption: the halves of the key masked with the first 32 derived bytes. -/
def noEcPlain1 (dk key : Bytes) : Bytes := bxor (key.take 16) (dk.take 16)
def noEcPlain2 (dk key : Bytes) : Bytes := bxor (key.drop 16) ((dk.take 32).drop 16)

/-- The 39-byte record. -/
def noEcRecord (wifType : String) (hash dk key : Bytes) : Bytes :=
  [0x01, 0x42, noEcFlag wifType] ++ hash ++ P.aesEncrypt (dk.drop 32) (noEcPlain1 dk key)
    ++ P.aesEncrypt (dk.drop 32) (noEcPlain2 dk key)

/-- Key recovered from the two encrypted blocks. -/
def noEcKey (dk c1 c2 : Bytes) : Bytes :=
  bxor (P.aesDecrypt (dk.drop 32) c1 ++ P.aesDecrypt (dk.drop 32) c2) (dk.take 32)

/-- What `decrypt` reports about a private key: all fields describe the one key. -/
def keyDetail (v : Net) (key : Bytes) (pk : PublicKey) (wifType : String) (seed : Option Bytes) (lotSeq : Option (Nat × Nat)) :
    DecryptDetail where
  wif := wifText P v key wifType
  privateKey := hex key
  wifType := wifType
  publicKey := hex (sec1 pk (pubType wifType))
  publicKeyType := pubType wifType
  seed := seed.map hex
  address := addressText P v pk (pubType wifType)
  lot := lotSeq.map fun x => (x.1 : Int)
  sequence := lotSeq.map fun x => (x.2 : Int)

/-- With `detail=True` the whole dictionary, else only the WIF. -/
def present (detail : Bool) (d : DecryptDetail) : DecryptOut := if detail then .detail d else .wif d.wif

/-! ### Records with EC multiplication -/

/-- The flag byte of an EC record announces lot and sequence numbers: bit `0x04`, for flags with no bit outside `0x3c`. -/
def hasLot (flag : UInt8) : Prop := flag &&& 0xc3 = 0 ∧ flag &&& 0x04 ≠ 0
/-- The flag byte announces a compressed public key: bit `0x20`. -/
def isCompressed (flag : UInt8) : Prop := flag &&& 0xe3 = 0x20 ∨ flag &&& 0xe7 = 0xe0

instance (f : UInt8) : Decidable (hasLot f) := inferInstanceAs (Decidable (_ ∧ _))
instance (f : UInt8) : Decidable (isCompressed f) := inferInstanceAs (Decidable (_ ∨ _))

/-- The flag byte of a new record. -/
def ecFlag (lot : Bool) (wifType : String) : UInt8 :=
  (if lot then 0x04 else 0) ||| (if wifType = "wif" then 0 else 0x20)

/-- Pass factor from passphrase and owner entropy. -/
def passFactor (lot : Bool) (passphrase : Str) (entropy : Bytes) : Bytes :=
  if lot then dsha P (stretch P passphrase (entropy.take 4) 32 ++ entropy) else stretch P passphrase entropy 32

/-- The 64 bytes derived from the pass point. -/
def ecDerive (passPoint hash entropy : Bytes) : Bytes := P.scrypt passPoint (hash ++ entropy) 1024 1 1 64

/-- First and second encrypted block of the seed. -/
def ecBlock1 (dk seed : Bytes) : Bytes := P.aesEncrypt (dk.drop 32) (mask (seed.take 16) (dk.take 16))
def ecBlock2 (dk seed : Bytes) : Bytes :=
  P.aesEncrypt (dk.drop 32) (mask ((ecBlock1 P dk seed).drop 8 ++ seed.drop 16) ((dk.take 32).drop 16))

/-- The 39-byte record of an EC encrypted key. -/
def ecRecord (flag : UInt8) (hash entropy dk seed : Bytes) : Bytes :=
  [0x01, 0x43, flag] ++ hash ++ entropy ++ (ecBlock1 P dk seed).take 8 ++ ecBlock2 P dk seed

/-- The 51-byte record of a confirmation code, for the compressed point `pointB`. -/
def confirmRecord (flag : UInt8) (hash entropy dk pointB : Bytes) : Bytes :=
  [0x64, 0x3b, 0xf6, 0xa8, 0x9a, flag] ++ hash ++ entropy
    ++ [pointB.headD 0 ^^^ (dk.getD 63 0 &&& 1)]
    ++ P.aesEncrypt (dk.drop 32) (mask ((pointB.drop 1).take 16) (dk.take 16))
    ++ P.aesEncrypt (dk.drop 32) (mask (pointB.drop 17) ((dk.take 32).drop 16))

/-- Magic bytes of an intermediate code. -/
def magicBytes (lot : Bool) : Bytes := [0x2c, 0xe9, 0xb3, 0xe1, 0xff, 0x39, 0xe2, if lot then 0x51 else 0x53]

/-- Owner entropy with a lot and a sequence number: 4 bytes of salt, then `lot * 4096 + sequence` in 4 bytes. -/
def lotEntropy (salt : Bytes) (lot sequence : Nat) : Bytes := salt.take 4 ++ toBE 4 (lot * 4096 + sequence)

/-- The record of an intermediate code. -/
def intermediateRecord (lot : Bool) (entropy : Bytes) (passPoint : PublicKey) : Bytes :=
  magicBytes lot ++ entropy ++ sec1 passPoint "compressed"

/-- Base58Check text of a record. -/
def checkText (record : Bytes) : Str := b58encode (record ++ checksum P record)

/-- The dictionary returned by `create_new_encrypted_wif` for the public key `pk`, the seed and the compressed seed point. -/
def createdDict (v : Net) (lot : Bool) (wifType : String) (entropy dk seed pointB : Bytes) (pk : PublicKey) : Created where
  encryptedWif := checkText P (ecRecord P (ecFlag lot wifType) (addressHash P v pk (pubType wifType)) entropy dk seed)
  confirmationCode := checkText P (confirmRecord P (ecFlag lot wifType) (addressHash P v pk (pubType wifType)) entropy dk pointB)
  publicKey := hex (sec1 pk (pubType wifType))
  seed := hex seed
  publicKeyType := pubType wifType
  address := addressText P v pk (pubType wifType)

/-! ### Reading an EC record -/

/-- Lot and sequence numbers in the last four bytes of the owner entropy. -/
def lotSeq (f : UInt8) (ent : Bytes) : Option (Nat × Nat) :=
  if hasLot f then some (be (ent.drop 4) / 4096, be (ent.drop 4) % 4096) else none

/-- WIF type announced by a flag. -/
def ecType (f : UInt8) : String := if isCompressed f then "wif-compressed" else "wif"

/-- Tail of the seed as `decrypt` reads it: bytes 8 - 15 of the first encrypted block, then bytes 16 - 23 of the seed, without leading zeros. -/
def ecTail (dk e2 : Bytes) : Bytes := strip (bxor (P.aesDecrypt (dk.drop 32) e2) ((dk.take 32).drop 16))
/-- Seed as `decrypt` reads it. -/
def ecSeed (dk h11 e2 : Bytes) : Bytes :=
  strip (bxor (P.aesDecrypt (dk.drop 32) (h11 ++ (ecTail P dk e2).take 8)) (dk.take 16)) ++ (ecTail P dk e2).drop 8

/-- The private key number. -/
def ecNum (pf seed : Bytes) : Nat := be pf * be (dsha P seed) % n256k1

/-! ### Confirmation codes -/

/-- The point a confirmation code carries, as `confirm_code` reads it: header byte and the two halves, each without leading zeros. -/
def confirmPoint (dk : Bytes) (x : UInt8) (c1 c2 : Bytes) : Bytes :=
  [x ^^^ (dk.getD 63 0 &&& 1)]
    ++ strip (bxor (P.aesDecrypt (dk.drop 32) c1) (dk.take 16))
    ++ strip (bxor (P.aesDecrypt (dk.drop 32) c2) ((dk.take 32).drop 16))

/-- What `confirm_code` reports about a public key. -/
def confirmDict (v : Net) (pk : PublicKey) (wifType : String) (lotSeq : Option (Nat × Nat)) : ConfirmDetail where
  publicKey := hex (sec1 pk (pubType wifType))
  publicKeyType := pubType wifType
  address := addressText P v pk (pubType wifType)
  lot := lotSeq.map fun x => (x.1 : Int)
  sequence := lotSeq.map fun x => (x.2 : Int)

/-- With `detail=True` the whole dictionary, else only the address. -/
def presentAddress (detail : Bool) (d : ConfirmDetail) : ConfirmOut := if detail then .detail d else .address d.address

end Bip38.Spec
