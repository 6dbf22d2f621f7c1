import Verif.Src.Builtin
import Verif.Model.Wif
import Verif.Model.P2pkh
import Verif.Model.Bip38Num
/-!
# The Python values of the arguments and results of the model

How the theorems about the text of the repository (`Props/Source*.lean`) write arguments and read results.
-/
namespace Bip38.Src

open Run

/-- The Python value of an argument; an object of another kind is a non-empty `bytearray`. -/
def ofData : Data → Val
  | .none => .none
  | .str s => .str s
  | .bytes b => .bytes b
  | .other => .bytearray [0]

/-- The Python value of a byte order. -/
def ofEndian : Endian → Val
  | .big => .str "big".toList
  | .little => .str "little".toList

/-- The Python value of an optional number. -/
def ofOptInt : Option Int → Val
  | none => .none
  | some n => .int n

/-- The Python values of the argument `expected` of `Error`: nothing, a list of objects, one object; with their texts. -/
inductive ExpectedVal : Val → Expected → Prop
  | none : ExpectedVal .none .none
  | list {vs : List Val} {ts : List Str} (h : List.Forall₂ (fun v t => format v = pure t) vs ts) : ExpectedVal (.list vs) (.list ts)
  | one {v : Val} {t : Str} (hl : typeOf v ≠ .list) (h : format v = pure t) (hn : typeOf v ≠ .none) : ExpectedVal v (.one (truthy v) t)

/-- The Python value of an optional text. -/
def ofOptStr : Option Str → Val
  | none => .none
  | some s => .str s

/-- The attribute `_expected`. -/
inductive ExpectedField : Val → Option (Bool × Str) → Prop
  | none : ExpectedField .none none
  | some {v : Val} {t : Str} (h : format v = pure t) : ExpectedField v (some (truthy v, t))

/-- An object of class `Error`. -/
def errorVal (c : ExcClass) (m d x g : Val) : Val :=
  .obj (.exc c) [(v!"_message", m), (v!"_detail", d), (v!"_expected", x), (v!"_got", g)]

/-- A `Point` object. -/
def pointVal (p : Pt) : Val := .obj .Point [(v!"point", .jacobi p)]

/-- A `PublicKey` object. -/
def publicVal (k : PublicKey) : Val := .obj .PublicKey [(v!"verify_key", .verifyingKey k)]

/-- A `PrivateKey` object. -/
def privateVal (k : PrivateKey) : Val := .obj .PrivateKey [(v!"signing_key", .signingKey k)]

/-- The Python value of the argument `public_key`. -/
def ofPk : PkArg → Val
  | .key k => publicVal k
  | .data d => ofData d

/-- The keyword arguments of `encode` and `decode`, with their defaults. -/
structure AddressKw (kw : List (Name × Val)) (w : Int) (t : String) (a : Str) : Prop where
  pre : (getField kw v!"address_prefix").getD (.int 0) = .int w
  type : (getField kw v!"public_key_type").getD (.str "compressed".toList) = .str t.toList
  alphabet : (getField kw v!"alphabet").getD (.str bitcoinAlphabet) = .str a
  proper : 2 ≤ a.length

/-- The pair of WIFs, as a Python value. -/
def wifPair (p : Str × Str) : Val := .tuple [.str p.1, .str p.2]

/-- The result of `decode_wif`, as a Python value. -/
def wifParts (p : Bytes × String × Bytes) : Val := .tuple [.bytes p.1, .str p.2.1.toList, .bytes p.2.2]

/-- A list of texts. -/
def strsVal (l : List String) : Val := .list (l.map fun s => Val.str s.toList)

/-- A `BIP38` object. -/
def bipVal (b : BIP38) : Val :=
  .obj .BIP38 [(v!"cryptocurrency", .coin (.coin b.cryptocurrency)), (v!"networks", strsVal b.networks),
    (v!"network", .str b.network.toList), (v!"alphabet", .str b.alphabet)]

/-- The Python value of the argument `network`. -/
def optNet : Option String → Val
  | none => .none
  | some n => .str n.toList

/-- The dictionary returned by `create_new_encrypted_wif`. -/
def createdVal (c : Created) : Val :=
  .dict [("encrypted_wif".toList, .str c.encryptedWif), ("confirmation_code".toList, .str c.confirmationCode),
    ("public_key".toList, .str c.publicKey), ("seed".toList, .str c.seed), ("public_key_type".toList, .str c.publicKeyType.toList),
    ("address".toList, .str c.address)]

/-- A value that is `None` or a byte string. -/
def optBytes : Option Bytes → Val
  | none => .none
  | some b => .bytes b

/-- The value returned by `confirm_code`. -/
def confirmVal : ConfirmOut → Val
  | .address a => .str a
  | .detail d => .dict [("public_key".toList, .str d.publicKey), ("public_key_type".toList, .str d.publicKeyType.toList),
      ("address".toList, .str d.address), ("lot".toList, ofOptInt d.lot), ("sequence".toList, ofOptInt d.sequence)]

/-- A value that is `None` or a text. -/
def optStr : Option Str → Val
  | none => .none
  | some s => .str s

/-- The value returned by `decrypt`. -/
def decryptVal : DecryptOut → Val
  | .wif w => .str w
  | .detail d => .dict [("wif".toList, .str d.wif), ("private_key".toList, .str d.privateKey), ("wif_type".toList, .str d.wifType.toList),
      ("public_key".toList, .str d.publicKey), ("public_key_type".toList, .str d.publicKeyType.toList), ("seed".toList, optStr d.seed),
      ("address".toList, .str d.address), ("lot".toList, ofOptInt d.lot), ("sequence".toList, ofOptInt d.sequence)]

/-- Objects that are no text: `None`, booleans, numbers, bytes, bytearrays, lists, tuples, dictionaries, types, classes. -/
def PlainNonText (v : Val) : Prop := typeOf v ∈ [Ty.none, .bool, .int, .bytes, .bytearray, .list, .tuple, .dict, .type] ∧ ∀ l, v ≠ .kwargs l

/-- Any object but a text. -/
def NonText (v : Val) : Prop := ∀ s, v ≠ .str s

/-- What kind of argument an object is. -/
def dataOf : Val → Data
  | .none => .none
  | .str s => .str s
  | .bytes b => .bytes b
  | _ => .other

/-- The numbers as the code sees them: `None`, an integer, a truth value, a text read by `int`. -/
inductive NumVal (H : Host) : Val → NumArg → Prop
  | none : NumVal H .none .none
  | int (n : Int) : NumVal H (.int n) (.int n)
  | bool (b : Bool) : NumVal H (.bool b) (.value b (.ok (if b then 1 else 0)) (if b then "True" else "False"))
  | text (s : String) : NumVal H (.str s.toList) (.text (fun t => H.parseInt t.toList) s)

/-- What `NETWORKS[network]` raises for an object that is no text. -/
inductive NoKey : Val → ExcClass → Prop
  | none : NoKey .none .keyError
  | bool (b : Bool) : NoKey (.bool b) .keyError
  | int (n : Int) : NoKey (.int n) .keyError
  | bytes (b : Bytes) : NoKey (.bytes b) .keyError
  | bytearray (b : Bytes) : NoKey (.bytearray b) .typeError
  | list (l : List Val) : NoKey (.list l) .typeError
  | dict (l : List (Str × Val)) : NoKey (.dict l) .typeError

end Bip38.Src
