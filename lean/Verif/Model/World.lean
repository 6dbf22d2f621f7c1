import Verif.Model.Bip38
/-!
# Model of a program that uses the library: classes and objects that can be changed

A `BIP38` object holds a reference to its coin class, and copies of what it needs of it at construction (`bip38/bip38.py:79-88`): the list of
network names and the alphabet. The prefixes are looked up in the class when a method is called (`:203`, `:309`, `:452`, `:552`, `:559`, `:627`, `:632`).
All of these are ordinary Python attributes, which a program can change between calls; the library changes none of them.

Simplifications: a method runs to its end before the next action; classes do not share one `NETWORKS` dictionary; a dictionary lists its
keys in the order of insertion, so its value is the list of its items.
-/
namespace Bip38

variable (P : Prims)

/-- The attributes of a `BIP38` object (`bip38/bip38.py:66-69`); `cls` is the position of its class in the world. -/
structure ObjectRec where
  cls : Nat
  networks : List String
  network : String
  alphabet : Str

/-- The coin classes and the `BIP38` objects that exist. -/
structure World where
  classes : List Coin
  objects : List ObjectRec

/-- A call of a method, with its arguments (and the random bytes it would get). -/
inductive Call
  | encrypt (wif passphrase : Str) (network : Option String)
  | decrypt (encryptedWif passphrase : Str) (network : Option String) (detail : Bool)
  | confirm (passphrase confirmationCode : Str) (network : Option String) (detail : Bool)
  | create (intermediatePassphrase : Str) (wifType : String) (seed : Data) (network : Option String) (urandom24 : Bytes)
  | intermediate (passphrase : Str) (lot sequence : Option Int) (ownerSalt : Data) (urandom8 : Bytes)

/-- What a method returns. -/
inductive Out
  | text (s : Str)
  | created (r : Created)
  | confirmed (r : ConfirmOut)
  | decrypted (r : DecryptOut)

/-- A method call on an object (`bip38/bip38.py:90`, `:153`, `:227`, `:357`, `:472`). -/
def Call.run (obj : BIP38) : Call → Py Out
  | .encrypt w pass n => Out.text <$> obj.encrypt P w pass n
  | .decrypt e pass n detail => Out.decrypted <$> obj.decrypt P e pass n detail
  | .confirm pass code n detail => Out.confirmed <$> obj.confirmCode P pass code n detail
  | .create it type seed n u => Out.created <$> obj.createNewEncryptedWif P it type seed n u
  | .intermediate pass lot sequence salt u => Out.text <$> intermediateCode P pass lot sequence salt u

/-- What a program can do. `construct` is `BIP38(cls, network)` (`bip38/bip38.py:71-88`); `setClass` changes the class attributes `NETWORKS`,
`ALPHABET` or `NAME`; the `assign…` actions set attributes of an object (`bip38/bip38.py:66-69`). -/
inductive Action
  | construct (cls : Nat) (network : String)
  | setClass (cls : Nat) (coin : Coin)
  | assignNetwork (i : Nat) (network : String)
  | assignNetworks (i : Nat) (networks : List String)
  | assignAlphabet (i : Nat) (alphabet : Str)
  | assignClass (i : Nat) (cls : Nat)
  | call (i : Nat) (c : Call)

/-- The object number `i` as its methods see it now: its own attributes, and the present attributes of its class. -/
def World.object (w : World) (i : Nat) : Option BIP38 := do
  let o ← w.objects[i]?
  let c ← w.classes[o.cls]?
  some { cryptocurrency := c, networks := o.networks, network := o.network, alphabet := o.alphabet }

/-- The answer to a call now. -/
def World.ask (w : World) (i : Nat) (c : Call) : Option (Py Out) := (w.object i).map fun obj => c.run P obj

/-- Change of one object. -/
def World.modify (w : World) (i : Nat) (f : ObjectRec → ObjectRec) : World := { w with objects := w.objects.modify i f }

/-- One action (`bip38/bip38.py:71-88` for `construct`, which adds an object when it does not raise). -/
def World.step (w : World) : Action → World
  | .construct cls network =>
    match w.classes[cls]? with
    | none => w
    | some c =>
      match BIP38.new (.coin c) network with
      | .error _ => w
      | .ok obj => { w with objects := w.objects ++ [⟨cls, obj.networks, obj.network, obj.alphabet⟩] }
  | .setClass cls coin => { w with classes := w.classes.set cls coin }
  | .assignNetwork i network => w.modify i fun o => { o with network }
  | .assignNetworks i networks => w.modify i fun o => { o with networks }
  | .assignAlphabet i alphabet => w.modify i fun o => { o with alphabet }
  | .assignClass i cls => w.modify i fun o => { o with cls }
  | .call _ _ => w

/-- A program: actions in their order. -/
def World.run (w : World) (acts : List Action) : World := acts.foldl World.step w

end Bip38
