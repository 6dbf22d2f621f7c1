import Verif.Model.Bip38
/-!
# `intermediate_code` with lot and sequence numbers of any kind

`Model/Bip38.lean` has `intermediate_code` on integers.  The code converts both numbers with `int(...)` (`bip38/bip38.py:131`), so that
texts, booleans, floats and any other object with a truth value and a conversion are possible arguments.
-/
namespace Bip38

variable (P : Prims)

/-- An argument for `lot` or `sequence`: `None`, or an object given by what the code does with it: `bool(x)`
(`bip38/bip38.py:127`, `:130`), `int(x)` (`:131`, it may raise) and `f"{x}"` (`:128`).  Objects whose `bool` or `str` raise are not modelled. -/
inductive NumArg
  | none
  | value (truthy : Bool) (toInt : Py Int) (text : String)

/-- An integer as an argument; `True` and `False` count as 1 and 0 (apart from their text). -/
def NumArg.int (n : Int) : NumArg := .value (n ≠ 0) (.ok n) (toString n)

/-- An optional integer as an argument. -/
def NumArg.ofOption : Option Int → NumArg
  | Option.none => .none
  | some n => .int n

/-- A text as an argument; `parse` is Python's `int` on texts. -/
def NumArg.text (parse : String → Py Int) (s : String) : NumArg := .value (s ≠ "") (parse s) s

/-- `bool(x)`. -/
def NumArg.truthy : NumArg → Bool
  | .none => false
  | .value t _ _ => t

/-- `x is None`. -/
def NumArg.isNone : NumArg → Bool
  | .none => true
  | .value _ _ _ => false

/-- `int(x)`. -/
def NumArg.toInt : NumArg → Py Int
  | .none => raise .typeError "int() argument must be a string, a bytes-like object or a real number, not 'NoneType'"
  | .value _ i _ => i

/-- `f"{x}"`. -/
def NumArg.show : NumArg → String
  | .none => "None"
  | .value _ _ s => s

/-- `bip38/bip38.py:90-151` `BIP38.intermediate_code` with numbers of any kind. -/
def intermediateCodeNum (passphrase : Str) (lot sequence : NumArg) (ownerSalt : Data) (urandom8 : Bytes) : Py Str := do
  let ownerSalt ← bytesOrRandom ownerSalt urandom8
  raiseIf (ownerSalt.length ∉ [4, 8]) .error
    (errText "Invalid owner salt length" (.list ["8".toList, "16".toList]) (toString (hexText ownerSalt).length))
  raiseIf (ownerSalt.length = 4 ∧ (lot.isNone ∨ sequence.isNone)) .error
    (errText "Invalid owner salt length for non lot/sequence" (.one true "16".toList) (toString (hexText ownerSalt).length))
  raiseIf ((lot.truthy ∧ sequence.isNone) ∨ (lot.isNone ∧ sequence.truthy)) .error
    (errText "Both lot & sequence are required" (detail := some ("got: (lot " ++ lot.show ++ ") & (sequence " ++ sequence.show ++ ")")))
  let (passFactor, magic, ownerEntropy) ←
    if lot.truthy ∧ sequence.truthy then do
      let l ← lot.toInt
      let s ← sequence.toInt
      lotFactor P passphrase l s ownerSalt
    else noLotFactor P passphrase ownerSalt
  let privateKey ← PrivateKey.fromBytes passFactor
  let passPoint := privateKey.publicKey
  .ok (ensureString (checkEncode P.sha256 (magic ++ ownerEntropy ++ passPoint.rawCompressed)))

end Bip38
