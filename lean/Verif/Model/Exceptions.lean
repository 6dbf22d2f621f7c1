import Verif.Py
/-!
# Model of `bip38/exceptions.py`

`expected` and `got` are arbitrary Python objects of which only the text in an f-string and, for `expected`, the truth value are used;
the model takes these.
-/
namespace Bip38

/-- The `expected` argument of `Error.__init__`: `None`, a list of objects, or another object; with the texts
`f"{...}"` of the objects, and the truth value of the other object. -/
inductive Expected
  | none
  | list (texts : List Str)
  | one (truthy : Bool) (text : Str)
  deriving DecidableEq, Repr

/-- Attributes of `Error` (`bip38/exceptions.py:17-19`).  `expected = none` is Python's `None`; else its truth value and text. -/
structure ErrorObj where
  message : Str
  detail : Option Str
  expected : Option (Bool × Str)
  got : Str
  deriving DecidableEq, Repr

/-- `f"'{x}'"`. -/
def quoted (x : Str) : Str := '\'' :: (x ++ ['\''])

/-- The loop of `bip38/exceptions.py:21-26` over the list of expected objects. -/
def joinExpected : List Str → Option Str → Option Str
  | [], acc => acc
  | t :: ts, none => joinExpected ts (some (quoted t))
  | t :: ts, some s => joinExpected ts (some (s ++ ", ".toList ++ quoted t))

/-- `bip38/exceptions.py:14-28` `Error.__init__`.  `gotText` is `f"{got}"` (the text `None` when `got` is omitted).
The truth value of a text is that it is not empty. -/
def ErrorObj.init (message : Str) (detail : Option Str) (expected : Expected) (gotText : Str) : ErrorObj :=
  { message, detail, got := quoted gotText
    expected := match expected with
      | .none => none
      | .one b t => some (b, t)
      | .list ts => (joinExpected ts none).map fun t => (!t.isEmpty, t) }

/-- Python truth value of an optional text. -/
def optTruthy : Option Str → Bool
  | none => false
  | some s => !s.isEmpty

/-- Truth value of `self._expected`. -/
def expectedTruthy : Option (Bool × Str) → Bool
  | none => false
  | some (b, _) => b

/-- `bip38/exceptions.py:30-38` `Error.__str__`. -/
def ErrorObj.str (e : ErrorObj) : Str :=
  let exp := (e.expected.map (·.2)).getD []
  let det := e.detail.getD []
  if expectedTruthy e.expected && !e.got.isEmpty && optTruthy e.detail then
    e.message ++ ", (expected: ".toList ++ exp ++ " | got: ".toList ++ e.got ++ ") ".toList ++ det
  else if expectedTruthy e.expected && !e.got.isEmpty && !optTruthy e.detail then
    e.message ++ ", (expected: ".toList ++ exp ++ " | got: ".toList ++ e.got ++ ")".toList
  else if optTruthy e.detail then e.message ++ " ".toList ++ det
  else e.message

/-- `str(Error(message, detail=detail, expected=expected, got=got))`; `got` defaults to `None` (`bip38/exceptions.py:14-16`). -/
def errText (message : String) (expected : Expected := .none) (got : String := "None") (detail : Option String := none) : String :=
  String.ofList (ErrorObj.init message.toList (detail.map String.toList) expected got.toList).str

/-- One byte in the `repr` of a `bytes` object, between quotes `q` (Python run time). -/
def byteRepr (q : Char) (b : UInt8) : Str :=
  if b = 92 ∨ b.toNat = q.toNat then ['\\', Char.ofNat b.toNat]
  else if b = 9 then "\\t".toList
  else if b = 10 then "\\n".toList
  else if b = 13 then "\\r".toList
  else if b.toNat < 32 ∨ 127 ≤ b.toNat then
    ['\\', 'x', Nat.digitChar (b.toNat / 16), Nat.digitChar (b.toNat % 16)]
  else [Char.ofNat b.toNat]

/-- `f"{b}"` of a `bytes` object, that is its `repr` (Python run time): double quotes are used if the bytes contain a single
quote but no double quote. -/
def bytesRepr (b : Bytes) : Str :=
  let q := if 39 ∈ b ∧ 34 ∉ b then '"' else '\''
  'b' :: q :: (b.flatMap (byteRepr q) ++ [q])

end Bip38
