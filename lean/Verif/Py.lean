/-!
# Python run-time conventions used by the model

Nothing here models a function of the repository; this file fixes how Python values and control flow
are represented.

* `bytes`  is `Bytes  = List UInt8`.
* `str`    is `Str = List Char` where the text is processed character by character (Base58 texts, hex
  texts, passphrases), and `String` where it is only compared (network names, WIF types, messages).
  Simplification: Python strings may contain lone surrogates, `Char` cannot.
* `int`    is `Int` where a negative value can reach the code, `Nat` otherwise.
* an exception is a value of `Exc` in the error branch of `Except`.
-/
namespace Bip38

/-- Python `bytes`. -/
abbrev Bytes := List UInt8

/-- Python `str`, as the list of its characters. -/
abbrev Str := List Char

/-- Exception classes that the modelled code can raise.  The first seven are the classes of
`bip38/exceptions.py:12-62`; the others are Python built-ins. -/
inductive ExcClass
  | error | cryptocurrencyError | networkError | secp256k1Error | addressError | wifError
  | passphraseError
  | valueError | unicodeEncodeError | overflowError | typeError | assertionError | attributeError | keyError
  /-- any other class (`MemoryError`, `KeyboardInterrupt`, ...): raised by external functions only (`Model/External.lean`) -/
  | other (name : String)
  deriving DecidableEq, Repr

/-- A raised exception `e`: its class and its text `str(e)`.  For the classes of `bip38/exceptions.py` this is the text that
`Error.__str__` makes of the arguments of the `raise` statement (`errText` in `Model/Exceptions.lean`).  For the exceptions
of Python and of the packages used it is the message of one release of them; no property depends on it. -/
structure Exc where
  cls : ExcClass
  msg : String
  deriving DecidableEq, Repr

/-- A Python computation: a value or a raised exception. -/
abbrev Py (α : Type) := Except Exc α

deriving instance DecidableEq for Except

/-- `isinstance(e, bip38.exceptions.Error)` (`bip38/exceptions.py:12,41-62`: every class of the library
derives from `Error`). -/
def ExcClass.isBip38Error : ExcClass → Bool
  | .error | .cryptocurrencyError | .networkError | .secp256k1Error | .addressError | .wifError
  | .passphraseError => true
  | _ => false

/-- `isinstance(e, ValueError)`: `UnicodeEncodeError` is a subclass of `ValueError` in Python, `OverflowError`
is not. -/
def ExcClass.isValueError : ExcClass → Bool
  | .valueError | .unicodeEncodeError => true
  | _ => false

/-- `raise cls(msg)`. -/
def raise {α : Type} (cls : ExcClass) (msg : String) : Py α := .error ⟨cls, msg⟩

/-- `if c: raise cls(msg)`. -/
def raiseIf (c : Prop) [Decidable c] (cls : ExcClass) (msg : String) : Py Unit :=
  if c then .error ⟨cls, msg⟩ else .ok ()

/-- `l[a:b]` for `0 ≤ a`, `0 ≤ b`. -/
def slice {α : Type} (a b : Nat) (l : List α) : List α := (l.take b).drop a

/-- `l[-n:]` for `n > 0`. -/
def lastN {α : Type} (n : Nat) (l : List α) : List α := l.drop (l.length - n)

/-- `l[:-n]` for `n > 0`. -/
def dropLastN {α : Type} (n : Nat) (l : List α) : List α := l.take (l.length - n)

/-- `bytes(s, "utf-8")`. -/
def utf8 (s : Str) : Bytes := s.flatMap String.utf8EncodeChar

end Bip38
