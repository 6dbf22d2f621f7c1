import Verif.Model.Base58
/-!
# The functions of `bip38/libs/base58.py` on arguments of any kind

`Model/Base58.lean` has the functions on the kinds of arguments the library itself passes (`bytes` to `encode`, `str` to
`decode`).  Here are the same functions as a caller may use them: on `str`, `bytes`, `None` and, where the code treats them
alike, other objects.
-/
namespace Bip38

/-- The first character of a byte string and the rest, `bytes.decode("utf-8")` strict (called at `bip38/libs/base58.py:23`):
lead byte, continuation bytes `80..BF`, no overlong form, no surrogate, at most `10FFFF`.  `none` when Python raises
`UnicodeDecodeError`. -/
def utf8Next : Bytes → Option (Char × Bytes)
  | [] => none
  | a :: r =>
    let a := a.toNat
    let cont (x : UInt8) : Bool := 0x80 ≤ x.toNat ∧ x.toNat < 0xc0
    let bits (x : UInt8) : Nat := x.toNat - 0x80
    let char (v low : Nat) (r : Bytes) : Option (Char × Bytes) :=
      if low ≤ v ∧ v ≤ 0x10ffff ∧ ¬ (0xd800 ≤ v ∧ v ≤ 0xdfff) then some (Char.ofNat v, r) else none
    if a < 0x80 then some (Char.ofNat a, r)
    else if a < 0xc0 then none
    else if a < 0xe0 then
      match r with
      | x :: r => if cont x then char ((a - 0xc0) * 64 + bits x) 0x80 r else none
      | _ => none
    else if a < 0xf0 then
      match r with
      | x :: y :: r => if cont x && cont y then char ((a - 0xe0) * 4096 + bits x * 64 + bits y) 0x800 r else none
      | _ => none
    else if a < 0xf8 then
      match r with
      | x :: y :: z :: r =>
        if cont x && cont y && cont z then char ((a - 0xf0) * 262144 + bits x * 4096 + bits y * 64 + bits z) 0x10000 r else none
      | _ => none
    else none

/-- `bytes.decode("utf-8")`; the fuel is the number of bytes (every character takes at least one). -/
def utf8DecodeGo : (fuel : Nat) → Bytes → Option Str
  | _, [] => some []
  | 0, _ :: _ => none
  | fuel + 1, b => match utf8Next b with
    | some (c, r) => (utf8DecodeGo fuel r).map (c :: ·)
    | none => none

/-- `bytes.decode("utf-8")`. -/
def utf8Decode (b : Bytes) : Option Str := utf8DecodeGo b.length b

/-- `bip38/libs/base58.py:21-26` `ensure_string` on any argument (`UnicodeDecodeError` is a `ValueError`). -/
def ensureStringAny : Data → Py Str
  | .bytes b => match utf8Decode b with
    | some s => .ok s
    | none => raise .valueError "'utf-8' codec can't decode"
  | .str s => .ok s
  | _ => raise .valueError "Invalid value for string"

/-- `bip38/libs/base58.py:10-18` `string_to_int` on `bytes`, `str` (`bytearray(data)` needs an encoding, even for `""`) and
`None`; other objects are not modelled (a `bytearray` works as `bytes` do). -/
def stringToIntAny : Data → Option (Py Nat)
  | .bytes b => some (.ok (stringToInt b))
  | .str _ => some (raise .typeError "string argument without an encoding")
  | .none => some (raise .typeError "'NoneType' object is not subscriptable")
  | .other => none

/-- `bip38/libs/base58.py:29-39` `encode` on the same arguments: its first step is `string_to_int`. -/
def b58encodeAny (data : Data) (alphabet : Str := bitcoinAlphabet) : Option (Py Str) :=
  match data with
  | .bytes b => some (.ok (b58encode b alphabet))
  | d => (stringToIntAny d).map fun r => r.bind fun _ => .ok []

/-- `bip38/libs/base58.py:47-65` `decode` on any argument: `bytes(data, "ascii")` raises `TypeError` unless `data` is a `str`. -/
def b58decodeAny (data : Data) (alphabet : Str := bitcoinAlphabet) : Py Bytes :=
  match data with
  | .str s => b58decode s alphabet
  | _ => raise .typeError "encoding without a string argument"

/-- `bip38/libs/base58.py:68-74` `check_decode` on any argument. -/
def checkDecodeAny (sha256 : Bytes → Bytes) (enc : Data) (alphabet : Str := bitcoinAlphabet) : Py Bytes := do
  let dec ← b58decodeAny enc alphabet
  let raw := dropLastN 4 dec
  let chk := lastN 4 dec
  if chk ≠ (sha256 (sha256 raw)).take 4 then
    raise .valueError "base58 decoding checksum error"
  else .ok raw

end Bip38
