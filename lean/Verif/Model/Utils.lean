import Verif.Py
/-!
# Model of `bip38/utils.py`
-/
namespace Bip38

/-- A Python argument annotated `Union[str, bytes]` / `AnyStr` / `Optional[...]`; `other` stands for any
truthy object that is neither `str` nor `bytes` (for instance a `bytearray`). -/
inductive Data
  | none
  | str (s : Str)
  | bytes (b : Bytes)
  | other
  deriving DecidableEq, Repr

/-- Python truth value of such an argument (`if not data`). -/
def Data.truthy : Data → Bool
  | .none => false
  | .str s => !s.isEmpty
  | .bytes b => !b.isEmpty
  | .other => true

/-- Value of one hexadecimal digit, either case (CPython `_PyLong_DigitValue`, below 16). -/
def hexVal (c : Char) : Option Nat :=
  if '0' ≤ c ∧ c ≤ '9' then some (c.toNat - 48)
  else if 'a' ≤ c ∧ c ≤ 'f' then some (c.toNat - 87)
  else if 'A' ≤ c ∧ c ≤ 'F' then some (c.toNat - 55)
  else none

/-- ASCII white space skipped by `bytes.fromhex` (CPython `Py_ISSPACE`). -/
def isHexSpace (c : Char) : Bool :=
  c = ' ' || c = '\t' || c = '\n' || c = '\r' || c.toNat = 11 || c.toNat = 12

/-- `bytes.fromhex(s)` (used at `bip38/utils.py:31,68`); `none` when Python raises `ValueError`. -/
def fromHex : Str → Option Bytes
  | [] => some []
  | [c] => if isHexSpace c then some [] else none
  | c :: d :: rest =>
    if isHexSpace c then fromHex (d :: rest)
    else match hexVal c, hexVal d with
      | some h, some l => (fromHex rest).map (UInt8.ofNat (16 * h + l) :: ·)
      | _, _ => none

/-- `bip38/utils.py:12-35` `get_bytes`. -/
def getBytes (data : Data) (unhexlify : Bool := true) : Py Bytes :=
  if !data.truthy then .ok []
  else match data with
    | .bytes b => .ok b
    | .str s =>
      if unhexlify then
        match fromHex s with
        | some b => .ok b
        | none => raise .valueError "non-hexadecimal number found in fromhex() arg"
      else .ok (utf8 s)
    | _ => raise .typeError "Agreement must be either 'bytes' or 'string'!"

/-- `bip38/utils.py:38-51` `bytes_reverse`. -/
def bytesReverse (data : Bytes) : Bytes := data.reverse

/-- Lower-case hexadecimal digit. -/
def hexDigit (n : Nat) : Char := Char.ofNat (if n < 10 then 48 + n else 87 + n)

/-- `b.hex()`. -/
def hex (b : Bytes) : Str := b.flatMap fun c => [hexDigit (c.toNat / 16), hexDigit (c.toNat % 16)]

/-- `bip38/utils.py:54-74` `bytes_to_string`.  `bytes.fromhex(data)` raises `TypeError` for a `bytes` argument
on Python up to 3.13 (the modelled behaviour; Python 3.14 accepts ASCII bytes there). -/
def bytesToString (data : Data) : Py Str :=
  if !data.truthy then .ok []
  else match data with
    | .str s =>
      match fromHex s with
      | some _ => .ok s
      | none => .ok (hex (utf8 s))
    | .bytes b => .ok (hex b)
    | _ => raise .typeError "encoding without a string argument"

/-- Byte order argument. -/
inductive Endian
  | little | big
  deriving DecidableEq, Repr

/-- Value of a big-endian byte string: `int.from_bytes(b, "big")`. -/
def fromBE (b : Bytes) : Nat := b.foldl (fun acc c => acc * 256 + c.toNat) 0

/-- `n.to_bytes(k, "little")` for `n < 256 ^ k`. -/
def toLE : Nat → Nat → Bytes
  | 0, _ => []
  | k + 1, n => UInt8.ofNat (n % 256) :: toLE k (n / 256)

/-- `n.to_bytes(k, "big")` for `n < 256 ^ k`. -/
def toBE (k n : Nat) : Bytes := (toLE k n).reverse

/-- `bip38/utils.py:77-92` `bytes_to_integer`: `int.from_bytes(data, byteorder, signed)`. -/
def bytesToInteger (data : Bytes) (endianness : Endian := .big) (signed : Bool := false) : Int :=
  let u : Nat := fromBE (match endianness with | .big => data | .little => data.reverse)
  if signed ∧ 2 ^ (8 * data.length) ≤ 2 * u then (u : Int) - 2 ^ (8 * data.length) else u

/-- `int.to_bytes(length, byteorder, signed)` (called at `bip38/utils.py:115`, with `length ≥ 1`). -/
def intToBytes (data : Int) (length : Nat) (endianness : Endian) (signed : Bool) : Py Bytes :=
  let out (u : Nat) : Bytes := match endianness with | .big => toBE length u | .little => toLE length u
  if signed then
    if -(2 ^ (8 * length) : Int) ≤ 2 * data ∧ 2 * data < 2 ^ (8 * length) then
      .ok (out (data % (2 ^ (8 * length))).toNat)
    else raise .overflowError "int too big to convert"
  else if data < 0 then raise .overflowError "can't convert negative int to unsigned"
  else if data < 2 ^ (8 * length) then .ok (out data.toNat)
  else raise .overflowError "int too big to convert"

/-- `data.bit_length()` for `data > 0`. -/
def bitLength (n : Nat) : Nat := if n = 0 then 0 else Nat.log2 n + 1

/-- `bip38/utils.py:95-115` `integer_to_bytes`.  `bytes_num or (...)`: `None` and `0` select the minimal number
of bytes; a negative count makes `to_bytes` raise `ValueError`. -/
def integerToBytes (data : Int) (bytesNum : Option Int := none) (endianness : Endian := .big)
    (signed : Bool := false) : Py Bytes :=
  let auto : Nat := ((if 0 < data then bitLength data.toNat else 1) + 7) / 8
  match bytesNum with
  | some k =>
    if k < 0 then raise .valueError "length argument must be non-negative"
    else if k = 0 then intToBytes data auto endianness signed
    else intToBytes data k.toNat endianness signed
  | none => intToBytes data auto endianness signed

end Bip38
