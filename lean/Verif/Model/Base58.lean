import Verif.Model.Utils
/-!
# Model of `bip38/libs/base58.py`

The hash function is an argument (`sha256`), see `Model/Crypto.lean`.
-/
namespace Bip38

/-- `bip38/libs/base58.py:7` and `bip38/cryptocurrencies.py:164` (`Bitcoin.ALPHABET`). -/
def bitcoinAlphabet : Str := "123456789ABCDEFGHJKLMNPQRSTUVWXYZabcdefghijkmnopqrstuvwxyz".toList

/-- `bip38/libs/base58.py:10-18` `string_to_int` on `bytes`: `Σ 256^i * data[::-1][i]`.  The `str` branch
(`bytearray(data)`) raises `TypeError` on Python 3: see `stringToIntAny`. -/
def stringToInt (data : Bytes) : Nat :=
  (data.reverse.zipIdx).foldl (fun val (c, i) => val + 256 ^ i * c.toNat) 0

/-- `bip38/libs/base58.py:21-26` `ensure_string` on a `str`, the only kind the library passes; see `ensureStringAny`
for the other kinds. -/
def ensureString (data : Str) : Str := data

/-- `bip38/libs/base58.py:32-34`, the `while val >= len(alphabet)` loop of `encode`.  `fuel` bounds the number of
iterations; `Lemmas/Base58.lean` proves that the fuel used by `b58encode` is never exhausted when the
alphabet has at least two characters (with fewer, the Python loop does not terminate or divides by
zero). -/
def encodeLoop (alphabet : Str) : (fuel : Nat) → (val : Nat) → (enc : Str) → Nat × Str
  | 0, val, enc => (val, enc)
  | fuel + 1, val, enc =>
    if alphabet.length ≤ val then
      encodeLoop alphabet fuel (val / alphabet.length)
        (alphabet.getD (val % alphabet.length) '?' :: enc)
    else (val, enc)

/-- `len(data) - len(data.lstrip(b"\0"))` (`bip38/libs/base58.py:38`). -/
def leadingZeros (data : Bytes) : Nat := data.length - (data.dropWhile (· == 0)).length

/-- `bip38/libs/base58.py:29-39` `encode`. -/
def b58encode (data : Bytes) (alphabet : Str := bitcoinAlphabet) : Str :=
  let val0 := stringToInt data
  let (val, enc) := encodeLoop alphabet (val0.log2 + 1) val0 []
  let enc := if val ≠ 0 then alphabet.getD val '?' :: enc else enc
  List.replicate (leadingZeros data) (alphabet.getD 0 '?') ++ enc

/-- `bytes(data, "ascii")` (`bip38/libs/base58.py:49`). -/
def asciiBytes (data : Str) : Py Bytes :=
  if data.all (fun c => c.toNat < 128) then .ok (data.map fun c => UInt8.ofNat c.toNat)
  else raise .unicodeEncodeError "'ascii' codec can't encode character"

/-- `hay.find(c)`: index of the first occurrence of the byte, or `-1`. -/
def bytesFind (hay : Bytes) (c : UInt8) : Int :=
  match hay.findIdx? (· == c) with
  | some i => i
  | none => -1

/-- One iteration of `bip38/libs/base58.py:53-56`: note that a byte outside the alphabet contributes `-1`. -/
def decodeStep (alphabet : Str) (st : Int × Nat) (c : UInt8) : Int × Nat :=
  let val := st.1 * alphabet.length + bytesFind (utf8 alphabet) c
  (val, if val = 0 then st.2 + 1 else st.2)

/-- `bip38/libs/base58.py:58-61`: the `while val > 0` loop; produces the little-endian bytes. -/
def decodeLoop : (fuel : Nat) → (val : Nat) → Bytes
  | 0, _ => []
  | fuel + 1, val => if 0 < val then UInt8.ofNat (val % 256) :: decodeLoop fuel (val / 256) else []

/-- `bip38/libs/base58.py:47-65` `decode`.  A negative `val` makes the loop stop at once, hence `toNat`. -/
def b58decode (data : Str) (alphabet : Str := bitcoinAlphabet) : Py Bytes := do
  let data ← asciiBytes data
  let (val, zeros) := data.foldl (decodeStep alphabet) ((0 : Int), 0)
  let dec := decodeLoop (val.toNat.log2 + 1) val.toNat
  .ok (dec ++ List.replicate zeros 0).reverse

/-- `bip38/libs/base58.py:42-44` `check_encode`. -/
def checkEncode (sha256 : Bytes → Bytes) (raw : Bytes) (alphabet : Str := bitcoinAlphabet) : Str :=
  let chk := (sha256 (sha256 raw)).take 4
  b58encode (raw ++ chk) alphabet

/-- `bip38/libs/base58.py:68-74` `check_decode`. -/
def checkDecode (sha256 : Bytes → Bytes) (enc : Str) (alphabet : Str := bitcoinAlphabet) : Py Bytes := do
  let dec ← b58decode enc alphabet
  let raw := dropLastN 4 dec
  let chk := lastN 4 dec
  if chk ≠ (sha256 (sha256 raw)).take 4 then
    raise .valueError "base58 decoding checksum error"
  else .ok raw

end Bip38
