import Verif.Src.Sem
/-!
# Built-in functions and external packages, as called by the text of the repository

The external functions are those of `Prims`, and of the part of the package `ecdsa` modelled in `Model/Secp256k1.lean`.  Calls with
arguments of other kinds have no meaning (`Run.stuck`).
-/
namespace Bip38.Src

/-! ### Functions -/

/-- `len` -/
def pyLen : Fn
  | [.bytes b], [] => pure (.int b.length)
  | [.bytearray b], [] => pure (.int b.length)
  | [.str s], [] => pure (.int s.length)
  | [.list l], [] => pure (.int l.length)
  | [.tuple l], [] => pure (.int l.length)
  | [.none], [] => .raise .typeError "object of type 'NoneType' has no len()"
  | _, _ => .stuck

/-- `isinstance(v, t)`, `t` a type or a tuple of types. -/
def pyIsinstance : Fn
  | [v, .type t], [] => pure (.bool (typeOf v = t))
  | [v, .tuple ts], [] => pure (.bool (ts.any fun | .type t => typeOf v = t | _ => false))
  | _, _ => .stuck

/-- `issubclass(c, ICryptocurrency)` -/
def pyIssubclass : Fn
  | [.coin (.coin _), .coin .base], [] => pure (.bool true)
  | [.coin .base, .coin .base], [] => pure (.bool true)
  | [.coin .otherClass, .coin .base], [] => pure (.bool false)
  | [.coin .notAClass, .coin .base], [] => .raise .typeError "issubclass() arg 1 must be a class"
  | _, _ => .stuck

/-- `type(v)` -/
def pyType : Fn
  | [v], [] => pure (.type (typeOf v))
  | _, _ => .stuck

/-- `int(v)` -/
def pyInt (H : Host) : Fn
  | [.int n], [] => pure (.int n)
  | [.bool b], [] => pure (.int (if b then 1 else 0))
  | [.str s], [] => do pure (.int (← Run.ofPy (H.parseInt s)))
  | _, _ => .stuck

/-- `list(v)` -/
def pyList : Fn
  | [v], [] => do pure (.list (← iterate v))
  | _, _ => .stuck

/-- `range(n)` -/
def pyRange : Fn
  | [.int n], [] => pure (.list ((List.range n.toNat).map fun i : Nat => Val.int i))
  | _, _ => .stuck

/-- `enumerate(v)` -/
def pyEnumerate : Fn
  | [v], [] => do pure (.list ((← iterate v).zipIdx.map fun p => .tuple [.int p.2, p.1]))
  | _, _ => .stuck

/-- `divmod(a, b)` -/
def pyDivmod : Fn
  | [.int a, .int b], [] =>
    if b = 0 then .raise (.other "ZeroDivisionError") "integer division or modulo by zero"
    else pure (.tuple [.int (a.fdiv b), .int (a.fmod b)])
  | _, _ => .stuck

/-- `bytes(..)` -/
def pyBytes : Fn
  | [.bytes b], [] => pure (.bytes b)
  | [.bytearray b], [] => pure (.bytes b)
  | [v, .str codec], [] => match v with
    | .str s =>
      if codec = "utf-8".toList then pure (.bytes (utf8 s))
      else if codec = "ascii".toList then do pure (.bytes (← Run.ofPy (asciiBytes s)))
      else .stuck
    | _ => .raise .typeError "encoding without a string argument"
  | _, _ => .stuck

/-- `bytearray(..)` -/
def pyBytearray : Fn
  | [], [] => pure (.bytearray [])
  | [.bytes b], [] => pure (.bytearray b)
  | [.bytearray b], [] => pure (.bytearray b)
  | [.int n], [] => if 0 ≤ n then pure (.bytearray (List.replicate n.toNat 0)) else .raise .valueError "negative count"
  | [.str _], [] => .raise .typeError "string argument without an encoding"
  | _, _ => .stuck

/-- `bytes.fromhex(v)` -/
def pyFromhex : Fn
  | [v], [] => match v with
    | .str s => match fromHex s with
      | some b => pure (.bytes b)
      | Option.none => .raise .valueError "non-hexadecimal number found in fromhex() arg"
    | _ => .raise .typeError "fromhex() argument must be str"
  | _, _ => .stuck

/-- A byte order argument. -/
def endianOf (s : Str) : Run Endian :=
  if s = "big".toList then pure .big else if s = "little".toList then pure .little
  else .raise .valueError "byteorder must be either 'little' or 'big'"

/-- `int.from_bytes(data, byteorder=.., signed=..)` -/
def pyFromBytes : Fn := fun args kw =>
  match args, getField kw v!"byteorder", getField kw v!"signed" with
  | [.bytes b], some (.str e), some signed => do pure (.int (bytesToInteger b (← endianOf e) (truthy signed)))
  | _, _, _ => .stuck

/-- The constructor of an exception class of Python. -/
def pyException (c : ExcClass) : Fn
  | [.str s], [] => pure (.obj (.exc c) [(v!"message", .str s)])
  | _, _ => .stuck

/-! ### Methods.  The receiver is not an instance of a class of the repository. -/

/-- A method that is not a method of the built-in and external classes used. -/
def noMethod : Val → Fn := fun _ _ _ => .stuck

/-- `.hex()` -/
def mHex : Val → Fn
  | .bytes b, [], [] => pure (.str (hex b))
  | .bytearray b, [], [] => pure (.str (hex b))
  | _, _, _ => .stuck

/-- `.bit_length()` -/
def mBitLength : Val → Fn
  | .int n, [], [] => pure (.int (bitLength n.natAbs))
  | _, _, _ => .stuck

/-- `.to_bytes(..)` of an integer, and of a point of `ecdsa`. -/
def mToBytes (H : Host) : Val → Fn
  | .int n, [.int k], kw => match getField kw v!"byteorder", getField kw v!"signed" with
    | some (.str e), some signed => do
      let e ← endianOf e
      if k < 0 then .raise .valueError "length argument must be non-negative"
      else pure (.bytes (← Run.ofPy (intToBytes n k.toNat e (truthy signed))))
    | _, _ => .stuck
  | .jacobi (.aff x y), args, [] =>
    if H.oldEcdsa then .raise .attributeError "'Point' object has no attribute 'to_bytes'"
    else match args with
      | [] => pure (.bytes (Point.rawDecoded x y))
      | [.str t] => if t = "compressed".toList then pure (.bytes (Point.rawEncoded x y)) else .stuck
      | _ => .stuck
  | _, _, _ => .stuck

/-- `.decode("utf-8")` -/
def mDecode : Val → Fn
  | .bytes b, [.str t], [] =>
    if t = "utf-8".toList then
      match utf8Decode b with
      | some s => pure (.str s)
      | Option.none => .raise .valueError "'utf-8' codec can't decode"
    else .stuck
  | _, _, _ => .stuck

/-- `.encode("utf-8")` -/
def mEncode : Val → Fn
  | .str s, [.str t], [] => if t = "utf-8".toList then pure (.bytes (utf8 s)) else .stuck
  | _, _, _ => .stuck

/-- `.find(byte)` -/
def mFind : Val → Fn
  | .bytes b, [.int n], [] =>
    if 0 ≤ n ∧ n < 256 then pure (.int (bytesFind b (UInt8.ofNat n.toNat))) else .raise .valueError "byte must be in range(0, 256)"
  | _, _, _ => .stuck

/-- `.lstrip(chars)` -/
def mLstrip : Val → Fn
  | .bytes b, [.bytes chars], [] => pure (.bytes (b.dropWhile (· ∈ chars)))
  | .none, _, _ => .raise .attributeError "'NoneType' object has no attribute 'lstrip'"
  | _, _, _ => .stuck

/-- `.startswith(prefix)` -/
def mStartswith : Val → Fn
  | .bytes b, [.bytes p], [] => pure (.bool (p.isPrefixOf b))
  | _, _, _ => .stuck

/-- `.keys()` -/
def mKeys : Val → Fn
  | .dict l, [], [] => pure (.list (l.map fun p => .str p.1))
  | _, _, _ => .stuck

/-- `sep.join(list of bytes)` -/
def mJoin : Val → Fn
  | .bytes sep, [.list l], [] => do
    let rec go : List Val → Run (List Bytes)
      | [] => pure []
      | .bytes b :: rest => do pure (b :: (← go rest))
      | _ :: _ => .stuck
    pure (.bytes (sep.intercalate (← go l)))
  | _, _, _ => .stuck

/-- `.append(x)` of a `bytearray`: the new value. -/
def uAppend : Val → List Val → Run Val
  | .bytearray b, [.int n] =>
    if 0 ≤ n ∧ n < 256 then pure (.bytearray (b ++ [UInt8.ofNat n.toNat])) else .raise .valueError "byte must be in range(0, 256)"
  | _, _ => .stuck

/-- `.extend(x)` of a `bytearray`: the new value. -/
def uExtend : Val → List Val → Run Val
  | .bytearray b, [.bytearray c] => pure (.bytearray (b ++ c))
  | _, _ => .stuck

/-- `.reverse()` of a `bytearray`: the new value. -/
def uReverse : Val → List Val → Run Val
  | .bytearray b, [] => pure (.bytearray b.reverse)
  | _, _ => .stuck

/-! ### `hashlib`, `struct`, `scrypt`, `unicodedata`, `os`, `pyaes` -/

/-- `hashlib.sha256(b)` -/
def xSha256 (H : Host) : Fn
  | [.bytes b], [] => pure (.hash (H.P.sha256 b))
  | _, _ => .stuck

/-- `hashlib.algorithms_available`, as far as the repository asks. -/
def xAlgorithms (H : Host) : Run Val :=
  pure (.list (match H.P.hashlibRipemd160 with | some _ => [.str "ripemd160".toList] | Option.none => []))

/-- `hashlib.new(name, b)` -/
def xHashNew (H : Host) : Fn
  | [.str name, .bytes b], [] =>
    if name = "ripemd160".toList then
      match H.P.hashlibRipemd160 with
      | some f => pure (.hash (f b))
      | Option.none => .raise .valueError "unsupported hash type ripemd160"
    else .stuck
  | _, _ => .stuck

/-- `.digest()` -/
def mDigest : Val → Fn
  | .hash d, [], [] => pure (.bytes d)
  | _, _, _ => .stuck

/-- `struct.unpack("<L", b)` -/
def xUnpack : Fn
  | [.str f, .bytes b], [] =>
    if f = "<L".toList ∧ b.length = 4 then pure (.tuple [.int (fromBE b.reverse)]) else .stuck
  | _, _ => .stuck

/-- `struct.pack("<L", n)`, `struct.pack("<Q", n)` -/
def xPack : Fn
  | [.str f, .int n], [] =>
    if f = "<L".toList then (if 0 ≤ n ∧ n < 2 ^ 32 then pure (.bytes (toLE 4 n.toNat)) else .stuck)
    else if f = "<Q".toList then (if 0 ≤ n ∧ n < 2 ^ 64 then pure (.bytes (toLE 8 n.toNat)) else .stuck)
    else .stuck
  | _, _ => .stuck

/-- `scrypt.hash(password, salt, N, r, p, buflen)` (a text is encoded as UTF-8, `buflen` defaults to 64). -/
def xScrypt (H : Host) : Fn := fun args kw =>
  let pw : Val → Option Bytes
    | .str s => some (utf8 s)
    | .bytes b => some b
    | _ => Option.none
  match args, kw with
  | [v, .bytes salt, .int n, .int r, .int p], [] => match pw v with
    | some b => pure (.bytes (H.P.scrypt b salt n.toNat r.toNat p.toNat 64))
    | Option.none => .stuck
  | [v, .bytes salt, .int n, .int r, .int p, .int len], [] => match pw v with
    | some b => pure (.bytes (H.P.scrypt b salt n.toNat r.toNat p.toNat len.toNat))
    | Option.none => .stuck
  | _, _ => .stuck

/-- `unicodedata.normalize(form, v)` -/
def xNormalize (H : Host) : Fn
  | [.str form, v], [] =>
    if form = "NFC".toList then
      match v with
      | .str s => pure (.str (H.P.nfc s))
      | _ => .raise .typeError "normalize() argument 2 must be str"
    else .stuck
  | _, _ => .stuck

/-- `os.urandom(n)` -/
def xUrandom (H : Host) : Fn
  | [.int n], [] => if 0 ≤ n then pure (.bytes (H.urandom n.toNat)) else .stuck
  | _, _ => .stuck

/-- `pyaes.AESModeOfOperationECB(key)` -/
def xAes : Fn
  | [.bytes k], [] => do pure (.aes (← Run.ofPy (AES.new k)))
  | _, _ => .stuck

/-- `.encrypt(block)` -/
def mEncrypt (H : Host) : Val → Fn
  | .aes a, [.bytes b], [] => do pure (.bytes (← Run.ofPy (a.encrypt H.P b)))
  | _, _, _ => .stuck

/-- `.decrypt(block)` -/
def mDecrypt (H : Host) : Val → Fn
  | .aes a, [.bytes b], [] => do pure (.bytes (← Run.ofPy (a.decrypt H.P b)))
  | _, _, _ => .stuck

/-! ### `ecdsa` (see `Model/Secp256k1.lean`) -/

/-- `ecdsa.keys.MalformedPointError` -/
def malformedPoint {α : Type} : Run α := .raise (.other "MalformedPointError") "malformed point"

/-- `PointJacobi.from_bytes(curve, b)` -/
def xPointFromBytes (H : Host) : Fn
  | [.curve, .bytes b], [] =>
    if H.oldEcdsa then .raise .attributeError "type object 'PointJacobi' has no attribute 'from_bytes'"
    else match decodePoint b with
      | some (x, y) => pure (.jacobi (.aff x y))
      | Option.none => malformedPoint
  | _, _ => .stuck

/-- `ellipticcurve.Point(curve, x, y)`: asserts that the point is on the curve; the coordinates of `INFINITY` are `None`, for which the
equation raises `TypeError`.  Negative coordinates have no meaning here. -/
def xPoint : Fn
  | [.curve, .int x, .int y], [] =>
    if 0 ≤ x ∧ 0 ≤ y then
      if onCurve x.toNat y.toNat then pure (.affine x.toNat y.toNat) else .raise .assertionError ""
    else .stuck
  | [.curve, .none, .none], [] => .raise .typeError "unsupported operand type(s) for *: 'NoneType' and 'NoneType'"
  | _, _ => .stuck

/-- `PointJacobi.from_affine(p)` -/
def xFromAffine : Fn
  | [.affine x y], [] => pure (.jacobi (.aff x y))
  | _, _ => .stuck

/-- `.x()` -/
def mX : Val → Fn
  | .jacobi p, [], [] => pure (match p with | .inf => .none | .aff x _ => .int x)
  | _, _, _ => .stuck

/-- `.y()` -/
def mY : Val → Fn
  | .jacobi p, [], [] => pure (match p with | .inf => .none | .aff _ y => .int y)
  | _, _, _ => .stuck

/-- `VerifyingKey.from_string(b, curve=SECP256k1)` -/
def xVerifyingFromString : Fn := fun args kw =>
  match args, getField kw v!"curve" with
  | [.bytes b], some .curve => match decodePoint b with
    | some (x, y) => if validXY x y then pure (.verifyingKey ⟨x, y⟩) else malformedPoint
    | Option.none => malformedPoint
  | _, _ => .stuck

/-- `VerifyingKey.from_public_point(p, curve=SECP256k1)`: the coordinates must be in range. -/
def xVerifyingFromPoint : Fn := fun args kw =>
  match args, getField kw v!"curve" with
  | [.affine x y], some .curve => if x < fieldP ∧ y < fieldP then pure (.verifyingKey ⟨x, y⟩) else malformedPoint
  | _, _ => .stuck

/-- `SigningKey.from_string(b, curve=SECP256k1)`: 32 bytes, secret exponent from 1 to the order; computes the verifying key. -/
def xSigningFromString : Fn := fun args kw =>
  match args, getField kw v!"curve" with
  | [.bytes b], some .curve =>
    if b.length ≠ 32 then malformedPoint
    else if 1 ≤ fromBE b ∧ fromBE b < N then
      match gen.mul (fromBE b) with
      | .aff x y => pure (.signingKey ⟨fromBE b, ⟨x, y⟩⟩)
      | .inf => .raise .typeError "'<=' not supported between instances of 'int' and 'NoneType'"
    else malformedPoint
  | _, _ => .stuck

/-- `.to_string(..)` of keys -/
def mToString : Val → Fn
  | .signingKey k, [], [] => pure (.bytes k.raw)
  | .verifyingKey k, [.str t], [] =>
    if t = "compressed".toList then pure (.bytes k.rawCompressed)
    else if t = "uncompressed".toList then pure (.bytes k.rawUncompressed)
    else .stuck
  | _, _, _ => .stuck

/-- `.get_verifying_key()` -/
def mGetVerifyingKey : Val → Fn
  | .signingKey k, [], [] => pure (.verifyingKey k.verifying)
  | _, _, _ => .stuck

end Bip38.Src
