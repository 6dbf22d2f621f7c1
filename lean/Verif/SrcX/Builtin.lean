import Verif.SrcX.Sem
/-!
# Built-in functions, and external functions as events

The results are those of `Verif/Src/Builtin.lean`.
-/
namespace Bip38.SrcX

open Bip38.Src

/-- A built-in function of Python. -/
def pure1 (f : Src.Fn) : Fn := fun args kw => lift (f args kw)

/-- A method of a built-in class of Python. -/
def pureMethod (m : Val → Src.Fn) : Val → Fn := fun v args kw => lift (m v args kw)

/-- An external function. -/
def external (k : Kind) (f : Src.Fn) : Fn := fun args kw => ask ⟨k, args, kw⟩ (f args kw)

/-- A method of an external class: `mine` tells the instances of that class from the values of Python. -/
def externalMethod (k : Kind) (mine : Val → Bool) (m : Val → Src.Fn) : Val → Fn := fun v args kw =>
  if mine v then ask ⟨k, v :: args, kw⟩ (m v args kw) else lift (m v args kw)

/-- Objects of `ecdsa`. -/
def ofEcdsa : Val → Bool
  | .jacobi _ | .affine _ _ | .verifyingKey _ | .pubkey _ | .signingKey _ => true
  | _ => false

/-- Objects of `hashlib`. -/
def ofHashlib : Val → Bool
  | .hash _ => true
  | _ => false

/-- Objects of `pyaes`. -/
def ofPyaes : Val → Bool
  | .aes _ => true
  | _ => false

/-- `len` -/
def pyLen : Fn := pure1 Src.pyLen
/-- `isinstance` -/
def pyIsinstance : Fn := pure1 Src.pyIsinstance
/-- `issubclass` -/
def pyIssubclass : Fn := pure1 Src.pyIssubclass
/-- `type` -/
def pyType : Fn := pure1 Src.pyType
/-- `int` -/
def pyInt (H : Host) : Fn := pure1 (Src.pyInt H)
/-- `list` -/
def pyList : Fn := pure1 Src.pyList
/-- `range` -/
def pyRange : Fn := pure1 Src.pyRange
/-- `enumerate` -/
def pyEnumerate : Fn := pure1 Src.pyEnumerate
/-- `divmod` -/
def pyDivmod : Fn := pure1 Src.pyDivmod
/-- `bytes` -/
def pyBytes : Fn := pure1 Src.pyBytes
/-- `bytearray` -/
def pyBytearray : Fn := pure1 Src.pyBytearray
/-- `bytes.fromhex` -/
def pyFromhex : Fn := pure1 Src.pyFromhex
/-- `int.from_bytes` -/
def pyFromBytes : Fn := pure1 Src.pyFromBytes
/-- The constructor of an exception class of Python. -/
def pyException (c : ExcClass) : Fn := pure1 (Src.pyException c)
/-- `struct.unpack` -/
def xUnpack : Fn := pure1 Src.xUnpack
/-- `struct.pack` -/
def xPack : Fn := pure1 Src.xPack

/-- A method that is not a method of the built-in and external classes used. -/
def noMethod : Val → Fn := pureMethod Src.noMethod
/-- `.hex()` -/
def mHex : Val → Fn := pureMethod Src.mHex
/-- `.bit_length()` -/
def mBitLength : Val → Fn := pureMethod Src.mBitLength
/-- `.decode("utf-8")` -/
def mDecode : Val → Fn := pureMethod Src.mDecode
/-- `.encode("utf-8")` -/
def mEncode : Val → Fn := pureMethod Src.mEncode
/-- `.find(byte)` -/
def mFind : Val → Fn := pureMethod Src.mFind
/-- `.lstrip(chars)` -/
def mLstrip : Val → Fn := pureMethod Src.mLstrip
/-- `.startswith(prefix)` -/
def mStartswith : Val → Fn := pureMethod Src.mStartswith
/-- `.keys()` -/
def mKeys : Val → Fn := pureMethod Src.mKeys
/-- `sep.join(list of bytes)` -/
def mJoin : Val → Fn := pureMethod Src.mJoin

/-- `hashlib.sha256(b)` -/
def xSha256 (H : Host) : Fn := external .sha256 (Src.xSha256 H)
/-- `hashlib.algorithms_available` -/
def xAlgorithms (H : Host) : Run Val := lift (Src.xAlgorithms H)
/-- `hashlib.new(name, b)` -/
def xHashNew (H : Host) : Fn := external .hashNew (Src.xHashNew H)
/-- `.digest()` -/
def mDigest : Val → Fn := externalMethod .digest ofHashlib Src.mDigest
/-- `scrypt.hash(..)` -/
def xScrypt (H : Host) : Fn := external .scrypt (Src.xScrypt H)
/-- `unicodedata.normalize(form, v)` -/
def xNormalize (H : Host) : Fn := external .normalize (Src.xNormalize H)
/-- `os.urandom(n)` -/
def xUrandom (H : Host) : Fn := external .urandom (Src.xUrandom H)
/-- `pyaes.AESModeOfOperationECB(key)` -/
def xAes : Fn := external .aes Src.xAes
/-- `.encrypt(block)` -/
def mEncrypt (H : Host) : Val → Fn := externalMethod .aesEncrypt ofPyaes (Src.mEncrypt H)
/-- `.decrypt(block)` -/
def mDecrypt (H : Host) : Val → Fn := externalMethod .aesDecrypt ofPyaes (Src.mDecrypt H)
/-- `PointJacobi.from_bytes(curve, b)` -/
def xPointFromBytes (H : Host) : Fn := external .ecdsa (Src.xPointFromBytes H)
/-- `ellipticcurve.Point(curve, x, y)` -/
def xPoint : Fn := external .ecdsa Src.xPoint
/-- `PointJacobi.from_affine(p)` -/
def xFromAffine : Fn := external .ecdsa Src.xFromAffine
/-- `.x()` -/
def mX : Val → Fn := externalMethod .ecdsa ofEcdsa Src.mX
/-- `.y()` -/
def mY : Val → Fn := externalMethod .ecdsa ofEcdsa Src.mY
/-- `.to_bytes(..)` of an integer, and of a point of `ecdsa` -/
def mToBytes (H : Host) : Val → Fn := externalMethod .ecdsa ofEcdsa (Src.mToBytes H)
/-- `VerifyingKey.from_string(b, curve=SECP256k1)` -/
def xVerifyingFromString : Fn := external .ecdsa Src.xVerifyingFromString
/-- `VerifyingKey.from_public_point(p, curve=SECP256k1)` -/
def xVerifyingFromPoint : Fn := external .ecdsa Src.xVerifyingFromPoint
/-- `SigningKey.from_string(b, curve=SECP256k1)` -/
def xSigningFromString : Fn := external .ecdsa Src.xSigningFromString
/-- `.to_string(..)` of keys -/
def mToString : Val → Fn := externalMethod .ecdsa ofEcdsa Src.mToString
/-- `.get_verifying_key()` -/
def mGetVerifyingKey : Val → Fn := externalMethod .ecdsa ofEcdsa Src.mGetVerifyingKey

end Bip38.SrcX
