import Verif.Model.Secp256k1
/-!
# Model of the rest of `bip38/secp256k1/point.py`: arithmetic, coordinates, and the branches for old `ecdsa` releases

The class `Point` only wraps an `ecdsa` point; the model identifies the two.
-/
namespace Bip38

/-- `-p` (`ecdsa` `PointJacobi.__neg__`), for reduced coordinates. -/
def Pt.neg : Pt → Pt
  | .inf => .inf
  | .aff x y => .aff x ((fieldP - y) % fieldP)

/-- `p * k` for any Python integer `k` (`ecdsa` `PointJacobi.__mul__`; its signed-digit loop also accepts a negative factor, which
multiplies the opposite point). -/
def Pt.zmul (p : Pt) (k : Int) : Pt := if k < 0 then p.neg.mul k.natAbs else p.mul k.natAbs

/-- `bip38/secp256k1/point.py:155-166` `Point.__add__`. -/
def Point.add (p q : Pt) : Pt := p.add q

/-- `bip38/secp256k1/point.py:168-179` `Point.__radd__`: `self + point`. -/
def Point.radd (p q : Pt) : Pt := Point.add p q

/-- `bip38/secp256k1/point.py:181-192` `Point.__mul__`. -/
def Point.mul (p : Pt) (scalar : Int) : Pt := p.zmul scalar

/-- `bip38/secp256k1/point.py:194-205` `Point.__rmul__`: `self * scalar`. -/
def Point.rmul (p : Pt) (scalar : Int) : Pt := Point.mul p scalar

/-- `bip38/secp256k1/point.py:90-98` `Point.x` (`None` for the point at infinity). -/
def Point.x : Pt → Option Nat
  | .inf => none
  | .aff x _ => some x

/-- `bip38/secp256k1/point.py:100-108` `Point.y` (`None` for the point at infinity). -/
def Point.y : Pt → Option Nat
  | .inf => none
  | .aff _ y => some y

/-- `bip38/secp256k1/point.py:54-58`: `Point.from_bytes` when `PointJacobi` has no `from_bytes` (`ecdsa` before 0.14). -/
def Point.fromBytesOld (b : Bytes) : Py Pt :=
  Point.fromCoordinates (bytesToInteger (b.take COORDINATE_POINT_LENGTH)).toNat
    (bytesToInteger (b.drop COORDINATE_POINT_LENGTH)).toNat

/-- `bip38/secp256k1/point.py:130-134`: `raw_encoded` when the point has no `to_bytes`. -/
def Point.rawEncodedOld (x y : Nat) : Py Bytes := do
  let xb ← integerToBytes x (some COORDINATE_POINT_LENGTH)
  .ok (if y &&& 1 ≠ 0 then 3 :: xb else 2 :: xb)

/-- `bip38/secp256k1/point.py:146-153`: `raw_decoded` when the point has no `to_bytes`. -/
def Point.rawDecodedOld (x y : Nat) : Py Bytes := do
  let xb ← integerToBytes x (some COORDINATE_POINT_LENGTH)
  let yb ← integerToBytes y (some COORDINATE_POINT_LENGTH)
  .ok (xb ++ yb)

/-- `bip38/secp256k1/__init__.py:17` `Secp256k1.ORDER` (`generator_secp256k1.order()`). -/
def secp256k1Order : Nat := N

/-- `bip38/secp256k1/public_key.py:80-88` `PublicKey.compressed_length`. -/
def PublicKey.compressedLength : Nat := COMPRESSED_PUBLIC_KEY_LENGTH
/-- `bip38/secp256k1/public_key.py:90-98` `PublicKey.uncompressed_length`. -/
def PublicKey.uncompressedLength : Nat := UNCOMPRESSED_PUBLIC_KEY_LENGTH
/-- `bip38/secp256k1/private_key.py:53-61` `PrivateKey.length`. -/
def PrivateKey.length : Nat := PRIVATE_KEY_LENGTH

end Bip38
