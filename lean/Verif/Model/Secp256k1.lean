import Verif.Model.Const
/-!
# Model of `bip38/secp256k1/*.py` and of the part of the `ecdsa` package it uses

`ecdsa` (>= 0.18) is not in the repository; its functions are modelled from their documented behaviour.
Simplification: `PointJacobi` keeps projective coordinates and multiplies with a NAF / precomputed table; the
model uses affine coordinates and double-and-add, which give the same affine `x()`, `y()`.
-/
namespace Bip38

/-- Field prime of secp256k1 (`ecdsa.ecdsa.curve_secp256k1.p()`). -/
def fieldP : Nat := 0xFFFFFFFFFFFFFFFFFFFFFFFFFFFFFFFFFFFFFFFFFFFFFFFFFFFFFFFEFFFFFC2F

/-- Loop of `powMod`. -/
def powModAux (m : Nat) : (fuel : Nat) → (b e acc : Nat) → Nat
  | 0, _, _, acc => acc
  | fuel + 1, b, e, acc =>
    if e = 0 then acc
    else powModAux m fuel (b * b % m) (e / 2) (if e % 2 = 1 then acc * b % m else acc)

/-- Python's `pow(b, e, m)`. -/
def powMod (b e m : Nat) : Nat := powModAux m (e.log2 + 1) (b % m) e (1 % m)

/-- `numbertheory.inverse_mod(a, p)` for the field prime (modelled by Fermat's little theorem). -/
def invMod (a : Nat) : Nat := powMod a (fieldP - 2) fieldP

/-- A point of the `ecdsa` package: `INFINITY` or affine coordinates. -/
inductive Pt
  | inf
  | aff (x y : Nat)
  deriving DecidableEq, Repr

/-- `curve_secp256k1.contains_point(x, y)` (curve `y² = x³ + 7`). -/
def onCurve (x y : Nat) : Bool := (y * y) % fieldP = (x * x * x + 7) % fieldP

/-- Affine coordinates of the sum of two affine points joined by a line of slope `l`. -/
def chord (l x1 y1 x2 : Nat) : Pt :=
  let x3 := (l * l + (fieldP - x1) + (fieldP - x2)) % fieldP
  .aff x3 ((l * (x1 + (fieldP - x3)) + (fieldP - y1)) % fieldP)

/-- Point addition (`PointJacobi.__add__`, `PointJacobi.double`), for reduced coordinates. -/
def Pt.add : Pt → Pt → Pt
  | .inf, q => q
  | p, .inf => p
  | .aff x1 y1, .aff x2 y2 =>
    if x1 = x2 then
      if (y1 + y2) % fieldP = 0 then .inf
      else chord (3 * x1 * x1 * invMod (2 * y1 % fieldP) % fieldP) x1 y1 x2
    else chord ((y2 + (fieldP - y1)) * invMod ((x2 + (fieldP - x1)) % fieldP) % fieldP) x1 y1 x2

/-- Loop of `Pt.mul`: adds `e` times `b` to `acc`. -/
def Pt.mulAux : (fuel : Nat) → (b : Pt) → (e : Nat) → (acc : Pt) → Pt
  | 0, _, _, acc => acc
  | fuel + 1, b, e, acc =>
    if e = 0 then acc
    else Pt.mulAux fuel (b.add b) (e / 2) (if e % 2 = 1 then acc.add b else acc)

/-- Scalar multiplication (`PointJacobi.__mul__`). -/
def Pt.mul (p : Pt) (k : Nat) : Pt := Pt.mulAux (k.log2 + 1) p k .inf

/-- `ecdsa.ecdsa.generator_secp256k1` -/
def genX : Nat := 0x79BE667EF9DCBBAC55A06295CE870B07029BFCDB2DCE28D959F2815B16F81798
/-- `ecdsa.ecdsa.generator_secp256k1` -/
def genY : Nat := 0x483ADA7726A3C4655DA4FBFC0E1108A8FD17B448A68554199C47D08FFB10D4B8
/-- `ecdsa.ecdsa.generator_secp256k1` (`bip38/secp256k1/__init__.py:17`). -/
def gen : Pt := .aff genX genY

/-- `numbertheory.square_root_mod_prime(a, p)` for `p % 4 = 3`: `pow(a, (p + 1) // 4, p)` when `a` is a square,
otherwise `SquareRootError` (`none`).  The package tests squareness with the Jacobi symbol, the model by
squaring the candidate. -/
def sqrtMod (a : Nat) : Option Nat :=
  let r := powMod a ((fieldP + 1) / 4) fieldP
  if r * r % fieldP = a % fieldP then some r else none

/-- `ecdsa.ellipticcurve.AbstractPoint.from_bytes`: coordinates of an encoded point (raw 64 bytes, uncompressed or
hybrid 65 bytes, compressed 33 bytes), or `MalformedPointError` (`none`).  No curve membership test is done for
raw, uncompressed and hybrid encodings. -/
def decodePoint (data : Bytes) : Option (Nat × Nat) :=
  let raw (d : Bytes) : Nat × Nat := (fromBE (d.take 32), fromBE (d.drop 32))
  if data.length = 64 then some (raw data)
  else if data.length = 65 then
    match data with
    | 4 :: rest => some (raw rest)
    | 6 :: rest => if (raw rest).2 % 2 = 0 then some (raw rest) else none
    | 7 :: rest => if (raw rest).2 % 2 = 1 then some (raw rest) else none
    | _ => none
  else if data.length = 33 then
    match data with
    | c :: rest =>
      if c = 2 ∨ c = 3 then
        let x := fromBE rest
        match sqrtMod ((x * x * x + 7) % fieldP) with
        | none => none
        | some beta =>
          -- `if is_even == bool(beta & 1): y = p - beta else: y = beta`
          if (c = 2) ↔ (beta % 2 = 1) then some (x, fieldP - beta) else some (x, beta)
      else none
    | [] => none
  else none

/-- `bip38/secp256k1/public_key.py:21-33` `PublicKey`: wraps a `VerifyingKey`, i.e. an affine point. -/
structure PublicKey where
  x : Nat
  y : Nat
  deriving DecidableEq, Repr

/-- `ecdsa.ecdsa.Public_key.__init__` with `verify=True`: coordinates in range and on the curve. -/
def validXY (x y : Nat) : Bool := x < fieldP && y < fieldP && onCurve x y

/-- `bip38/secp256k1/public_key.py:35-54` `PublicKey.from_bytes`. -/
def PublicKey.fromBytes (b : Bytes) : Py PublicKey :=
  match decodePoint b with
  | some (x, y) =>
    if validXY x y then .ok ⟨x, y⟩ else raise .secp256k1Error "Invalid public key bytes"
  | none => raise .secp256k1Error "Invalid public key bytes"

/-- `bip38/secp256k1/public_key.py:56-78` `PublicKey.from_point`.  `ellipticcurve.Point(curve, x, y)` asserts that the
point is on the curve (`AssertionError`); for `INFINITY` the coordinates are `None` and the curve equation
raises `TypeError`. -/
def PublicKey.fromPoint (p : Pt) : Py PublicKey :=
  match p with
  | .inf => raise .typeError "unsupported operand type(s) for *: 'NoneType' and 'NoneType'"
  | .aff x y =>
    if onCurve x y then
      if x < fieldP ∧ y < fieldP then .ok ⟨x, y⟩ else raise .secp256k1Error "Invalid public key point"
    else raise .assertionError ""

/-- `bip38/secp256k1/public_key.py:122-130` `raw_compressed` (`VerifyingKey.to_string("compressed")`). -/
def PublicKey.rawCompressed (k : PublicKey) : Bytes := (if k.y % 2 = 1 then 3 else 2) :: toBE 32 k.x

/-- `bip38/secp256k1/public_key.py:132-140` `raw_uncompressed` (`VerifyingKey.to_string("uncompressed")`). -/
def PublicKey.rawUncompressed (k : PublicKey) : Bytes := 4 :: (toBE 32 k.x ++ toBE 32 k.y)

/-- `bip38/secp256k1/public_key.py:112-120` `raw`. -/
def PublicKey.raw (k : PublicKey) (publicKeyType : String) : Bytes :=
  if publicKeyType = "compressed" then k.rawCompressed else k.rawUncompressed

/-- `bip38/secp256k1/public_key.py:142-150` `point`. -/
def PublicKey.point (k : PublicKey) : Pt := .aff k.x k.y

/-- `bip38/secp256k1/private_key.py:18-30` `PrivateKey`: wraps a `SigningKey`, which stores the secret exponent and the
verifying key computed at construction. -/
structure PrivateKey where
  secexp : Nat
  verifying : PublicKey
  deriving DecidableEq, Repr

/-- `bip38/secp256k1/private_key.py:32-51` `PrivateKey.from_bytes` (`SigningKey.from_string`, then
`from_secret_exponent`: length 32 and `1 <= secexp < order`, else `MalformedPointError`). -/
def PrivateKey.fromBytes (b : Bytes) : Py PrivateKey :=
  if b.length ≠ PRIVATE_KEY_LENGTH then raise .secp256k1Error "Invalid private key bytes"
  else if 1 ≤ fromBE b ∧ fromBE b < N then
    match gen.mul (fromBE b) with
    | .aff x y => .ok ⟨fromBE b, ⟨x, y⟩⟩
    | .inf => raise .typeError "'<=' not supported between instances of 'int' and 'NoneType'"
  else raise .secp256k1Error "Invalid private key bytes"

/-- `bip38/secp256k1/private_key.py:74-82` `raw` (`number_to_string(secexp, order)`: always 32 bytes). -/
def PrivateKey.raw (k : PrivateKey) : Bytes := toBE 32 k.secexp

/-- `bip38/secp256k1/private_key.py:84-92` `public_key`. -/
def PrivateKey.publicKey (k : PrivateKey) : PublicKey := k.verifying

/-! ### `bip38/secp256k1/point.py` -/

/-- `bip38/secp256k1/point.py:34-58` `Point.from_bytes`.  The `AttributeError` fallback (old `ecdsa`) is not modelled.
No curve membership test happens for raw and uncompressed encodings. -/
def Point.fromBytes (b : Bytes) : Py Pt :=
  match decodePoint b with
  | some (x, y) => .ok (.aff x y)
  | none => raise .secp256k1Error "Invalid point key bytes"

/-- `bip38/secp256k1/point.py:60-78` `Point.from_coordinates` (`ellipticcurve.Point` asserts curve membership modulo `p`; the
coordinates are kept as given).  Negative coordinates are not modelled. -/
def Point.fromCoordinates (x y : Nat) : Py Pt :=
  if onCurve x y then .ok (.aff x y) else raise .assertionError ""

/-- `bip38/secp256k1/point.py:120-134` `raw_encoded` (`to_bytes("compressed")`). -/
def Point.rawEncoded (x y : Nat) : Bytes := (if y % 2 = 1 then 3 else 2) :: toBE 32 x

/-- `bip38/secp256k1/point.py:136-153` `raw_decoded` and `:110-118` `raw` (`to_bytes()`, the 64-byte raw encoding). -/
def Point.rawDecoded (x y : Nat) : Bytes := toBE 32 x ++ toBE 32 y

end Bip38
