import Verif.Model.Secp256k1
import Verif.Spec.Bytes
import Mathlib.Data.Nat.ModEq
/-! # Specification of secp256k1: field, curve equation, SEC1 encodings, repeated addition -/
namespace Bip38.Spec

/-- The field prime, as written in SEC 2. -/
def p256k1 : Nat := 2 ^ 256 - 2 ^ 32 - 977

/-- The group order, as written in SEC 2. -/
def n256k1 : Nat := 0xFFFFFFFFFFFFFFFFFFFFFFFFFFFFFFFEBAAEDCE6AF48A03BBFD25E8CD0364141

/-- Affine points of secp256k1: reduced coordinates with `y² ≡ x³ + 7`. -/
structure OnSecp256k1 (x y : Nat) : Prop where
  hx : x < p256k1
  hy : y < p256k1
  eqn : y ^ 2 ≡ x ^ 3 + 7 [MOD p256k1]

/-- `Denotes b x y`: the byte string `b` is one of the encodings of the affine point `(x, y)` which the `ecdsa` package reads:
compressed, uncompressed, hybrid, or the two coordinates without header. -/
inductive Denotes : Bytes → Nat → Nat → Prop
  | compressed {X : Bytes} {x y : Nat} : X.length = 32 → be X = x →
      Denotes ((if y % 2 = 0 then 2 else 3) :: X) x y
  | uncompressed {X Y : Bytes} {x y : Nat} : X.length = 32 → Y.length = 32 → be X = x → be Y = y →
      Denotes (4 :: (X ++ Y)) x y
  | hybrid {X Y : Bytes} {x y : Nat} : X.length = 32 → Y.length = 32 → be X = x → be Y = y →
      Denotes ((if y % 2 = 0 then 6 else 7) :: (X ++ Y)) x y
  | raw {X Y : Bytes} {x y : Nat} : X.length = 32 → Y.length = 32 → be X = x → be Y = y →
      Denotes (X ++ Y) x y

/-- `k` times a point, by repeated addition. -/
def times (k : Nat) (p : Pt) : Pt :=
  match k with
  | 0 => .inf
  | k + 1 => (times k p).add p

/-- Infinity, or a point of the curve. -/
def IsPoint : Pt → Prop
  | .inf => True
  | .aff x y => OnSecp256k1 x y

end Bip38.Spec
