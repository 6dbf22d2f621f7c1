import Verif.Py
/-! # Byte strings without leading zeros -/
namespace Bip38

/-- The byte string without its leading zero bytes, one zero byte being kept when there is nothing else: the shape in
which `integer_to_bytes(n)` without byte count returns a number. -/
def strip (b : Bytes) : Bytes := if b.dropWhile (· == 0) = [] then [0] else b.dropWhile (· == 0)

end Bip38

namespace Bip38.Spec

/-- Big-endian value of a byte string. -/
def be : Bytes → Nat
  | [] => 0
  | c :: t => c.toNat * 256 ^ t.length + be t

/-- A number in base 256, most significant byte first, with as few bytes as possible (0 is one zero byte). -/
def prefixBytes (n : Nat) : Bytes :=
  if n < 256 then [UInt8.ofNat n] else prefixBytes (n / 256) ++ [UInt8.ofNat (n % 256)]
decreasing_by omega

end Bip38.Spec
