import Verif.Std.Prims
import Verif.Model.Utils
/-!
# Primitives for published test vectors

SHA-256, AES-256 and RIPEMD-160 are computed (`Std`); the values of `scrypt.hash` which the vectors need are tabulated, because
N = 16384 is out of reach of the kernel. The entries were computed outside Lean with `hashlib.scrypt`; elsewhere the
function is constant.
-/
namespace Bip38.Std

/-- Bytes given in hexadecimal. -/
def ofHex (s : String) : Bytes := match getBytes (.str s.toList) with | .ok b => b | .error _ => []

/-- Arguments of `scrypt.hash`. -/
structure ScryptCall where
  password : Bytes
  salt : Bytes
  N : Nat
  r : Nat
  p : Nat
  buflen : Nat
  deriving DecidableEq

/-- Values of scrypt. -/
def scryptTable : List (ScryptCall × Bytes) := [
  (⟨utf8 "TestingOneTwoThree".toList, ofHex "e957a24a", 16384, 8, 8, 64⟩,
    ofHex "f87648a6b42fdd86ef6837a249cde15318f264d43a859b610e78ea63d51cb2d3e60bf44bfb29d543bba24afcccfadbfc6ef9312fcccf589fa5ea1366ec21e4c0"),
  (⟨utf8 "TestingOneTwoThree".toList, ofHex "cdaf559a", 16384, 8, 8, 64⟩,
    ofHex "082c1c743bd0ba20c2e0499060b3256a6f6b0c1f7028a6608cbbe477b5043d4c0e7b3e711e1324e2022127bc344d4b0c0d58b0bc4a85f13e4aafc20471a5148f"),
  (⟨utf8 "MOLON LABE".toList, ofHex "d7ebe42c", 16384, 8, 8, 32⟩,
    ofHex "1db02b57be783336f9036310dc2f70c5efb871054666d7684593becdc544cdcd"),
  (⟨ofHex "023098aad0c38d062d4dd9d332acd9839a05f241373b9d6efc466a1796d9e3657a", ofHex "f74f4e35d7ebe42c186a0001", 1024, 1, 1, 64⟩,
    ofHex "236615bce854b747612136b385e7d33868dd1f9a2e0007a2fb04f9ccc17eae0e5c0f5205092cbc05f775f1f68598d9f488f66c2e46e8077d4447fd29db99adbb")]

/-- The primitives: real functions, tabulated scrypt. -/
def vectorPrims : Prims :=
  { prims id with
    scrypt := fun password salt N r p buflen =>
      match scryptTable.lookup ⟨password, salt, N, r, p, buflen⟩ with
      | some b => b
      | none => List.replicate buflen 0 }

end Bip38.Std
