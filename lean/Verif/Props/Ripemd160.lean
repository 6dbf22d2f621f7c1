import Verif.Lemmas.Ripemd160
import Verif.Lemmas.Utils
import Verif.Model.Crypto
import Verif.Spec.Crypto
import Verif.Spec.Hex
/-!
# Property C38: the bundled RIPEMD-160
-/
namespace Bip38.Props
open Bip38 Spec

/-- C38: the bundled RIPEMD-160, which computes with unbounded integers (also negative ones), returns for every byte string the value
of the standard algorithm on 32-bit words. -/
theorem C38_ripemd160 (m : Bytes) : Ripemd.ripemd160 m = Spec.Ripemd160.ripemd160 m := Ripemd.ripemd160_eq m

/-- C38: 20 bytes, always. -/
theorem C38_length (m : Bytes) : (Ripemd.ripemd160 m).length = 20 := by
  rw [C38_ripemd160]
  simp [Spec.Ripemd160.ripemd160, Spec.Ripemd160.wordBytes, Spec.Ripemd160.littleEndian]

/-- C38: the padded message consists of whole blocks, and the padding is the shortest one. -/
theorem C38_padding (m : Bytes) : 64 ∣ (Spec.Ripemd160.padded m).length ∧
    ∀ k, 64 ∣ m.length + 1 + k + 8 → Spec.Ripemd160.padZeros m.length ≤ k := by
  constructor
  · simp only [Spec.Ripemd160.padded, Spec.Ripemd160.littleEndian, Spec.Ripemd160.padZeros, List.length_append, List.length_singleton,
      List.length_replicate, List.length_map, List.length_range]
    omega
  · intro k hk
    unfold Spec.Ripemd160.padZeros
    omega

/-- C38: without the RIPEMD-160 of `hashlib`, the `ripemd160` of the library is the standard function. -/
theorem C38_fallback (P : Prims) (h : P.hashlibRipemd160 = none) (m : Bytes) : ripemd160 P (.bytes m) = .ok (Spec.Ripemd160.ripemd160 m) := by
  unfold ripemd160
  rw [h]
  simp only [getBytes_bytes, bind, Except.bind, C38_ripemd160]

/-- The specification gives the published values: of the empty message, of `abc`, and of a message of two blocks. -/
example : Spec.Ripemd160.ripemd160 [] = [0x9c, 0x11, 0x85, 0xa5, 0xc5, 0xe9, 0xfc, 0x54, 0x61, 0x28, 0x08, 0x97, 0x7e, 0xe8, 0xf5, 0x48,
      0xb2, 0x25, 0x8d, 0x31]
    ∧ Spec.Ripemd160.ripemd160 (utf8 "abc".toList) = [0x8e, 0xb2, 0x08, 0xf7, 0xe0, 0x5d, 0x98, 0x7a, 0x9b, 0x04, 0x4a, 0x8e, 0x98, 0xc6,
      0xb0, 0x87, 0xf1, 0x5a, 0x0b, 0xfc]
    ∧ Spec.Ripemd160.ripemd160 (utf8 "abcdbcdecdefdefgefghfghighijhijkijkljklmklmnlmnomnopnopq".toList) = [0x12, 0xa0, 0x53, 0x38, 0x4a,
      0x9c, 0x0c, 0x88, 0xe4, 0x05, 0xa0, 0x6c, 0x27, 0xdc, 0xf4, 0x9a, 0xda, 0x62, 0xeb, 0x2b] := by
  decide +kernel

end Bip38.Props
