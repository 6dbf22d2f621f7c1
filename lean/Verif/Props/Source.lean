import Verif.Spec.Source
import Verif.Spec.Toy
import Verif.Src.EqP2pkh
import Verif.Props.Encoding
import Verif.Props.Ripemd160
import Verif.Props.Wif
import Verif.Props.Address
import Verif.Props.Ec
import Verif.Props.PointOps
/-!
# Properties C81 to C85: the text of the helper modules

`utils_get_bytes`, `base58_encode`, ... are the functions of the repository as written (`Src/*.lean`, generated from the text by
`tools/gen_src.py`); `f H args kw` is the call of `f` with positional arguments `args` and keyword arguments `kw`.
-/
namespace Bip38.Props
open Bip38 Spec Src

variable (H : Host)

/-- A host for the examples: toy primitives, no random bytes. -/
def toyHost : Host := ⟨toy 7 9, fun n => List.replicate n 5, fun _ => .ok 0, false⟩

/-! ### C81 `bip38/utils.py`, `bip38/crypto.py`, `bip38/exceptions.py` -/

/-- C81: `get_bytes`, on text, bytes, `None` and other objects, with and without `unhexlify`. -/
theorem C81_get_bytes (d : Data) (u : Bool) :
    EndsAs (utils_get_bytes H [ofData d] [(v!"unhexlify", .bool u)]) (getBytes d u) .bytes
      ∧ EndsAs (utils_get_bytes H [ofData d] []) (getBytes d) .bytes :=
  ⟨endsAs (get_bytes_eq H d u), endsAs (get_bytes_r H d)⟩

/-- C81: hexadecimal text is read, and other text refused, by the text of `get_bytes`. -/
theorem C81_get_bytes_text (s : Str) : (∀ b, Returns (utils_get_bytes H [.str s] []) (.bytes b) ↔ HexText s b) ∧
    ((¬ ∃ b, HexText s b) → ∃ m, Raises (utils_get_bytes H [.str s] []) .valueError m) := by
  have h := (C81_get_bytes H (.str s) true).2
  refine ⟨fun b => ⟨fun hr => ?_, fun hx => h.1 b ((C06_get_bytes_iff s b).mpr hx)⟩, fun hn => ?_⟩
  · obtain ⟨a, ha, hb⟩ := h.returned hr
    injection hb with hb
    exact (C06_get_bytes_iff s b).mp (hb ▸ ha)
  · obtain ⟨e, he, hc⟩ := C06_get_bytes_error s hn
    exact ⟨e.msg, hc ▸ h.2 e he⟩

/-- C81: `bytes_reverse`. -/
theorem C81_bytes_reverse (b : Bytes) : Returns (utils_bytes_reverse H [.bytes b] []) (.bytes b.reverse) := rfl

/-- C81: `bytes_to_string`. -/
theorem C81_bytes_to_string (d : Data) : EndsAs (utils_bytes_to_string H [ofData d] []) (bytesToString d) .str :=
  endsAs (bytes_to_string_eq H d)

/-- C81: `bytes_to_string` and `get_bytes` on the text: hexadecimal text and back. -/
theorem C81_hex_roundtrip (b : Bytes) : ∃ s, s = (b.flatMap fun c =>
      ["0123456789abcdef".toList.getD (c.toNat / 16) '?', "0123456789abcdef".toList.getD (c.toNat % 16) '?'])
    ∧ Returns (utils_bytes_to_string H [.bytes b] []) (.str s) ∧ Returns (utils_get_bytes H [.str s] []) (.bytes b) := by
  obtain ⟨s, h1, _, h3, _⟩ := C06_roundtrip b
  have h2 := C06_hex_text b
  rw [h1] at h2
  injection h2 with h2
  exact ⟨s, h2, (C81_bytes_to_string H (.bytes b)).1 s h1, (C81_get_bytes H (.str s) true).2.1 b h3⟩

/-- C81: `bytes_to_integer`. -/
theorem C81_bytes_to_integer (b : Bytes) (e : Endian) (signed : Bool) :
    Returns (utils_bytes_to_integer H [.bytes b, ofEndian e, .bool signed] []) (.int (bytesToInteger b e signed))
      ∧ Returns (utils_bytes_to_integer H [.bytes b] []) (.int (be b)) :=
  ⟨bytes_to_integer_eq H b e signed, by rw [Returns, bytes_to_integer_default, (C05_value b).1]; rfl⟩

/-- C81: `integer_to_bytes`. -/
theorem C81_integer_to_bytes (n : Int) (k : Option Int) (e : Endian) (signed : Bool) :
    EndsAs (utils_integer_to_bytes H [.int n, ofOptInt k, ofEndian e, .bool signed] []) (integerToBytes n k e signed) .bytes
      ∧ EndsAs (utils_integer_to_bytes H [.int n] []) (integerToBytes n) .bytes :=
  ⟨endsAs (integer_to_bytes_eq H n k e signed), endsAs (integer_to_bytes_default H n)⟩

/-- C81: integers and bytes on the text: with a byte count, exactly the numbers that fit are written, and read back. -/
theorem C81_integer_roundtrip (n : Int) (k : Nat) (hk : 0 < k) (e : Endian) (signed : Bool) :
    (Fits signed k n → ∃ b, Returns (utils_integer_to_bytes H [.int n, .int k, ofEndian e, .bool signed] []) (.bytes b) ∧ b.length = k
        ∧ Returns (utils_bytes_to_integer H [.bytes b, ofEndian e, .bool signed] []) (.int n)) ∧
    (¬ Fits signed k n → ∃ m, Raises (utils_integer_to_bytes H [.int n, .int k, ofEndian e, .bool signed] []) .overflowError m) := by
  have h := (C81_integer_to_bytes H n (some k) e signed).1
  obtain ⟨h1, h2⟩ := C05_with_length n k hk e signed
  constructor
  · intro hf
    obtain ⟨b, hb, hl, hr⟩ := h1 hf
    exact ⟨b, h.1 b hb, hl, hr ▸ (C81_bytes_to_integer H b e signed).1⟩
  · intro hf
    obtain ⟨x, hx, hc⟩ := h2 hf
    exact ⟨x.msg, hc ▸ h.2 x hx⟩

/-- C81: the hash functions of `bip38/crypto.py`. -/
theorem C81_crypto (hP : H.P.Lawful) (d : Data) :
    EndsAs (crypto_sha256 H [ofData d] []) (Bip38.sha256 H.P d) .bytes
      ∧ EndsAs (crypto_double_sha256 H [ofData d] []) (doubleSha256 H.P d) .bytes
      ∧ EndsAs (crypto_hash160 H [ofData d] []) (Bip38.hash160 H.P d) .bytes
      ∧ EndsAs (crypto_get_checksum H [ofData d] []) (getChecksum H.P d) .bytes
      ∧ ((∀ b, getBytes d = .ok b → b.length < 2 ^ 61) → EndsAs (crypto_ripemd160 H [ofData d] []) (Bip38.ripemd160 H.P d) .bytes) :=
  ⟨endsAs (crypto_sha256_eq H d), endsAs (crypto_double_sha256_eq H d), endsAs (crypto_hash160_eq H hP d), endsAs (crypto_get_checksum_eq H d),
    fun h => endsAs (crypto_ripemd160_eq H d h)⟩

/-- C81: the same on bytes: what the functions compute. -/
theorem C81_crypto_bytes (hP : H.P.Lawful) (b : Bytes) :
    Returns (crypto_sha256 H [.bytes b] []) (.bytes (H.P.sha256 b))
      ∧ Returns (crypto_double_sha256 H [.bytes b] []) (.bytes (H.P.sha256 (H.P.sha256 b)))
      ∧ Returns (crypto_hash160 H [.bytes b] []) (.bytes (h160 H.P b))
      ∧ Returns (crypto_get_checksum H [.bytes b] []) (.bytes (checksum H.P b)) := by
  obtain ⟨h1, h2, h3, h4, _⟩ := C81_crypto H hP (.bytes b)
  refine ⟨h1.1 _ ?_, h2.1 _ ?_, h3.1 _ ?_, h4.1 _ ?_⟩
  · exact sha256_bytes b
  · exact doubleSha256_bytes b
  · exact Bip38.hash160_bytes b
  · exact getChecksum_bytes b

/-- C81: the text of an exception of the library: `raise Error(message, detail, expected, got)`, for each of its classes, raises that class
with the text described by C39.  `expected` may be nothing, a list of objects or one object, with the texts `ex`. -/
theorem C81_error_text (c : ExcClass) (hc : c.isBip38Error = true) (m : Str) (d : Option Str) {x : Val} {ex : Expected}
    (hx : ExpectedVal x ex) {g : Val} {gt : Str} (hg : format g = pure gt) :
    (Error_init H c [.str m, ofOptStr d, x, g] [] >>= raiseVal (Error_str H))
      = Run.raise c (String.ofList (ErrorObj.init m d ex gt).str) := raise_error H c hc m d hx hg

example : Returns (utils_get_bytes toyHost [.str "00ff".toList] []) (.bytes [0, 255]) ∧
    Returns (utils_integer_to_bytes toyHost [.int 255, .int 4, .str "big".toList, .bool false] []) (.bytes [0, 0, 0, 255]) ∧
    Returns (crypto_get_checksum toyHost [.bytes [1]] []) (.bytes [7, 7, 7, 7]) := ⟨rfl, rfl, rfl⟩
example : Raises (Error_init toyHost .wifError [.str "Wrong".toList] [(v!"expected", .list [.str "a".toList, .str "b".toList]), (v!"got", .int 3)]
    >>= fun a => raiseVal (Error_str toyHost) a >>= fun _ => pure .none) .wifError "Wrong, (expected: 'a', 'b' | got: '3')" := by rfl

end Bip38.Props
