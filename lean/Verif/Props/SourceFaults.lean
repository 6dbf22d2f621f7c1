import Verif.SrcX.SimBip38
import Verif.Spec.Toy
/-!
# Properties C92 to C94: external functions that raise, how often they are called and with what, on the text of the repository
-/
namespace Bip38.Props
open Bip38 Spec Src SrcX

variable (H : Host)

/-- These exceptions are not passed on; any external call is allowed. -/
def except_ (caught : Call → Exc → Prop) : Ctx := ⟨fun c e => ¬ caught c e, fun _ => True, fun _ _ => trivial⟩

/-- Nothing is said of exceptions; these calls with fixed arguments are allowed. -/
def using_ (l : List Use) : Ctx := ⟨fun _ _ => False, fun c => c.kind.fixed = true → ∃ u ∈ l, u.Fits c, fun c h h' => by
  rw [h] at h'
  cases h'⟩

theorem passesOn {caught : Call → Exc → Prop} {n : Kind → Nat} {x : SrcX.Fn} {y : Src.Fn} (h : SimF n (except_ caught) x y) :
    PassesOn caught x y := fun args kw => (h args kw).follows

theorem atMost {l : List (Kind × Nat)} {x : SrcX.Fn} {y : Src.Fn} (h : SimF (calls l) (except_ fun _ _ => True) x y) : AtMost l x :=
  fun args kw => (h args kw).bounded

theorem uses {l : List Use} {n : Kind → Nat} {x : SrcX.Fn} {y : Src.Fn} (h : SimF n (using_ l) x y) : Uses l x :=
  fun args kw => (h args kw).only

theorem allowsAll {caught : Call → Exc → Prop} {l : List Use} : Allows (except_ caught) l := fun _ _ _ _ => trivial

theorem allowsThese {l : List Use} : Allows (using_ l) l := fun u hu _ hc _ => ⟨u, hu, hc⟩

theorem fineKey : Fine (except_ CaughtKey) := fun _ _ h hk => ⟨fun h' => h ⟨hk, .inl h'⟩, fun h' => h ⟨hk, .inr h'⟩⟩

theorem fineCreate : Fine (except_ CaughtCreate) := fun c e h => fineKey c e fun h' => h (.inl h')

theorem fineConfirm : Fine (except_ CaughtConfirm) := fun c e h => fineCreate c e fun h' => h (.inl h')

theorem hashCreate : FineHash (except_ CaughtCreate) := fun _ _ h hk => Bool.eq_false_iff.mpr fun h' => h (.inr ⟨hk, h'⟩)

theorem hashConfirm : FineHash (except_ CaughtConfirm) := fun c e h => hashCreate c e fun h' => h (.inl h')

theorem keyConfirm : FineKey (except_ CaughtConfirm) := fun _ _ h h' => h (.inr h')

/-- A context in which no exception is passed on. -/
class Silent (K : Ctx) : Prop where
  none : ∀ c e, ¬ K.passed c e

instance : Silent (except_ fun _ _ => True) := ⟨fun _ _ h => h trivial⟩

instance (l : List Use) : Silent (using_ l) := ⟨fun _ _ h => h⟩

theorem fineNone {K : Ctx} [Silent K] : Fine K := fun c e h => (Silent.none c e h).elim

theorem hashNone {K : Ctx} [Silent K] : FineHash K := fun c e h => (Silent.none c e h).elim

theorem keyNone {K : Ctx} [Silent K] : FineKey K := fun c e h => (Silent.none c e h).elim

/-! ### C92: the first external call that raises -/

/-- C92: the functions of `utils.py`. -/
theorem C92_utils :
    PassesOn Uncaught (SrcX.utils_get_bytes H) (Src.utils_get_bytes H) ∧
    PassesOn Uncaught (SrcX.utils_bytes_reverse H) (Src.utils_bytes_reverse H) ∧
    PassesOn Uncaught (SrcX.utils_bytes_to_string H) (Src.utils_bytes_to_string H) ∧
    PassesOn Uncaught (SrcX.utils_bytes_to_integer H) (Src.utils_bytes_to_integer H) ∧
    PassesOn Uncaught (SrcX.utils_integer_to_bytes H) (Src.utils_integer_to_bytes H) :=
  ⟨passesOn (sim_utils_get_bytes _), passesOn (sim_utils_bytes_reverse _), passesOn (sim_utils_bytes_to_string _), passesOn (sim_utils_bytes_to_integer _), passesOn (sim_utils_integer_to_bytes _)⟩

/-- C92: the functions of `libs/base58.py`. -/
theorem C92_base58 :
    PassesOn Uncaught (SrcX.base58_string_to_int H) (Src.base58_string_to_int H) ∧
    PassesOn Uncaught (SrcX.base58_ensure_string H) (Src.base58_ensure_string H) ∧
    PassesOn Uncaught (SrcX.base58_encode H) (Src.base58_encode H) ∧
    PassesOn Uncaught (SrcX.base58_check_encode H) (Src.base58_check_encode H) ∧
    PassesOn Uncaught (SrcX.base58_decode H) (Src.base58_decode H) ∧
    PassesOn Uncaught (SrcX.base58_check_decode H) (Src.base58_check_decode H) :=
  ⟨passesOn (sim_base58_string_to_int _), passesOn (sim_base58_ensure_string _), passesOn (sim_base58_encode _), passesOn (sim_base58_check_encode _), passesOn (sim_base58_decode _), passesOn (sim_base58_check_decode _)⟩

/-- C92: the functions of `crypto.py` and `libs/ripemd160.py`. -/
theorem C92_crypto :
    PassesOn Uncaught (SrcX.ripemd160_fi H) (Src.ripemd160_fi H) ∧
    PassesOn Uncaught (SrcX.ripemd160_rol H) (Src.ripemd160_rol H) ∧
    PassesOn Uncaught (SrcX.ripemd160_compress H) (Src.ripemd160_compress H) ∧
    PassesOn Uncaught (SrcX.ripemd160_ripemd160 H) (Src.ripemd160_ripemd160 H) ∧
    PassesOn Uncaught (SrcX.crypto_ripemd160 H) (Src.crypto_ripemd160 H) ∧
    PassesOn Uncaught (SrcX.crypto_sha256 H) (Src.crypto_sha256 H) ∧
    PassesOn Uncaught (SrcX.crypto_double_sha256 H) (Src.crypto_double_sha256 H) ∧
    PassesOn Uncaught (SrcX.crypto_get_checksum H) (Src.crypto_get_checksum H) ∧
    PassesOn Uncaught (SrcX.crypto_hash160 H) (Src.crypto_hash160 H) :=
  ⟨passesOn (sim_ripemd160_fi _), passesOn (sim_ripemd160_rol _), passesOn (sim_ripemd160_compress _), passesOn (sim_ripemd160_ripemd160 _), passesOn (sim_crypto_ripemd160 _ allowsAll), passesOn (sim_crypto_sha256 _), passesOn (sim_crypto_double_sha256 _), passesOn (sim_crypto_get_checksum _), passesOn (sim_crypto_hash160 _ allowsAll)⟩

/-- C92: points. -/
theorem C92_points :
    PassesOn Uncaught (SrcX.Point_init H) (Src.Point_init H) ∧
    PassesOn Uncaught (SrcX.Point_from_coordinates H) (Src.Point_from_coordinates H) ∧
    PassesOn CaughtKey (SrcX.Point_from_bytes H) (Src.Point_from_bytes H) ∧
    PassesOn Uncaught (SrcX.Point_underlying_object H) (Src.Point_underlying_object H) ∧
    PassesOn Uncaught (SrcX.Point_x H) (Src.Point_x H) ∧
    PassesOn Uncaught (SrcX.Point_y H) (Src.Point_y H) ∧
    PassesOn CaughtKey (SrcX.Point_raw_encoded H) (Src.Point_raw_encoded H) ∧
    PassesOn CaughtKey (SrcX.Point_raw_decoded H) (Src.Point_raw_decoded H) ∧
    PassesOn CaughtKey (SrcX.Point_raw H) (Src.Point_raw H) ∧
    PassesOn Uncaught (SrcX.Point_add H) (Src.Point_add H) ∧
    PassesOn Uncaught (SrcX.Point_radd H) (Src.Point_radd H) ∧
    PassesOn Uncaught (SrcX.Point_mul H) (Src.Point_mul H) ∧
    PassesOn Uncaught (SrcX.Point_rmul H) (Src.Point_rmul H) :=
  ⟨passesOn (sim_Point_init _), passesOn (sim_Point_from_coordinates _), passesOn (sim_Point_from_bytes _ fineKey), passesOn (sim_Point_underlying_object _), passesOn (sim_Point_x _), passesOn (sim_Point_y _), passesOn (sim_Point_raw_encoded _ fineKey), passesOn (sim_Point_raw_decoded _ fineKey), passesOn (sim_Point_raw _ fineKey), passesOn (sim_Point_add _), passesOn (sim_Point_radd _), passesOn (sim_Point_mul _), passesOn (sim_Point_rmul _)⟩

/-- C92: keys. -/
theorem C92_keys :
    PassesOn Uncaught (SrcX.PublicKey_init H) (Src.PublicKey_init H) ∧
    PassesOn CaughtKey (SrcX.PublicKey_from_bytes H) (Src.PublicKey_from_bytes H) ∧
    PassesOn CaughtKey (SrcX.PublicKey_from_point H) (Src.PublicKey_from_point H) ∧
    PassesOn Uncaught (SrcX.PublicKey_compressed_length H) (Src.PublicKey_compressed_length H) ∧
    PassesOn Uncaught (SrcX.PublicKey_uncompressed_length H) (Src.PublicKey_uncompressed_length H) ∧
    PassesOn Uncaught (SrcX.PublicKey_underlying_object H) (Src.PublicKey_underlying_object H) ∧
    PassesOn Uncaught (SrcX.PublicKey_raw_compressed H) (Src.PublicKey_raw_compressed H) ∧
    PassesOn Uncaught (SrcX.PublicKey_raw_uncompressed H) (Src.PublicKey_raw_uncompressed H) ∧
    PassesOn Uncaught (SrcX.PublicKey_raw H) (Src.PublicKey_raw H) ∧
    PassesOn Uncaught (SrcX.PublicKey_point H) (Src.PublicKey_point H) ∧
    PassesOn Uncaught (SrcX.PrivateKey_init H) (Src.PrivateKey_init H) ∧
    PassesOn CaughtKey (SrcX.PrivateKey_from_bytes H) (Src.PrivateKey_from_bytes H) ∧
    PassesOn Uncaught (SrcX.PrivateKey_length H) (Src.PrivateKey_length H) ∧
    PassesOn Uncaught (SrcX.PrivateKey_underlying_object H) (Src.PrivateKey_underlying_object H) ∧
    PassesOn Uncaught (SrcX.PrivateKey_raw H) (Src.PrivateKey_raw H) ∧
    PassesOn Uncaught (SrcX.PrivateKey_public_key H) (Src.PrivateKey_public_key H) :=
  ⟨passesOn (sim_PublicKey_init _), passesOn (sim_PublicKey_from_bytes _ fineKey), passesOn (sim_PublicKey_from_point _ fineKey), passesOn (sim_PublicKey_compressed_length _), passesOn (sim_PublicKey_uncompressed_length _), passesOn (sim_PublicKey_underlying_object _), passesOn (sim_PublicKey_raw_compressed _), passesOn (sim_PublicKey_raw_uncompressed _), passesOn (sim_PublicKey_raw _), passesOn (sim_PublicKey_point _), passesOn (sim_PrivateKey_init _), passesOn (sim_PrivateKey_from_bytes _ fineKey), passesOn (sim_PrivateKey_length _), passesOn (sim_PrivateKey_underlying_object _), passesOn (sim_PrivateKey_raw _), passesOn (sim_PrivateKey_public_key _)⟩

/-- C92: the functions on WIFs. -/
theorem C92_wif :
    PassesOn Uncaught (SrcX.wif_encode_wif H) (Src.wif_encode_wif H) ∧
    PassesOn Uncaught (SrcX.wif_decode_wif H) (Src.wif_decode_wif H) ∧
    PassesOn Uncaught (SrcX.wif_private_key_to_wif H) (Src.wif_private_key_to_wif H) ∧
    PassesOn Uncaught (SrcX.wif_wif_to_private_key H) (Src.wif_wif_to_private_key H) ∧
    PassesOn Uncaught (SrcX.wif_get_wif_type H) (Src.wif_get_wif_type H) ∧
    PassesOn Uncaught (SrcX.wif_get_wif_checksum H) (Src.wif_get_wif_checksum H) :=
  ⟨passesOn (sim_wif_encode_wif _), passesOn (sim_wif_decode_wif _), passesOn (sim_wif_private_key_to_wif _), passesOn (sim_wif_wif_to_private_key _), passesOn (sim_wif_get_wif_type _), passesOn (sim_wif_get_wif_checksum _)⟩

/-- C92: addresses. -/
theorem C92_addresses :
    PassesOn CaughtKey (SrcX.P2PKHAddress_encode H) (Src.P2PKHAddress_encode H) ∧
    PassesOn Uncaught (SrcX.P2PKHAddress_decode H) (Src.P2PKHAddress_decode H) :=
  ⟨passesOn (sim_P2PKHAddress_encode _ fineKey allowsAll), passesOn (sim_P2PKHAddress_decode _)⟩

/-- C92: the class `BIP38`. -/
theorem C92_bip38 :
    PassesOn Uncaught (SrcX.BIP38_init H) (Src.BIP38_init H) ∧
    PassesOn CaughtKey (SrcX.BIP38_intermediate_code H) (Src.BIP38_intermediate_code H) ∧
    PassesOn CaughtKey (SrcX.BIP38_encrypt H) (Src.BIP38_encrypt H) ∧
    PassesOn CaughtCreate (SrcX.BIP38_create_new_encrypted_wif H) (Src.BIP38_create_new_encrypted_wif H) ∧
    PassesOn CaughtConfirm (SrcX.BIP38_confirm_code H) (Src.BIP38_confirm_code H) ∧
    PassesOn CaughtKey (SrcX.BIP38_decrypt H) (Src.BIP38_decrypt H) :=
  ⟨passesOn (sim_BIP38_init _), passesOn (sim_BIP38_intermediate_code _ fineKey allowsAll), passesOn (sim_BIP38_encrypt _ fineKey allowsAll), passesOn (sim_BIP38_create_new_encrypted_wif _ fineCreate allowsAll hashCreate), passesOn (sim_BIP38_confirm_code _ fineConfirm allowsAll hashConfirm keyConfirm), passesOn (sim_BIP38_decrypt _ fineKey allowsAll)⟩

/-- C92: where no external call raises, the outcome is that of the text without faults. -/
theorem C92_no_fault {caught : Call → Exc → Prop} {x : SrcX.Fn} {y : Src.Fn} (h : PassesOn caught x y) (args : List Val) (kw : List (Name × Val)) :
    ∃ done, x args kw (fun _ _ => none) [] = SrcX.lift (y args kw) (fun _ _ => none) done := by
  rcases h args kw (fun _ _ => none) [] with ⟨done, _, h⟩ | ⟨_, _, _, _, h, _⟩
  · exact ⟨[] ++ done, h⟩
  · cases h

/-- C92: whatever raises, as long as it is not caught: a value that is returned is the value returned without faults, and no call made has raised. -/
theorem C92_value {caught : Call → Exc → Prop} {x : SrcX.Fn} {y : Src.Fn} (h : PassesOn caught x y) (args : List Val) (kw : List (Name × Val))
    (F : Faults) (hF : ∀ i c e, F i c = some e → ¬ caught c e) (v : Val) (done : List Call) (hx : x args kw F [] = some (.ok v, done)) :
    y args kw = pure v ∧ Quiet F 0 done := by
  rcases h args kw F [] with ⟨d, hq, h⟩ | ⟨d, c, e, _, hf, h, _⟩
  · rw [hx] at h
    rcases hy : y args kw with _ | r
    · rw [hy] at h
      cases h
    · rw [hy] at h
      cases h
      exact ⟨rfl, hq⟩
  · rw [h (hF _ c e hf)] at hx
    cases hx

/-- C92: an exception that the text without faults does not raise is that of an external call, the last one made. -/
theorem C92_exception {caught : Call → Exc → Prop} {x : SrcX.Fn} {y : Src.Fn} (h : PassesOn caught x y) (args : List Val) (kw : List (Name × Val))
    (F : Faults) (hF : ∀ i c e, F i c = some e → ¬ caught c e) (e : Exc) (done : List Call) (hx : x args kw F [] = some (.error e, done)) :
    y args kw = some (.error e) ∨ ∃ before c, done = before ++ [c] ∧ Quiet F 0 before ∧ F before.length c = some e := by
  rcases h args kw F [] with ⟨d, hq, h⟩ | ⟨d, c, e', hq, hf, h, _⟩
  · rw [hx] at h
    rcases hy : y args kw with _ | r
    · rw [hy] at h
      cases h
    · rw [hy] at h
      cases h
      exact .inl rfl
  · rw [h (hF _ c e' hf)] at hx
    cases hx
    refine .inr ⟨d, c, rfl, hq, ?_⟩
    simpa using hf

/-- A fault: `hashlib.sha256` runs out of memory. -/
example : SrcX.crypto_sha256 H [.bytes [1]] [] (fun _ _ => some ⟨.other "MemoryError", ""⟩) []
    = some (.error ⟨.other "MemoryError", ""⟩, [⟨.sha256, [.bytes [1]], []⟩]) := rfl

/-- A fault: the operating system has no random bytes. -/
example : SrcX.BIP38_intermediate_code H [.str "pass".toList] [] (fun _ _ => some ⟨.other "OSError", "no random"⟩) []
    = some (.error ⟨.other "OSError", "no random"⟩, [⟨.urandom, [.int 8], []⟩]) := rfl

/-- A fault that is caught, and hidden: an `AttributeError` of `ecdsa` sends `Point.from_bytes` to the code for older versions of `ecdsa`. -/
example : ∃ r c d, SrcX.Point_from_bytes H [.bytes (2 :: List.replicate 32 1)] [] (fun i _ => if i = 0 then some ⟨.attributeError, "fault"⟩ else none) []
    = some (r, c :: d) ∧ c.kind = .ecdsa ∧ r ≠ .error ⟨.attributeError, "fault"⟩ := by
  refine ⟨_, _, _, rfl, rfl, ?_⟩
  intro h
  cases h

/-! ### C93: which external functions, and at most how often -/

/-- C93: the functions of `utils.py`. -/
theorem C93_utils :
    AtMost [] (SrcX.utils_get_bytes H) ∧
    AtMost [] (SrcX.utils_bytes_reverse H) ∧
    AtMost [] (SrcX.utils_bytes_to_string H) ∧
    AtMost [] (SrcX.utils_bytes_to_integer H) ∧
    AtMost [(.ecdsa, 1)] (SrcX.utils_integer_to_bytes H) :=
  ⟨atMost (sim_utils_get_bytes _), atMost (sim_utils_bytes_reverse _), atMost (sim_utils_bytes_to_string _), atMost (sim_utils_bytes_to_integer _), atMost (sim_utils_integer_to_bytes _)⟩

/-- C93: the functions of `libs/base58.py`. -/
theorem C93_base58 :
    AtMost [] (SrcX.base58_string_to_int H) ∧
    AtMost [] (SrcX.base58_ensure_string H) ∧
    AtMost [] (SrcX.base58_encode H) ∧
    AtMost [(.sha256, 2), (.digest, 2)] (SrcX.base58_check_encode H) ∧
    AtMost [] (SrcX.base58_decode H) ∧
    AtMost [(.sha256, 2), (.digest, 2)] (SrcX.base58_check_decode H) :=
  ⟨atMost (sim_base58_string_to_int _), atMost (sim_base58_ensure_string _), atMost (sim_base58_encode _), atMost (sim_base58_check_encode _), atMost (sim_base58_decode _), atMost (sim_base58_check_decode _)⟩

/-- C93: the functions of `crypto.py` and `libs/ripemd160.py`. -/
theorem C93_crypto :
    AtMost [] (SrcX.ripemd160_fi H) ∧
    AtMost [] (SrcX.ripemd160_rol H) ∧
    AtMost [] (SrcX.ripemd160_compress H) ∧
    AtMost [] (SrcX.ripemd160_ripemd160 H) ∧
    AtMost [(.hashNew, 1), (.digest, 1)] (SrcX.crypto_ripemd160 H) ∧
    AtMost [(.sha256, 1), (.digest, 1)] (SrcX.crypto_sha256 H) ∧
    AtMost [(.sha256, 2), (.digest, 2)] (SrcX.crypto_double_sha256 H) ∧
    AtMost [(.sha256, 2), (.digest, 2)] (SrcX.crypto_get_checksum H) ∧
    AtMost [(.sha256, 1), (.hashNew, 1), (.digest, 2)] (SrcX.crypto_hash160 H) :=
  ⟨atMost (sim_ripemd160_fi _), atMost (sim_ripemd160_rol _), atMost (sim_ripemd160_compress _), atMost (sim_ripemd160_ripemd160 _), atMost (sim_crypto_ripemd160 _ allowsAll), atMost (sim_crypto_sha256 _), atMost (sim_crypto_double_sha256 _), atMost (sim_crypto_get_checksum _), atMost (sim_crypto_hash160 _ allowsAll)⟩

/-- C93: points. -/
theorem C93_points :
    AtMost [] (SrcX.Point_init H) ∧
    AtMost [(.ecdsa, 2)] (SrcX.Point_from_coordinates H) ∧
    AtMost [(.ecdsa, 3)] (SrcX.Point_from_bytes H) ∧
    AtMost [] (SrcX.Point_underlying_object H) ∧
    AtMost [(.ecdsa, 1)] (SrcX.Point_x H) ∧
    AtMost [(.ecdsa, 1)] (SrcX.Point_y H) ∧
    AtMost [(.ecdsa, 4)] (SrcX.Point_raw_encoded H) ∧
    AtMost [(.ecdsa, 5)] (SrcX.Point_raw_decoded H) ∧
    AtMost [(.ecdsa, 5)] (SrcX.Point_raw H) ∧
    AtMost [] (SrcX.Point_add H) ∧
    AtMost [] (SrcX.Point_radd H) ∧
    AtMost [] (SrcX.Point_mul H) ∧
    AtMost [] (SrcX.Point_rmul H) :=
  ⟨atMost (sim_Point_init _), atMost (sim_Point_from_coordinates _), atMost (sim_Point_from_bytes _ fineNone), atMost (sim_Point_underlying_object _), atMost (sim_Point_x _), atMost (sim_Point_y _), atMost (sim_Point_raw_encoded _ fineNone), atMost (sim_Point_raw_decoded _ fineNone), atMost (sim_Point_raw _ fineNone), atMost (sim_Point_add _), atMost (sim_Point_radd _), atMost (sim_Point_mul _), atMost (sim_Point_rmul _)⟩

/-- C93: keys. -/
theorem C93_keys :
    AtMost [] (SrcX.PublicKey_init H) ∧
    AtMost [(.ecdsa, 1)] (SrcX.PublicKey_from_bytes H) ∧
    AtMost [(.ecdsa, 4)] (SrcX.PublicKey_from_point H) ∧
    AtMost [] (SrcX.PublicKey_compressed_length H) ∧
    AtMost [] (SrcX.PublicKey_uncompressed_length H) ∧
    AtMost [] (SrcX.PublicKey_underlying_object H) ∧
    AtMost [(.ecdsa, 1)] (SrcX.PublicKey_raw_compressed H) ∧
    AtMost [(.ecdsa, 1)] (SrcX.PublicKey_raw_uncompressed H) ∧
    AtMost [(.ecdsa, 1)] (SrcX.PublicKey_raw H) ∧
    AtMost [] (SrcX.PublicKey_point H) ∧
    AtMost [] (SrcX.PrivateKey_init H) ∧
    AtMost [(.ecdsa, 1)] (SrcX.PrivateKey_from_bytes H) ∧
    AtMost [] (SrcX.PrivateKey_length H) ∧
    AtMost [] (SrcX.PrivateKey_underlying_object H) ∧
    AtMost [(.ecdsa, 1)] (SrcX.PrivateKey_raw H) ∧
    AtMost [(.ecdsa, 1)] (SrcX.PrivateKey_public_key H) :=
  ⟨atMost (sim_PublicKey_init _), atMost (sim_PublicKey_from_bytes _ fineNone), atMost (sim_PublicKey_from_point _ fineNone), atMost (sim_PublicKey_compressed_length _), atMost (sim_PublicKey_uncompressed_length _), atMost (sim_PublicKey_underlying_object _), atMost (sim_PublicKey_raw_compressed _), atMost (sim_PublicKey_raw_uncompressed _), atMost (sim_PublicKey_raw _), atMost (sim_PublicKey_point _), atMost (sim_PrivateKey_init _), atMost (sim_PrivateKey_from_bytes _ fineNone), atMost (sim_PrivateKey_length _), atMost (sim_PrivateKey_underlying_object _), atMost (sim_PrivateKey_raw _), atMost (sim_PrivateKey_public_key _)⟩

/-- C93: the functions on WIFs. -/
theorem C93_wif :
    AtMost [(.sha256, 4), (.digest, 4), (.ecdsa, 3)] (SrcX.wif_encode_wif H) ∧
    AtMost [(.ecdsa, 4)] (SrcX.wif_decode_wif H) ∧
    AtMost [(.sha256, 4), (.digest, 4), (.ecdsa, 3)] (SrcX.wif_private_key_to_wif H) ∧
    AtMost [(.ecdsa, 4)] (SrcX.wif_wif_to_private_key H) ∧
    AtMost [(.ecdsa, 4)] (SrcX.wif_get_wif_type H) ∧
    AtMost [(.ecdsa, 4)] (SrcX.wif_get_wif_checksum H) :=
  ⟨atMost (sim_wif_encode_wif _), atMost (sim_wif_decode_wif _), atMost (sim_wif_private_key_to_wif _), atMost (sim_wif_wif_to_private_key _), atMost (sim_wif_get_wif_type _), atMost (sim_wif_get_wif_checksum _)⟩

/-- C93: addresses. -/
theorem C93_addresses :
    AtMost [(.sha256, 3), (.hashNew, 1), (.digest, 4), (.ecdsa, 3)] (SrcX.P2PKHAddress_encode H) ∧
    AtMost [(.sha256, 2), (.digest, 2), (.ecdsa, 1)] (SrcX.P2PKHAddress_decode H) :=
  ⟨atMost (sim_P2PKHAddress_encode _ fineNone allowsAll), atMost (sim_P2PKHAddress_decode _)⟩

/-- C93: the class `BIP38`. -/
theorem C93_bip38 :
    AtMost [] (SrcX.BIP38_init H) ∧
    AtMost [(.urandom, 1), (.sha256, 4), (.digest, 4), (.normalize, 1), (.scrypt, 1), (.ecdsa, 5)] (SrcX.BIP38_intermediate_code H) ∧
    AtMost [(.sha256, 7), (.hashNew, 1), (.digest, 8), (.normalize, 1), (.scrypt, 1), (.aes, 1), (.aesEncrypt, 2), (.ecdsa, 27)] (SrcX.BIP38_encrypt H) ∧
    AtMost [(.urandom, 1), (.sha256, 13), (.hashNew, 1), (.digest, 14), (.scrypt, 1), (.aes, 1), (.aesEncrypt, 4), (.ecdsa, 27)] (SrcX.BIP38_create_new_encrypted_wif H) ∧
    AtMost [(.sha256, 9), (.hashNew, 1), (.digest, 10), (.normalize, 1), (.scrypt, 2), (.aes, 1), (.aesDecrypt, 2), (.ecdsa, 21)] (SrcX.BIP38_confirm_code H) ∧
    AtMost [(.sha256, 13), (.hashNew, 1), (.digest, 14), (.normalize, 1), (.scrypt, 2), (.aes, 1), (.aesDecrypt, 2), (.ecdsa, 21)] (SrcX.BIP38_decrypt H) :=
  ⟨atMost (sim_BIP38_init _), atMost (sim_BIP38_intermediate_code _ fineNone allowsAll), atMost (sim_BIP38_encrypt _ fineNone allowsAll), atMost (sim_BIP38_create_new_encrypted_wif _ fineNone allowsAll hashNone), atMost (sim_BIP38_confirm_code _ fineNone allowsAll hashNone keyNone), atMost (sim_BIP38_decrypt _ fineNone allowsAll)⟩

/-- C93: an external function that is not listed is not called, whatever the arguments are and whatever raises. -/
theorem C93_none {l : List (Kind × Nat)} {x : SrcX.Fn} (h : AtMost l x) (k : Kind) (hk : l.lookup k = none) (args : List Val)
    (kw : List (Name × Val)) (F : Faults) (r : Py Val) (done : List Call) (hx : x args kw F [] = some (r, done)) : ∀ c ∈ done, c.kind ≠ k := by
  obtain ⟨d, rfl, hd⟩ := h args kw F [] r done hx
  have h0 := hd k
  unfold calls at h0
  rw [hk] at h0
  simpa using h0

/-- C93: `encrypt`, `decrypt`, `confirm_code` and the functions on WIFs never ask for random bytes, and the latter never derive keys with scrypt. -/
theorem C93_no_random (args : List Val) (kw : List (Name × Val)) (F : Faults) (r : Py Val) (done : List Call) :
    (SrcX.BIP38_encrypt H args kw F [] = some (r, done) → ∀ c ∈ done, c.kind ≠ .urandom) ∧
    (SrcX.BIP38_decrypt H args kw F [] = some (r, done) → ∀ c ∈ done, c.kind ≠ .urandom) ∧
    (SrcX.BIP38_confirm_code H args kw F [] = some (r, done) → ∀ c ∈ done, c.kind ≠ .urandom) ∧
    (SrcX.wif_private_key_to_wif H args kw F [] = some (r, done) → ∀ c ∈ done, c.kind ≠ .urandom ∧ c.kind ≠ .scrypt) ∧
    (SrcX.wif_wif_to_private_key H args kw F [] = some (r, done) → ∀ c ∈ done, c.kind ≠ .urandom ∧ c.kind ≠ .scrypt) := by
  obtain ⟨_, _, h1, _, h2, h3⟩ := C93_bip38 H
  obtain ⟨_, _, h4, h5, _⟩ := C93_wif H
  exact ⟨C93_none h1 _ rfl args kw F r done, C93_none h3 _ rfl args kw F r done, C93_none h2 _ rfl args kw F r done,
    fun h c hc => ⟨C93_none h4 _ rfl args kw F r done h c hc, C93_none h4 _ rfl args kw F r done h c hc⟩,
    fun h c hc => ⟨C93_none h5 _ rfl args kw F r done h c hc, C93_none h5 _ rfl args kw F r done h c hc⟩⟩

/-! ### C94: the arguments of external calls -/

/-- C94: the functions of `utils.py`. -/
theorem C94_utils :
    Uses [] (SrcX.utils_get_bytes H) ∧
    Uses [] (SrcX.utils_bytes_reverse H) ∧
    Uses [] (SrcX.utils_bytes_to_string H) ∧
    Uses [] (SrcX.utils_bytes_to_integer H) ∧
    Uses [] (SrcX.utils_integer_to_bytes H) :=
  ⟨uses (sim_utils_get_bytes _), uses (sim_utils_bytes_reverse _), uses (sim_utils_bytes_to_string _), uses (sim_utils_bytes_to_integer _), uses (sim_utils_integer_to_bytes _)⟩

/-- C94: the functions of `libs/base58.py`. -/
theorem C94_base58 :
    Uses [] (SrcX.base58_string_to_int H) ∧
    Uses [] (SrcX.base58_ensure_string H) ∧
    Uses [] (SrcX.base58_encode H) ∧
    Uses [] (SrcX.base58_check_encode H) ∧
    Uses [] (SrcX.base58_decode H) ∧
    Uses [] (SrcX.base58_check_decode H) :=
  ⟨uses (sim_base58_string_to_int _), uses (sim_base58_ensure_string _), uses (sim_base58_encode _), uses (sim_base58_check_encode _), uses (sim_base58_decode _), uses (sim_base58_check_decode _)⟩

/-- C94: the functions of `crypto.py` and `libs/ripemd160.py`. -/
theorem C94_crypto :
    Uses [] (SrcX.ripemd160_fi H) ∧
    Uses [] (SrcX.ripemd160_rol H) ∧
    Uses [] (SrcX.ripemd160_compress H) ∧
    Uses [] (SrcX.ripemd160_ripemd160 H) ∧
    Uses [.ripemd160] (SrcX.crypto_ripemd160 H) ∧
    Uses [] (SrcX.crypto_sha256 H) ∧
    Uses [] (SrcX.crypto_double_sha256 H) ∧
    Uses [] (SrcX.crypto_get_checksum H) ∧
    Uses [.ripemd160] (SrcX.crypto_hash160 H) :=
  ⟨uses (sim_ripemd160_fi _), uses (sim_ripemd160_rol _), uses (sim_ripemd160_compress _), uses (sim_ripemd160_ripemd160 _), uses (sim_crypto_ripemd160 _ allowsThese), uses (sim_crypto_sha256 _), uses (sim_crypto_double_sha256 _), uses (sim_crypto_get_checksum _), uses (sim_crypto_hash160 _ allowsThese)⟩

/-- C94: points. -/
theorem C94_points :
    Uses [] (SrcX.Point_init H) ∧
    Uses [] (SrcX.Point_from_coordinates H) ∧
    Uses [] (SrcX.Point_from_bytes H) ∧
    Uses [] (SrcX.Point_underlying_object H) ∧
    Uses [] (SrcX.Point_x H) ∧
    Uses [] (SrcX.Point_y H) ∧
    Uses [] (SrcX.Point_raw_encoded H) ∧
    Uses [] (SrcX.Point_raw_decoded H) ∧
    Uses [] (SrcX.Point_raw H) ∧
    Uses [] (SrcX.Point_add H) ∧
    Uses [] (SrcX.Point_radd H) ∧
    Uses [] (SrcX.Point_mul H) ∧
    Uses [] (SrcX.Point_rmul H) :=
  ⟨uses (sim_Point_init _), uses (sim_Point_from_coordinates _), uses (sim_Point_from_bytes _ fineNone), uses (sim_Point_underlying_object _), uses (sim_Point_x _), uses (sim_Point_y _), uses (sim_Point_raw_encoded _ fineNone), uses (sim_Point_raw_decoded _ fineNone), uses (sim_Point_raw _ fineNone), uses (sim_Point_add _), uses (sim_Point_radd _), uses (sim_Point_mul _), uses (sim_Point_rmul _)⟩

/-- C94: keys. -/
theorem C94_keys :
    Uses [] (SrcX.PublicKey_init H) ∧
    Uses [] (SrcX.PublicKey_from_bytes H) ∧
    Uses [] (SrcX.PublicKey_from_point H) ∧
    Uses [] (SrcX.PublicKey_compressed_length H) ∧
    Uses [] (SrcX.PublicKey_uncompressed_length H) ∧
    Uses [] (SrcX.PublicKey_underlying_object H) ∧
    Uses [] (SrcX.PublicKey_raw_compressed H) ∧
    Uses [] (SrcX.PublicKey_raw_uncompressed H) ∧
    Uses [] (SrcX.PublicKey_raw H) ∧
    Uses [] (SrcX.PublicKey_point H) ∧
    Uses [] (SrcX.PrivateKey_init H) ∧
    Uses [] (SrcX.PrivateKey_from_bytes H) ∧
    Uses [] (SrcX.PrivateKey_length H) ∧
    Uses [] (SrcX.PrivateKey_underlying_object H) ∧
    Uses [] (SrcX.PrivateKey_raw H) ∧
    Uses [] (SrcX.PrivateKey_public_key H) :=
  ⟨uses (sim_PublicKey_init _), uses (sim_PublicKey_from_bytes _ fineNone), uses (sim_PublicKey_from_point _ fineNone), uses (sim_PublicKey_compressed_length _), uses (sim_PublicKey_uncompressed_length _), uses (sim_PublicKey_underlying_object _), uses (sim_PublicKey_raw_compressed _), uses (sim_PublicKey_raw_uncompressed _), uses (sim_PublicKey_raw _), uses (sim_PublicKey_point _), uses (sim_PrivateKey_init _), uses (sim_PrivateKey_from_bytes _ fineNone), uses (sim_PrivateKey_length _), uses (sim_PrivateKey_underlying_object _), uses (sim_PrivateKey_raw _), uses (sim_PrivateKey_public_key _)⟩

/-- C94: the functions on WIFs. -/
theorem C94_wif :
    Uses [] (SrcX.wif_encode_wif H) ∧
    Uses [] (SrcX.wif_decode_wif H) ∧
    Uses [] (SrcX.wif_private_key_to_wif H) ∧
    Uses [] (SrcX.wif_wif_to_private_key H) ∧
    Uses [] (SrcX.wif_get_wif_type H) ∧
    Uses [] (SrcX.wif_get_wif_checksum H) :=
  ⟨uses (sim_wif_encode_wif _), uses (sim_wif_decode_wif _), uses (sim_wif_private_key_to_wif _), uses (sim_wif_wif_to_private_key _), uses (sim_wif_get_wif_type _), uses (sim_wif_get_wif_checksum _)⟩

/-- C94: addresses. -/
theorem C94_addresses :
    Uses [.ripemd160] (SrcX.P2PKHAddress_encode H) ∧
    Uses [] (SrcX.P2PKHAddress_decode H) :=
  ⟨uses (sim_P2PKHAddress_encode _ fineNone allowsThese), uses (sim_P2PKHAddress_decode _)⟩

/-- C94: the class `BIP38`. -/
theorem C94_bip38 :
    Uses [] (SrcX.BIP38_init H) ∧
    Uses [.nfc, .scryptOf 16384 8 8 32, .urandom 8] (SrcX.BIP38_intermediate_code H) ∧
    Uses [.nfc, .ripemd160, .scrypt 16384 8 8] (SrcX.BIP38_encrypt H) ∧
    Uses [.ripemd160, .scryptOf 1024 1 1 64, .urandom 24] (SrcX.BIP38_create_new_encrypted_wif H) ∧
    Uses [.nfc, .ripemd160, .scryptOf 1024 1 1 64, .scryptOf 16384 8 8 32] (SrcX.BIP38_confirm_code H) ∧
    Uses [.nfc, .ripemd160, .scrypt 16384 8 8, .scryptOf 1024 1 1 64, .scryptOf 16384 8 8 32] (SrcX.BIP38_decrypt H) :=
  ⟨uses (sim_BIP38_init _), uses (sim_BIP38_intermediate_code _ fineNone allowsThese), uses (sim_BIP38_encrypt _ fineNone allowsThese), uses (sim_BIP38_create_new_encrypted_wif _ fineNone allowsThese hashNone), uses (sim_BIP38_confirm_code _ fineNone allowsThese hashNone keyNone), uses (sim_BIP38_decrypt _ fineNone allowsThese)⟩

/-- C94: passphrases are never stretched with less than scrypt's N = 16384, r = 8, p = 8: a call of scrypt with other parameters is the one that
derives 64 bytes from a point (N = 1024, r = p = 1), and only `create_new_encrypted_wif`, `confirm_code` and `decrypt` make it. -/
theorem C94_scrypt (args : List Val) (kw : List (Name × Val)) (F : Faults) (r : Py Val) (done : List Call) (c : Call) (hc : c ∈ done)
    (hk : c.kind = .scrypt) :
    (SrcX.BIP38_encrypt H args kw F [] = some (r, done) → ∃ a b, c.args = [a, b, .int 16384, .int 8, .int 8]) ∧
    (SrcX.BIP38_intermediate_code H args kw F [] = some (r, done) → ∃ a b, c.args = [a, b, .int 16384, .int 8, .int 8, .int 32]) ∧
    (SrcX.BIP38_create_new_encrypted_wif H args kw F [] = some (r, done) → ∃ a b, c.args = [a, b, .int 1024, .int 1, .int 1, .int 64]) ∧
    (SrcX.BIP38_confirm_code H args kw F [] = some (r, done) → ∃ a b,
      c.args = [a, b, .int 16384, .int 8, .int 8, .int 32] ∨ c.args = [a, b, .int 1024, .int 1, .int 1, .int 64]) ∧
    (SrcX.BIP38_decrypt H args kw F [] = some (r, done) → ∃ a b, c.args = [a, b, .int 16384, .int 8, .int 8] ∨
      c.args = [a, b, .int 16384, .int 8, .int 8, .int 32] ∨ c.args = [a, b, .int 1024, .int 1, .int 1, .int 64]) := by
  have key : ∀ {l : List Use} {x : SrcX.Fn}, Uses l x → x args kw F [] = some (r, done) → ∃ u ∈ l, u.Fits c := by
    intro l x h hx
    obtain ⟨d, rfl, hd⟩ := h args kw F [] r done hx
    exact hd c hc (by rw [hk]; rfl)
  obtain ⟨_, h1, h2, h3, h4, h5⟩ := C94_bip38 H
  refine ⟨fun h => ?_, fun h => ?_, fun h => ?_, fun h => ?_, fun h => ?_⟩
  · obtain ⟨u, hu, hf⟩ := key h2 h
    simp only [List.mem_cons, List.not_mem_nil, or_false] at hu
    rcases hu with rfl | rfl | rfl
    · obtain ⟨_, rfl⟩ := hf
      cases hk
    · obtain ⟨_, rfl⟩ := hf
      cases hk
    · obtain ⟨a, b, rfl⟩ := hf
      exact ⟨a, b, rfl⟩
  · obtain ⟨u, hu, hf⟩ := key h1 h
    simp only [List.mem_cons, List.not_mem_nil, or_false] at hu
    rcases hu with rfl | rfl | rfl
    · obtain ⟨_, rfl⟩ := hf
      cases hk
    · obtain ⟨a, b, rfl⟩ := hf
      exact ⟨a, b, rfl⟩
    · cases hf
      cases hk
  · obtain ⟨u, hu, hf⟩ := key h3 h
    simp only [List.mem_cons, List.not_mem_nil, or_false] at hu
    rcases hu with rfl | rfl | rfl
    · obtain ⟨_, rfl⟩ := hf
      cases hk
    · obtain ⟨a, b, rfl⟩ := hf
      exact ⟨a, b, rfl⟩
    · cases hf
      cases hk
  · obtain ⟨u, hu, hf⟩ := key h4 h
    simp only [List.mem_cons, List.not_mem_nil, or_false] at hu
    rcases hu with rfl | rfl | rfl | rfl
    · obtain ⟨_, rfl⟩ := hf
      cases hk
    · obtain ⟨_, rfl⟩ := hf
      cases hk
    · obtain ⟨a, b, rfl⟩ := hf
      exact ⟨a, b, .inr rfl⟩
    · obtain ⟨a, b, rfl⟩ := hf
      exact ⟨a, b, .inl rfl⟩
  · obtain ⟨u, hu, hf⟩ := key h5 h
    simp only [List.mem_cons, List.not_mem_nil, or_false] at hu
    rcases hu with rfl | rfl | rfl | rfl | rfl
    · obtain ⟨_, rfl⟩ := hf
      cases hk
    · obtain ⟨_, rfl⟩ := hf
      cases hk
    · obtain ⟨a, b, rfl⟩ := hf
      exact ⟨a, b, .inl rfl⟩
    · obtain ⟨a, b, rfl⟩ := hf
      exact ⟨a, b, .inr (.inr rfl)⟩
    · obtain ⟨a, b, rfl⟩ := hf
      exact ⟨a, b, .inr (.inl rfl)⟩

end Bip38.Props
