import Verif.Src.PrivateKey
import Verif.Src.EqUtils
/-!
# The text of `bip38/secp256k1/*.py` computes what the model says
-/
namespace Bip38.Src

open Run

variable (H : Host)

theorem Point_init_eq (p : Pt) : Point_init H [.jacobi p] [] = pure (pointVal p) := rfl

theorem PublicKey_init_eq (k : PublicKey) : PublicKey_init H [.verifyingKey k] [] = pure (publicVal k) := rfl

theorem PrivateKey_init_eq (k : PrivateKey) : PrivateKey_init H [.signingKey k] [] = pure (privateVal k) := rfl

theorem Point_from_coordinates_eq (x y : Nat) :
    Point_from_coordinates H [.int x, .int y] [] = ofPy (Point.fromCoordinates x y) >>= fun p => pure (pointVal p) := by
  unfold Point_from_coordinates Point.fromCoordinates
  rw [defun_eq]
  ev [block_cons, xPoint, Int.natCast_nonneg, and_self, Int.toNat_natCast]
  split
  · rfl
  · rfl

theorem coordinate_length : const_COORDINATE_POINT_LENGTH H = pure (.int ((32 : Nat) : Int)) := rfl

theorem bytesToInteger_nonneg (b : Bytes) : ∃ n : Nat, bytesToInteger b = n := ⟨fromBE b, rfl⟩

theorem Point_from_bytes_eq (b : Bytes) :
    Point_from_bytes H [.bytes b] []
      = ofPy (if H.oldEcdsa then Point.fromBytesOld b else Point.fromBytes b) >>= fun p => pure (pointVal p) := by
  unfold Point_from_bytes
  rw [defun_eq]
  ev [block_cons, xPointFromBytes]
  cases hO : H.oldEcdsa with
  | true =>
    obtain ⟨x, hx⟩ := bytesToInteger_nonneg (b.take 32)
    obtain ⟨y, hy⟩ := bytesToInteger_nonneg (b.drop 32)
    unfold Point.fromBytesOld
    simp only [COORDINATE_POINT_LENGTH]
    ev [block_cons, coordinate_length, slice_to, slice_from, bytes_to_integer_default, hx, hy, Int.toNat_natCast, Point_from_coordinates_eq]
  | false =>
    unfold Point.fromBytes malformedPoint
    cases decodePoint b with
    | some p => rfl
    | none =>
      ev [block_cons, raise_msg H .secp256k1Error rfl]
      rfl

theorem Point_x_eq (p : Pt) : Point_x H [pointVal p] [] = pure (match Point.x p with | some x => .int x | none => .none) := by
  cases p <;> rfl

theorem Point_y_eq (p : Pt) : Point_y H [pointVal p] [] = pure (match Point.y p with | some y => .int y | none => .none) := by
  cases p <;> rfl

theorem Point_raw_encoded_eq (x y : Nat) :
    Point_raw_encoded H [pointVal (.aff x y)] []
      = ofPy (if H.oldEcdsa then Point.rawEncodedOld x y else .ok (Point.rawEncoded x y)) >>= fun b => pure (.bytes b) := by
  unfold Point_raw_encoded
  rw [defun_eq]
  ev [block_cons, pointVal, mToBytes]
  cases hO : H.oldEcdsa with
  | true =>
    have h32 := integer_to_bytes_eq H x (some ((32 : Nat) : Int)) .big false
    rw [show utils_integer_to_bytes H [Val.int x, ofOptInt (some ((32 : Nat) : Int)), ofEndian .big, .bool false] []
      = utils_integer_to_bytes H [.int x, .int ((32 : Nat) : Int)] [] from rfl] at h32
    unfold Point.rawEncodedOld
    simp only [COORDINATE_POINT_LENGTH]
    ev [block_cons, coordinate_length, mX, mY, h32, ofPy_bind]
    refine step fun b _ => ?_
    have e : ((y : Int).land 1 = 0) ↔ (y &&& 1 = 0) := by
      show (((y &&& 1 : Nat) : Int) = 0) ↔ _
      omega
    by_cases h : y &&& 1 = 0
    · ev [e, h, ne_eq, not_true_eq_false, not_false_eq_true]
      rfl
    · ev [e, h, ne_eq, not_true_eq_false, not_false_eq_true]
      rfl
  | false => rfl

theorem Point_raw_decoded_eq (x y : Nat) :
    Point_raw_decoded H [pointVal (.aff x y)] []
      = ofPy (if H.oldEcdsa then Point.rawDecodedOld x y else .ok (Point.rawDecoded x y)) >>= fun b => pure (.bytes b) := by
  unfold Point_raw_decoded
  rw [defun_eq]
  ev [block_cons, pointVal, mToBytes]
  cases hO : H.oldEcdsa with
  | true =>
    have h32 : ∀ n : Nat, utils_integer_to_bytes H [.int n, .int ((32 : Nat) : Int)] []
        = ofPy (integerToBytes n (some ((32 : Nat) : Int))) >>= fun b => pure (.bytes b) :=
      fun n => integer_to_bytes_eq H n (some ((32 : Nat) : Int)) .big false
    unfold Point.rawDecodedOld
    simp only [COORDINATE_POINT_LENGTH]
    ev [block_cons, coordinate_length, mX, mY, h32, ofPy_bind]
  | false => rfl

theorem Point_raw_eq (x y : Nat) :
    Point_raw H [pointVal (.aff x y)] []
      = ofPy (if H.oldEcdsa then Point.rawDecodedOld x y else .ok (Point.rawDecoded x y)) >>= fun b => pure (.bytes b) := by
  unfold Point_raw
  rw [defun_eq]
  ev [block_cons, Point_raw_decoded_eq]

theorem Point_add_eq (p q : Pt) : Point_add H [pointVal p, pointVal q] [] = pure (pointVal (Point.add p q)) := rfl
theorem Point_radd_eq (p q : Pt) : Point_radd H [pointVal p, pointVal q] [] = pure (pointVal (Point.radd p q)) := rfl
theorem Point_mul_eq (p : Pt) (k : Int) : Point_mul H [pointVal p, .int k] [] = pure (pointVal (Point.mul p k)) := rfl
theorem Point_rmul_eq (p : Pt) (k : Int) : Point_rmul H [pointVal p, .int k] [] = pure (pointVal (Point.rmul p k)) := rfl

theorem PublicKey_from_bytes_eq (b : Bytes) :
    PublicKey_from_bytes H [.bytes b] [] = ofPy (PublicKey.fromBytes b) >>= fun k => pure (publicVal k) := by
  unfold PublicKey_from_bytes PublicKey.fromBytes
  rw [defun_eq]
  ev [block_cons, xVerifyingFromString]
  unfold malformedPoint
  cases decodePoint b with
  | some p =>
    simp only
    cases h : validXY p.1 p.2 with
    | true => rfl
    | false =>
      ev [block_cons, raise_msg H .secp256k1Error rfl]
      rfl
  | none =>
    ev [block_cons, raise_msg H .secp256k1Error rfl]
    rfl

theorem PublicKey_from_point_eq (p : Pt) :
    PublicKey_from_point H [pointVal p] [] = ofPy (PublicKey.fromPoint p) >>= fun k => pure (publicVal k) := by
  unfold PublicKey_from_point PublicKey.fromPoint
  rw [defun_eq]
  cases p with
  | inf => rfl
  | aff x y =>
    ev [block_cons]
    have hx := Point_x_eq H (.aff x y)
    have hy := Point_y_eq H (.aff x y)
    simp only [Point.x, Point.y] at hx hy
    have mx : ∀ f : Val → Fn, callMethod [(.Point, Point_x H)] f (pointVal (.aff x y)) [] [] = pure (.int x) := fun f => hx
    have my : ∀ f : Val → Fn, callMethod [(.Point, Point_y H)] f (pointVal (.aff x y)) [] [] = pure (.int y) := fun f => hy
    ev [mx, my, xPoint, Int.natCast_nonneg, and_self, Int.toNat_natCast]
    cases hc : onCurve x y with
    | false => rfl
    | true =>
      ev [xVerifyingFromPoint, malformedPoint]
      by_cases h : x < fieldP ∧ y < fieldP
      · simp only [h, and_self, if_true]
        rfl
      · simp only [h, if_false]
        ev [block_cons, raise_msg H .secp256k1Error rfl]
        rfl

theorem PublicKey_raw_compressed_eq (k : PublicKey) : PublicKey_raw_compressed H [publicVal k] [] = pure (.bytes k.rawCompressed) := rfl
theorem PublicKey_raw_uncompressed_eq (k : PublicKey) : PublicKey_raw_uncompressed H [publicVal k] [] = pure (.bytes k.rawUncompressed) := rfl
theorem PublicKey_point_eq (k : PublicKey) : PublicKey_point H [publicVal k] [] = pure (pointVal k.point) := rfl

theorem PublicKey_raw_eq (k : PublicKey) (t : String) : PublicKey_raw H [publicVal k, .str t.toList] [] = pure (.bytes (k.raw t)) := by
  unfold PublicKey_raw PublicKey.raw
  rw [defun_eq]
  have e : t.toList = "compressed".toList ↔ t = "compressed" := String.toList_inj
  by_cases h : t = "compressed"
  · ev [block_cons, e, h, PublicKey_raw_compressed_eq]
  · ev [block_cons, e, h, PublicKey_raw_uncompressed_eq]

theorem PublicKey_compressed_length_eq : PublicKey_compressed_length H [] [] = pure (.int PublicKey.compressedLength) := rfl
theorem PublicKey_uncompressed_length_eq : PublicKey_uncompressed_length H [] [] = pure (.int PublicKey.uncompressedLength) := rfl
theorem PrivateKey_length_eq : PrivateKey_length H [] [] = pure (.int PrivateKey.length) := rfl

theorem PrivateKey_from_bytes_eq (b : Bytes) :
    PrivateKey_from_bytes H [.bytes b] [] = ofPy (PrivateKey.fromBytes b) >>= fun k => pure (privateVal k) := by
  unfold PrivateKey_from_bytes PrivateKey.fromBytes
  rw [defun_eq]
  ev [block_cons, xSigningFromString]
  unfold malformedPoint
  by_cases h : b.length ≠ 32
  · have h' : b.length ≠ PRIVATE_KEY_LENGTH := h
    simp only [if_pos h, if_pos h']
    ev [block_cons, raise_msg H .secp256k1Error rfl]
    rfl
  · have h' : ¬ b.length ≠ PRIVATE_KEY_LENGTH := h
    simp only [if_neg h, if_neg h']
    by_cases h2 : 1 ≤ fromBE b ∧ fromBE b < N
    · simp only [if_pos h2]
      cases gen.mul (fromBE b) <;> rfl
    · simp only [if_neg h2]
      ev [block_cons, raise_msg H .secp256k1Error rfl]
      rfl

theorem PrivateKey_raw_eq (k : PrivateKey) : PrivateKey_raw H [privateVal k] [] = pure (.bytes k.raw) := rfl
theorem PrivateKey_public_key_eq (k : PrivateKey) : PrivateKey_public_key H [privateVal k] [] = pure (publicVal k.publicKey) := rfl

end Bip38.Src
