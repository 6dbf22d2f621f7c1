import Verif.Model.Point
import Verif.Lemmas.PublicKey
import Mathlib.Tactic.Abel
/-!
# Properties C43, C44, C45: arithmetic of points, conversions between points and public keys, old `ecdsa` releases
-/
namespace Bip38

theorem neg_toPt (a : E) : (toPt a).neg = toPt (-a) := by
  match a with
  | .zero => rfl
  | .some x y h =>
    show Pt.aff x.val ((fieldP - y.val) % fieldP) = Pt.aff x.val (curve.negY x y).val
    congr 1
    rw [val_eq_iff, cast_sub_p (val_lt y).le, cast_val, negY_eq]

theorem zmul_toPt (a : E) (k : Int) : (toPt a).zmul k = toPt (k • a) := by
  unfold Pt.zmul
  split
  · rename_i h
    rw [neg_toPt, mul_toPt]
    congr 1
    obtain ⟨n, rfl⟩ : ∃ n : Nat, k = -(n : Int) := ⟨k.natAbs, by omega⟩
    simp
  · rename_i h
    rw [mul_toPt]
    congr 1
    obtain ⟨n, rfl⟩ : ∃ n : Nat, k = (n : Int) := ⟨k.natAbs, by omega⟩
    simp

theorem add_valid {p q : Pt} (hp : p.Valid) (hq : q.Valid) : (p.add q).Valid := by
  obtain ⟨a, rfl⟩ := exists_toPt hp
  obtain ⟨b, rfl⟩ := exists_toPt hq
  rw [add_toPt]; exact valid_toPt _

theorem integerToBytes_count (n k : Nat) (hk : 0 < k) (h : n < 256 ^ k) : integerToBytes (n : Int) (some (k : Int)) = .ok (toBE k n) := by
  unfold integerToBytes
  simp only
  rw [if_neg (by omega), if_neg (by omega), Int.toNat_natCast, intToBytes_nat n k h]

theorem isPoint_toPt (a : E) : Spec.IsPoint (toPt a) := (valid_iff _).mp (valid_toPt a)

theorem exists_of_isPoint {p : Pt} (h : Spec.IsPoint p) : ∃ a : E, toPt a = p := exists_toPt ((valid_iff p).mpr h)

end Bip38

namespace Bip38.Props
open Bip38 Spec

/-- C43: the points of the curve form a commutative group under `+` (in both operand orders), with the point at infinity as
neutral element. -/
theorem C43_add_group (p q r : Pt) (hp : IsPoint p) (hq : IsPoint q) (hr : IsPoint r) :
    IsPoint (Point.add p q)
      ∧ Point.add p q = Point.add q p
      ∧ Point.radd p q = Point.add q p
      ∧ Point.add (Point.add p q) r = Point.add p (Point.add q r)
      ∧ Point.add p .inf = p
      ∧ Point.add p (Point.mul p (-1)) = .inf := by
  obtain ⟨a, rfl⟩ := exists_of_isPoint hp
  obtain ⟨b, rfl⟩ := exists_of_isPoint hq
  obtain ⟨c, rfl⟩ := exists_of_isPoint hr
  have h0 : Pt.inf = toPt 0 := rfl
  simp only [Point.radd, Point.add, Point.mul, zmul_toPt, add_toPt, h0]
  refine ⟨isPoint_toPt _, ?_, ?_, ?_, ?_, ?_⟩ <;> congr 1
  · abel
  · abel
  · abel
  · abel
  · simp

/-- C43: `*` by an integer of any sign is a group action of the integers modulo `n`. -/
theorem C43_mul_laws (p q : Pt) (hp : IsPoint p) (hq : IsPoint q) (j k : Int) :
    IsPoint (Point.mul p k)
      ∧ Point.rmul p k = Point.mul p k
      ∧ Point.mul p 0 = .inf
      ∧ Point.mul p 1 = p
      ∧ Point.mul p (j + k) = Point.add (Point.mul p j) (Point.mul p k)
      ∧ Point.mul p (j * k) = Point.mul (Point.mul p j) k
      ∧ Point.mul (Point.add p q) k = Point.add (Point.mul p k) (Point.mul q k)
      ∧ Point.mul p (k % (n256k1 : Int)) = Point.mul p k := by
  obtain ⟨a, rfl⟩ := exists_of_isPoint hp
  obtain ⟨b, rfl⟩ := exists_of_isPoint hq
  have h0 : Pt.inf = toPt 0 := rfl
  simp only [Point.rmul, Point.add, Point.mul, zmul_toPt, add_toPt, h0]
  refine ⟨isPoint_toPt _, trivial, congrArg toPt (zero_zsmul a), congrArg toPt (one_zsmul a), congrArg toPt (add_zsmul a j k),
    congrArg toPt ?_, congrArg toPt (zsmul_add a b k), congrArg toPt ?_⟩
  · rw [mul_comm, mul_smul]
  · rw [n256k1_eq]
    conv_rhs => rw [← Int.mul_ediv_add_emod k (N : Int), add_zsmul, mul_comm, mul_zsmul']
    rw [natCast_zsmul, ← card_E, card_nsmul_eq_zero', zero_add]

/-- C43: for a non-negative factor `*` is repeated addition. -/
theorem C43_mul_is_repeated_addition (p : Pt) (hp : IsPoint p) (k : Nat) : Point.mul p (k : Int) = times k p := by
  obtain ⟨a, rfl⟩ := exists_of_isPoint hp
  rw [Point.mul, zmul_toPt, times_toPt, natCast_zsmul]

/-- C43: two multiples of a point of the curve other than infinity are equal exactly when the factors are congruent modulo `n`. -/
theorem C43_mul_eq_iff (p : Pt) (hp : IsPoint p) (hne : p ≠ .inf) (j k : Int) :
    Point.mul p j = Point.mul p k ↔ j ≡ k [ZMOD n256k1] := by
  obtain ⟨a, rfl⟩ := exists_of_isPoint hp
  have ha : a ≠ 0 := by rintro rfl; exact hne rfl
  rw [Point.mul, Point.mul, zmul_toPt, zmul_toPt, toPt_injective.eq_iff, n256k1_eq, ← addOrderOf_point ha]
  exact zsmul_eq_zsmul_iff_modEq

/-- Non-vacuity of C43: the generator is a point other than infinity, and its double is another point. -/
example : IsPoint gen ∧ gen ≠ .inf ∧ Point.mul gen 2 ≠ gen := by
  refine ⟨(valid_iff _).mp gen_valid, by simp [gen], ?_⟩
  intro h
  have h1 : Point.mul gen 2 = Point.mul gen 1 := by
    rw [h, (C43_mul_laws gen gen ((valid_iff _).mp gen_valid) ((valid_iff _).mp gen_valid) 0 0).2.2.2.1]
  rw [C43_mul_eq_iff gen ((valid_iff _).mp gen_valid) (by simp [gen])] at h1
  exact absurd h1 (by decide +kernel)

/-- C44: `PublicKey.from_point` accepts exactly the affine points of the curve (with reduced coordinates), and gives the key with
these coordinates. -/
theorem C44_from_point_iff (p : Pt) (k : PublicKey) :
    PublicKey.fromPoint p = .ok k ↔ p = .aff k.x k.y ∧ OnSecp256k1 k.x k.y := by
  constructor
  · intro h
    unfold PublicKey.fromPoint at h
    match p with
    | .inf => simp [raise] at h
    | .aff x y =>
      simp only at h
      split at h
      · rename_i hc
        split at h
        · rename_i hr
          cases h
          refine ⟨rfl, (validXY_iff x y).mp ?_⟩
          unfold validXY
          simp [hc, hr]
        · simp [raise] at h
      · simp [raise] at h
  · rintro ⟨rfl, h⟩
    exact fromPoint_point k h

/-- C44: key → point → key is the identity, and point → key → point too. -/
theorem C44_roundtrip (k : PublicKey) (hk : OnSecp256k1 k.x k.y) :
    PublicKey.fromPoint k.point = .ok k ∧ Point.x k.point = some k.x ∧ Point.y k.point = some k.y
      ∧ ∀ p k', PublicKey.fromPoint p = .ok k' → k'.point = p := by
  refine ⟨fromPoint_point k hk, rfl, rfl, fun p k' h => ?_⟩
  exact ((C44_from_point_iff p k').mp h).1.symm

/-- C44: the errors of `PublicKey.from_point`: `TypeError` for the point at infinity, `AssertionError` off the curve,
`Secp256k1Error` for unreduced coordinates of a point of the curve. -/
theorem C44_from_point_errors (p : Pt) (e : Exc) (h : PublicKey.fromPoint p = .error e) :
    (p = .inf ∧ e.cls = .typeError)
      ∨ (∃ x y, p = .aff x y ∧ ¬ y ^ 2 ≡ x ^ 3 + 7 [MOD p256k1] ∧ e.cls = .assertionError)
      ∨ (∃ x y, p = .aff x y ∧ y ^ 2 ≡ x ^ 3 + 7 [MOD p256k1] ∧ ¬ (x < p256k1 ∧ y < p256k1) ∧ e.cls = .secp256k1Error) := by
  have h2 : ∀ x y, onCurve x y = true ↔ y ^ 2 ≡ x ^ 3 + 7 [MOD p256k1] := by
    intro x y
    unfold onCurve Nat.ModEq
    rw [p256k1_eq, decide_eq_true_eq, show y * y = y ^ 2 by ring, show x * x * x = x ^ 3 by ring]
  unfold PublicKey.fromPoint at h
  match p with
  | .inf => simp [raise] at h; exact .inl ⟨rfl, by rw [← h]⟩
  | .aff x y =>
    simp only at h
    split at h
    · rename_i hc
      split at h
      · simp at h
      · rename_i hr
        simp [raise] at h
        exact .inr (.inr ⟨x, y, rfl, (h2 x y).mp hc, by rw [p256k1_eq]; exact hr, by rw [← h]⟩)
    · rename_i hc
      simp [raise] at h
      exact .inr (.inl ⟨x, y, rfl, fun hh => hc ((h2 x y).mpr hh), by rw [← h]⟩)

/-- C44: the length constants are the lengths of the serialisations. -/
theorem C44_lengths (k : PublicKey) (s : PrivateKey) :
    k.rawCompressed.length = PublicKey.compressedLength ∧ k.rawUncompressed.length = PublicKey.uncompressedLength
      ∧ s.raw.length = PrivateKey.length ∧ secp256k1Order = n256k1 :=
  ⟨rawCompressed_length k, rawUncompressed_length k, toBE_length _ _, n256k1_eq.symm⟩

/-- C45: on an `ecdsa` release without point encodings, `raw_encoded` and `raw_decoded` give the same bytes as on a current one. -/
theorem C45_old_raw (x y : Nat) (h : OnSecp256k1 x y) :
    Point.rawEncodedOld x y = .ok (Point.rawEncoded x y) ∧ Point.rawDecodedOld x y = .ok (Point.rawDecoded x y) := by
  have hx : integerToBytes (x : Int) (some (COORDINATE_POINT_LENGTH : Nat)) = .ok (toBE 32 x) := by
    exact integerToBytes_count x _ (by decide) h.x_lt
  have hy : integerToBytes (y : Int) (some (COORDINATE_POINT_LENGTH : Nat)) = .ok (toBE 32 y) := by
    exact integerToBytes_count y _ (by decide) h.y_lt
  constructor
  · unfold Point.rawEncodedOld Point.rawEncoded
    rw [hx, Nat.and_one_is_mod]
    generalize toBE 32 x = X
    rcases Nat.mod_two_eq_zero_or_one y with h | h <;> simp [h, bind, Except.bind]
  · unfold Point.rawDecodedOld Point.rawDecoded
    rw [hx, hy]
    rfl

/-- C45: on such a release `Point.from_bytes` reads exactly 64 raw bytes like a current one does, for a point of the curve; and refuses
with `AssertionError` the off-curve bytes that a current one accepts. -/
theorem C45_old_from_bytes (X Y : Bytes) (hX : X.length = 32) (hY : Y.length = 32) :
    (be Y ^ 2 ≡ be X ^ 3 + 7 [MOD p256k1] → Point.fromBytesOld (X ++ Y) = Point.fromBytes (X ++ Y)
        ∧ Point.fromBytesOld (X ++ Y) = .ok (.aff (be X) (be Y)))
      ∧ (¬ be Y ^ 2 ≡ be X ^ 3 + 7 [MOD p256k1] → ∃ e, Point.fromBytesOld (X ++ Y) = .error e ∧ e.cls = .assertionError) := by
  have h2 : onCurve (be X) (be Y) = true ↔ be Y ^ 2 ≡ be X ^ 3 + 7 [MOD p256k1] := by
    unfold onCurve Nat.ModEq
    rw [p256k1_eq, decide_eq_true_eq, show be Y * be Y = be Y ^ 2 by ring, show be X * be X * be X = be X ^ 3 by ring]
  have h3 : Point.fromBytesOld (X ++ Y) = Point.fromCoordinates (be X) (be Y) := by
    unfold Point.fromBytesOld bytesToInteger
    simp only [COORDINATE_POINT_LENGTH, List.take_left' hX, List.drop_left' hX, be_eq]
    simp
  rw [h3]
  unfold Point.fromCoordinates Point.fromBytes
  rw [decode_raw X Y hX hY, ← be_eq, ← be_eq, ← h2]
  constructor
  · intro h; simp [h]
  · intro h; simp [h, raise]

/-- The header byte and the first 31 bytes agree with the whole only if all bytes are the header. -/
theorem cons_take_eq (c : UInt8) (n : Nat) (X : Bytes) (hX : X.length = n) (h : c :: X.take (n - 1) = X) : X = List.replicate n c := by
  induction n generalizing X with
  | zero => simpa using hX
  | succ n ih =>
    match X, hX with
    | x :: t, hX =>
      simp only [Nat.add_sub_cancel, List.length_cons, Nat.add_right_cancel_iff] at hX h
      rw [List.replicate_succ]
      cases n with
      | zero => simp at hX h; simp [hX, h.1]
      | succ n =>
        simp only [List.take_succ_cons, List.cons.injEq] at h
        obtain ⟨rfl, h⟩ := h
        rw [ih t hX (by simpa using h)]

/-- C45 (finding): on such a release `Point.from_bytes` never reads the compressed form of a point of the curve as that point, although
`raw_encoded` writes it. -/
theorem C45_old_compressed_refuted (x y : Nat) (h : OnSecp256k1 x y) :
    Point.fromBytesOld (Point.rawEncoded x y) ≠ .ok (.aff x y) := by
  intro heq
  obtain ⟨c, hc, hcv⟩ : ∃ c : UInt8, Point.rawEncoded x y = c :: toBE 32 x ∧ (c = 2 ∨ c = 3) := by
    unfold Point.rawEncoded
    split
    · exact ⟨3, rfl, .inr rfl⟩
    · exact ⟨2, rfl, .inl rfl⟩
  obtain ⟨X, hX⟩ : ∃ X, toBE 32 x = X := ⟨_, rfl⟩
  have hXl : X.length = 32 := by rw [← hX, toBE_length]
  have hXv : fromBE X = x := by rw [← hX]; exact fromBE_toBE _ _ h.x_lt
  rw [hc, hX] at heq
  have h3 : Point.fromBytesOld (c :: X) = Point.fromCoordinates (fromBE (c :: X.take 31)) (fromBE (X.drop 31)) := by
    unfold Point.fromBytesOld bytesToInteger
    simp [COORDINATE_POINT_LENGTH]
  rw [h3] at heq
  unfold Point.fromCoordinates at heq
  split at heq
  · simp only [Except.ok.injEq, Pt.aff.injEq] at heq
    obtain ⟨hx, hy⟩ := heq
    rw [← hXv] at hx
    have hl := fromBE_inj (by simp [hXl]) hx
    have hrep := cons_take_eq c 32 X hXl hl
    have hE := h.eqn
    rw [← hXv, ← hy, hrep] at hE
    unfold Nat.ModEq at hE
    rcases hcv with rfl | rfl
    · exact absurd hE (by decide +kernel)
    · exact absurd hE (by decide +kernel)
  · simp [raise] at heq

/-- Non-vacuity of C45. -/
example : OnSecp256k1 genX genY := valid_aff.mp gen_valid

end Bip38.Props
