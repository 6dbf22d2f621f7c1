import Verif.Lemmas.PublicKey
/-!
# Properties C14, C15, C16, C42: keys and points of secp256k1
-/
namespace Bip38.Props
open Bip38 Spec

/-- C14: the accepted private keys are exactly the 32-byte strings of value `1 .. n-1`; they are given back unchanged. -/
theorem C14_private_key_iff (b : Bytes) :
    (∃ k, PrivateKey.fromBytes b = .ok k ∧ k.raw = b) ↔ b.length = 32 ∧ 1 ≤ be b ∧ be b < n256k1 := by
  rw [be_eq, n256k1_eq]
  constructor
  · rintro ⟨k, hk, _⟩
    obtain ⟨h1, h2, h3, _⟩ := (privFromBytes_iff b k).mp hk
    exact ⟨h1, h2, h3⟩
  · intro h
    obtain ⟨k, hk, _, hr, _⟩ := privFromBytes_ok b h
    exact ⟨k, hk, hr⟩

/-- C14: a returned private key always gives back the bytes it was made from, and its public key is that multiple of the
generator, obtained by repeated addition. -/
theorem C14_private_key_ok (b : Bytes) (k : PrivateKey) (h : PrivateKey.fromBytes b = .ok k) :
    k.raw = b ∧ .aff k.publicKey.x k.publicKey.y = times (be b) gen := by
  have h' := (privFromBytes_iff b k).mp h
  constructor
  · rw [PrivateKey.raw, h'.2.2.2.1, toBE_fromBE' b h'.1]
  · rw [be_eq, ← mul_eq_times gen gen_valid, h'.2.2.2.2]
    rfl

/-- C14: everything else raises `Secp256k1Error`. -/
theorem C14_private_key_error (b : Bytes) (h : ¬ (b.length = 32 ∧ 1 ≤ be b ∧ be b < n256k1)) :
    ∃ msg, PrivateKey.fromBytes b = .error ⟨.secp256k1Error, msg⟩ := by
  rw [be_eq, n256k1_eq] at h
  exact ⟨_, privFromBytes_error b h⟩

/-- Non-vacuity of C14: both sides of the boundary. -/
example : (toBE 32 (n256k1 - 1)).length = 32 ∧ 1 ≤ be (toBE 32 (n256k1 - 1)) ∧ be (toBE 32 (n256k1 - 1)) < n256k1 := by
  decide +kernel
example : ¬ (be (toBE 32 n256k1) < n256k1) := by decide +kernel

/-- C15: the bytes accepted as a public key are exactly the encodings of the points of the curve. -/
theorem C15_public_key_iff (b : Bytes) (k : PublicKey) :
    PublicKey.fromBytes b = .ok k ↔ Denotes b k.x k.y ∧ OnSecp256k1 k.x k.y := fromBytes_iff b k

/-- C15: bytes that denote no point of the curve raise `Secp256k1Error`. -/
theorem C15_public_key_error (b : Bytes) (h : ∀ x y, OnSecp256k1 x y → ¬ Denotes b x y) :
    ∃ msg, PublicKey.fromBytes b = .error ⟨.secp256k1Error, msg⟩ := by
  cases hb : PublicKey.fromBytes b with
  | ok k =>
    obtain ⟨h1, h2⟩ := (fromBytes_iff b k).mp hb
    exact absurd h1 (h _ _ h2)
  | error e =>
    have := fromBytes_error b e hb
    cases e with
    | mk c m => simp only at this; subst this; exact ⟨m, rfl⟩

/-- C15: both serialisations of a point of the curve are read back as the same key, and have 33 and 65 bytes. -/
theorem C15_public_key_roundtrip (k : PublicKey) (h : OnSecp256k1 k.x k.y) (type : String) :
    PublicKey.fromBytes (k.raw type) = .ok k
      ∧ (k.raw type).length = if type = "compressed" then 33 else 65 := by
  unfold PublicKey.raw
  split
  · exact ⟨fromBytes_rawCompressed k h, rawCompressed_length k⟩
  · exact ⟨(fromBytes_iff _ _).mpr ⟨denotes_rawUncompressed k h, h⟩, rawUncompressed_length k⟩

/-- C15: a byte string denotes at most one point of the curve. -/
theorem C15_denotes_unique (b : Bytes) (x y x' y' : Nat) (h : OnSecp256k1 x y) (h' : OnSecp256k1 x' y')
    (hd : Denotes b x y) (hd' : Denotes b x' y') : x = x' ∧ y = y' := by
  have h1 := (decodePoint_iff b x y h).mpr hd
  have h2 := (decodePoint_iff b x' y' h').mpr hd'
  rw [h1] at h2
  simpa using h2

/-- Every public key of the API is a point of the curve. -/
theorem C15_private_key_point (b : Bytes) (k : PrivateKey) (h : PrivateKey.fromBytes b = .ok k) :
    OnSecp256k1 k.publicKey.x k.publicKey.y :=
  pub_valid ((privFromBytes_iff b k).mp h).2.2.2.2

/-- Non-vacuity of C15: the generator is a point of the curve; `(1, 1)` is not, and has an encoding. -/
example : OnSecp256k1 genX genY := valid_aff.mp gen_valid
example : Denotes (4 :: (toBE 32 1 ++ toBE 32 1)) 1 1 ∧ ¬ OnSecp256k1 1 1 :=
  ⟨.uncompressed (by simp) (by simp) (by decide +kernel) (by decide +kernel), fun h => by
    have := h.eqn
    unfold Nat.ModEq at this
    exact absurd this (by decide +kernel)⟩

/-- C16: scalar multiplication is repeated addition. -/
theorem C16_mul_is_repeated_addition (p : Pt) (hp : IsPoint p) (k : Nat) : p.mul k = times k p :=
  mul_eq_times p ((valid_iff p).mpr hp) k

/-- C16: addition of the model is the addition of Mathlib's group of points of the elliptic curve `y² = x³ + 7` over the field
with `p` elements; this group has `n` elements and the model represents each of them by exactly one value. -/
theorem C16_group :
    (∀ a b : E, toPt (a + b) = (toPt a).add (toPt b)) ∧ Function.Injective toPt ∧ (∀ p, IsPoint p ↔ ∃ a : E, toPt a = p)
      ∧ Nat.card E = n256k1 ∧ n256k1.Prime ∧ p256k1.Prime := by
  refine ⟨fun a b => (add_toPt a b).symm, toPt_injective, fun p => ?_, ?_, ?_, ?_⟩
  · rw [← valid_iff]
    exact ⟨exists_toPt, fun ⟨a, ha⟩ => ha ▸ valid_toPt a⟩
  · rw [n256k1_eq]; exact card_E
  · rw [n256k1_eq]; exact N_prime
  · rw [p256k1_eq]; exact fieldP_prime

/-- The coefficients of the curve used in `C16_group`. -/
theorem C16_curve : curve.a₁ = 0 ∧ curve.a₂ = 0 ∧ curve.a₃ = 0 ∧ curve.a₄ = 0 ∧ curve.a₆ = 7 := ⟨rfl, rfl, rfl, rfl, rfl⟩

/-- C16: multiplying the public key of `a` by `b` gives the public key of `a * b mod n`. -/
theorem C16_scalar_mul (a b : Nat) : (times a gen).mul b = times (a * b % n256k1) gen := by
  rw [n256k1_eq, ← mul_eq_times gen gen_valid, ← mul_eq_times gen gen_valid, gen_mul_mul]

/-- C16, in terms of the API: `PublicKey.from_point(PrivateKey.from_bytes(a).public_key().point() * b)` is the public key of
the private key `a * b mod n`, for all valid `a` and all `b` not divisible by `n`. -/
theorem C16_api (a : Bytes) (ka : PrivateKey) (ha : PrivateKey.fromBytes a = .ok ka) (b : Nat) (hb : ¬ n256k1 ∣ b) :
    ∃ kab, PrivateKey.fromBytes (toBE 32 (be a * b % n256k1)) = .ok kab
      ∧ PublicKey.fromPoint (ka.publicKey.point.mul b) = .ok kab.publicKey := by
  rw [be_eq, n256k1_eq] at *
  obtain ⟨h32, h1, h2, h3, h4⟩ := (privFromBytes_iff a ka).mp ha
  have hlt : fromBE a * b % N < N := Nat.mod_lt _ N_prime.pos
  have hpos : fromBE a * b % N ≠ 0 := by
    intro h0
    rcases (N_prime.dvd_mul).mp (Nat.dvd_of_mod_eq_zero h0) with h | h
    · have := Nat.le_of_dvd (by omega) h; omega
    · exact hb h
  have hval : fromBE (toBE 32 (fromBE a * b % N)) = fromBE a * b % N := fromBE_toBE _ _ (hlt.trans N_lt)
  obtain ⟨k, hk, _, _, hp, hv⟩ := privFromBytes_ok (toBE 32 (fromBE a * b % N)) (by
    rw [hval]; exact ⟨toBE_length _ _, by omega, hlt⟩)
  refine ⟨k, hk, ?_⟩
  have : ka.publicKey.point.mul b = k.publicKey.point := by
    rw [← hp, hval, ← gen_mul_mul]
    show ka.verifying.point.mul b = _
    rw [h4]
  rw [this, fromPoint_point _ hv]

/-- C16: the generator has order exactly `n`. -/
theorem C16_order (k : Nat) : times k gen = .inf ↔ n256k1 ∣ k := by
  rw [n256k1_eq, ← mul_eq_times gen gen_valid, gen_mul, ← nsmul_eq_zero_iff G_ne_zero, ← toPt_zero]
  exact toPt_injective.eq_iff

/-- C16: distinct private keys have distinct public keys. -/
theorem C16_injective (a b : Bytes) (ka kb : PrivateKey) (ha : PrivateKey.fromBytes a = .ok ka)
    (hb : PrivateKey.fromBytes b = .ok kb) (h : ka.publicKey = kb.publicKey) : a = b := by
  obtain ⟨a32, _, a2, _, a4⟩ := (privFromBytes_iff a ka).mp ha
  obtain ⟨b32, _, b2, _, b4⟩ := (privFromBytes_iff b kb).mp hb
  apply fromBE_inj (a32.trans b32.symm)
  apply nsmul_G_inj a2 b2
  apply toPt_injective
  rw [← gen_mul, ← gen_mul, a4, b4]
  exact congrArg _ h

/-- C16: every point of the curve is the public key of some private key. -/
theorem C16_surjective (k : PublicKey) (hk : OnSecp256k1 k.x k.y) :
    ∃ (b : Bytes) (s : PrivateKey), PrivateKey.fromBytes b = .ok s ∧ s.publicKey = k := by
  obtain ⟨a, ha⟩ := exists_toPt (valid_aff.mpr hk)
  have hmem : a ∈ AddSubgroup.zmultiples G := by
    have htop : AddSubgroup.zmultiples G = ⊤ := by
      apply AddSubgroup.eq_top_of_card_eq
      rw [Nat.card_zmultiples, addOrderOf_G, card_E]
    rw [htop]; trivial
  obtain ⟨n, hn, hna⟩ : ∃ n : Nat, n < N ∧ n • G = a := by
    obtain ⟨n, hn⟩ := mem_multiples_iff_mem_zmultiples.mpr hmem
    exact ⟨n % N, Nat.mod_lt _ N_prime.pos, by rw [nsmul_mod]; exact hn⟩
  have h0 : 1 ≤ n := by
    rcases Nat.eq_zero_or_pos n with rfl | h
    · rw [zero_nsmul] at hna
      rw [← hna] at ha
      simp at ha
    · exact h
  have hval : fromBE (toBE 32 n) = n := fromBE_toBE _ _ (hn.trans N_lt)
  obtain ⟨s, hs, _, _, hp, _⟩ := privFromBytes_ok (toBE 32 n) (by rw [hval]; exact ⟨toBE_length _ _, h0, hn⟩)
  refine ⟨_, s, hs, ?_⟩
  apply point_injective
  rw [← hp, hval, gen_mul, hna, ha]
  rfl

/-- Non-vacuity of C16_api. -/
example : ∃ ka, PrivateKey.fromBytes (toBE 32 7) = .ok ka := by
  obtain ⟨k, hk, _⟩ := (C14_private_key_iff (toBE 32 7)).mpr (by decide +kernel)
  exact ⟨k, hk⟩

/-- C42: `Point.from_bytes` accepts any 64 bytes as a point, on the curve or not: it makes no membership test. -/
theorem C42_point_from_bytes_unchecked (X Y : Bytes) (hX : X.length = 32) (hY : Y.length = 32) :
    Point.fromBytes (X ++ Y) = .ok (.aff (be X) (be Y))
      ∧ Point.fromBytes (4 :: (X ++ Y)) = .ok (.aff (be X) (be Y)) := by
  rw [be_eq, be_eq]
  constructor
  · unfold Point.fromBytes
    rw [decode_raw X Y hX hY]
  · unfold Point.fromBytes
    rw [(decode_65 4 X Y hX hY _ _).mpr ⟨rfl, rfl, .inl rfl⟩]

/-- C42 (negation of the expected claim): some bytes that denote no point of the curve are accepted. -/
theorem C42_point_on_curve_refuted : ¬ ∀ b p, Point.fromBytes b = .ok p → IsPoint p := by
  intro h
  have h1 := (C42_point_from_bytes_unchecked (toBE 32 1) (toBE 32 1) (by simp) (by simp)).1
  have h2 : OnSecp256k1 _ _ := h _ _ h1
  have h3 := h2.eqn
  unfold Nat.ModEq at h3
  exact absurd h3 (by decide +kernel)

/-- C42: the checked constructor `Point.from_coordinates` accepts exactly the solutions of the curve equation modulo `p`. -/
theorem C42_from_coordinates (x y : Nat) (p : Pt) :
    Point.fromCoordinates x y = .ok p ↔ p = .aff x y ∧ y ^ 2 ≡ x ^ 3 + 7 [MOD p256k1] := by
  have h2 : onCurve x y = true ↔ y ^ 2 ≡ x ^ 3 + 7 [MOD p256k1] := by
    unfold onCurve Nat.ModEq
    rw [p256k1_eq, decide_eq_true_eq, show y * y = y ^ 2 by ring, show x * x * x = x ^ 3 by ring]
  unfold Point.fromCoordinates
  rw [← h2]
  split
  · rename_i h
    simp only [h, and_true, Except.ok.injEq]
    exact eq_comm
  · rename_i h
    simp [raise, h]

/-- C42: both serialisations of a point read back as the same point. -/
theorem C42_point_roundtrip (x y : Nat) (h : OnSecp256k1 x y) :
    Point.fromBytes (Point.rawEncoded x y) = .ok (.aff x y) ∧ Point.fromBytes (Point.rawDecoded x y) = .ok (.aff x y) := by
  constructor
  · have := (decodePoint_iff _ x y h).mpr (denotes_rawCompressed ⟨x, y⟩ h)
    unfold Point.fromBytes
    rw [show Point.rawEncoded x y = PublicKey.rawCompressed ⟨x, y⟩ from rfl, this]
  · unfold Point.fromBytes Point.rawDecoded
    rw [decode_raw _ _ (toBE_length _ _) (toBE_length _ _), fromBE_toBE _ _ h.x_lt, fromBE_toBE _ _ h.y_lt]

end Bip38.Props
