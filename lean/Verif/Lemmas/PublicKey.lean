import Verif.Lemmas.CurveOrder
import Verif.Lemmas.Bytes
import Verif.Spec.Curve
/-! # Encodings of points, private keys -/
namespace Bip38
open Spec

theorem p256k1_eq : p256k1 = fieldP := by decide +kernel
theorem n256k1_eq : n256k1 = N := by decide +kernel

theorem validXY_iff (x y : Nat) : validXY x y = true ↔ OnSecp256k1 x y := by
  have h2 : onCurve x y = true ↔ y ^ 2 ≡ x ^ 3 + 7 [MOD p256k1] := by
    unfold onCurve Nat.ModEq
    rw [p256k1_eq, decide_eq_true_eq, show y * y = y ^ 2 by ring, show x * x * x = x ^ 3 by ring]
  unfold validXY
  rw [Bool.and_eq_true, Bool.and_eq_true, decide_eq_true_eq, decide_eq_true_eq, h2]
  constructor
  · rintro ⟨⟨a, b⟩, c⟩
    exact ⟨by rw [p256k1_eq]; exact a, by rw [p256k1_eq]; exact b, c⟩
  · rintro ⟨a, b, c⟩
    rw [p256k1_eq] at a b
    exact ⟨⟨a, b⟩, c⟩

theorem valid_aff {x y : Nat} : (Pt.aff x y).Valid ↔ OnSecp256k1 x y := by
  rw [← validXY_iff]
  unfold validXY Pt.Valid
  rw [Bool.and_eq_true, Bool.and_eq_true, decide_eq_true_eq, decide_eq_true_eq]
  tauto

theorem valid_iff (p : Pt) : p.Valid ↔ IsPoint p := by
  cases p with
  | inf => exact Iff.rfl
  | aff x y => exact valid_aff

theorem fieldP_sqrt_exp : (fieldP + 1) / 4 * 2 = (fieldP - 1) / 2 + 1 := by decide +kernel
theorem fieldP_half : 2 * ((fieldP - 1) / 2) = fieldP - 1 := by decide +kernel

theorem sqrtMod_lt {a r : Nat} (h : sqrtMod a = some r) : r < fieldP := by
  simp only [sqrtMod] at h
  split at h
  · rw [← Option.some.inj h, powMod_eq _ _ _ fieldP_pos]
    exact Nat.mod_lt _ fieldP_pos
  · simp at h

theorem sqrtMod_sq {a r : Nat} (h : sqrtMod a = some r) : (r : Fp) ^ 2 = (a : Fp) := by
  simp only [sqrtMod] at h
  split at h
  · rename_i h2
    rw [← Option.some.inj h]
    rw [← ZMod.natCast_eq_natCast_iff'] at h2
    rw [← h2]; push_cast; ring
  · simp at h

theorem sqrtMod_of_sq {a : Nat} {y : Fp} (h : y ^ 2 = (a : Fp)) : ∃ r, sqrtMod a = some r := by
  unfold sqrtMod
  simp only
  rw [if_pos]
  · exact ⟨_, rfl⟩
  · rw [← ZMod.natCast_eq_natCast_iff', powMod_eq _ _ _ fieldP_pos]
    push_cast
    rw [cast_mod, Nat.cast_pow, ← h, ← pow_add, ← two_mul, mul_comm 2, fieldP_sqrt_exp, pow_succ, ← pow_mul]
    rw [fieldP_half]
    by_cases hy : y = 0
    · subst hy; simp
    · rw [ZMod.pow_card_sub_one_eq_one hy, one_mul]

/-- Compressed decoding. -/
theorem decode_compressed (c : UInt8) (X : Bytes) (hX : X.length = 32) (x y : Nat) (hv : validXY x y = true) :
    decodePoint (c :: X) = some (x, y) ↔ x = fromBE X ∧ c = (if y % 2 = 0 then 2 else 3) := by
  have hlen : (c :: X).length = 33 := by simp [hX]
  have hv' := hv
  unfold validXY at hv'
  rw [Bool.and_eq_true, Bool.and_eq_true, decide_eq_true_eq, decide_eq_true_eq] at hv'
  obtain ⟨⟨hx, hy⟩, hc⟩ := hv'
  have hc := (onCurve_iff x y).mp hc
  have hy0 : ((y : Nat) : Fp) ≠ 0 := y_ne_zero hc
  unfold decodePoint
  simp only [hlen]
  rw [if_neg (by decide), if_neg (by decide), if_pos trivial]
  have podd := fieldP_odd
  constructor
  · intro h
    split at h
    · rename_i hc23
      cases hs : sqrtMod ((fromBE X * fromBE X * fromBE X + 7) % fieldP) with
      | none => rw [hs] at h; simp at h
      | some beta =>
        have hb := sqrtMod_lt hs
        rw [hs] at h
        simp only at h
        split at h
        · rename_i hp
          simp only [Option.some.injEq, Prod.mk.injEq] at h
          refine ⟨h.1.symm, ?_⟩
          rcases hc23 with rfl | rfl
          · have : beta % 2 = 1 := hp.mp rfl
            rw [if_pos (by omega)]
          · have : ¬ beta % 2 = 1 := fun h1 => absurd (hp.mpr h1) (by decide)
            rw [if_neg (by omega)]
        · rename_i hp
          simp only [Option.some.injEq, Prod.mk.injEq] at h
          refine ⟨h.1.symm, ?_⟩
          rcases hc23 with rfl | rfl
          · have : ¬ beta % 2 = 1 := fun h1 => hp ⟨fun _ => h1, fun _ => rfl⟩
            rw [if_pos (by omega)]
          · have : beta % 2 = 1 := by
              by_contra h1
              exact hp ⟨fun h => absurd h (by decide), fun h => absurd h h1⟩
            rw [if_neg (by omega)]
    · simp at h
  · rintro ⟨rfl, rfl⟩
    have hsq : ((y : Nat) : Fp) ^ 2 = (((fromBE X * fromBE X * fromBE X + 7) % fieldP : Nat) : Fp) := by
      rw [cast_mod, hc]; push_cast; ring
    obtain ⟨beta, hs⟩ := sqrtMod_of_sq hsq
    have hb := sqrtMod_lt hs
    have hb2 := sqrtMod_sq hs
    rw [← hsq] at hb2
    have hor : beta = y ∨ beta = fieldP - y := by
      rcases eq_or_neg_of_sq hb2 with h | h
      · exact .inl ((natCast_inj hb hy).mp h)
      · right
        rw [← cast_sub_p hy.le] at h
        have h0 : y ≠ 0 := by rintro rfl; simp at hy0
        exact (natCast_inj hb (by omega)).mp h
    have h0 : y ≠ 0 := by rintro rfl; simp at hy0
    rw [if_pos (by split <;> simp), hs]
    simp only
    have hif : ((if y % 2 = 0 then (2:UInt8) else 3) = 2) ↔ y % 2 = 0 := by
      split <;> simp_all
    simp only [hif]
    rcases hor with rfl | rfl
    · rw [if_neg (by omega)]
    · rw [if_pos (by omega), show fieldP - (fieldP - y) = y by omega]

theorem decode_raw (X Y : Bytes) (hX : X.length = 32) (hY : Y.length = 32) :
    decodePoint (X ++ Y) = some (fromBE X, fromBE Y) := by
  unfold decodePoint
  simp only [List.length_append, hX, hY]
  rw [if_pos trivial, List.take_left' hX, List.drop_left' hX]

theorem decode_65 (c : UInt8) (X Y : Bytes) (hX : X.length = 32) (hY : Y.length = 32) (x y : Nat) :
    decodePoint (c :: (X ++ Y)) = some (x, y) ↔
      x = fromBE X ∧ y = fromBE Y ∧ (c = 4 ∨ c = (if y % 2 = 0 then 6 else 7)) := by
  unfold decodePoint
  simp only [List.length_cons, List.length_append, hX, hY]
  rw [if_neg (by decide), if_pos trivial]
  split
  · rename_i heq
    simp only [List.cons.injEq] at heq
    obtain ⟨rfl, rfl⟩ := heq
    rw [List.take_left' hX, List.drop_left' hX]
    simp only [Option.some.injEq, Prod.mk.injEq, true_or, and_true]
    exact ⟨fun h => ⟨h.1.symm, h.2.symm⟩, fun h => ⟨h.1.symm, h.2.symm⟩⟩
  · rename_i heq
    simp only [List.cons.injEq] at heq
    obtain ⟨rfl, rfl⟩ := heq
    rw [List.take_left' hX, List.drop_left' hX]
    split
    · rename_i h0
      simp only [Option.some.injEq, Prod.mk.injEq]
      constructor
      · rintro ⟨rfl, rfl⟩; exact ⟨rfl, rfl, .inr (by rw [if_pos h0])⟩
      · rintro ⟨rfl, rfl, _⟩; exact ⟨rfl, rfl⟩
    · rename_i h0
      simp only [reduceCtorEq, false_iff]
      rintro ⟨rfl, rfl, h⟩
      rw [if_neg h0] at h
      exact absurd h (by decide)
  · rename_i heq
    simp only [List.cons.injEq] at heq
    obtain ⟨rfl, rfl⟩ := heq
    rw [List.take_left' hX, List.drop_left' hX]
    split
    · rename_i h0
      simp only [Option.some.injEq, Prod.mk.injEq]
      constructor
      · rintro ⟨rfl, rfl⟩; exact ⟨rfl, rfl, .inr (by rw [if_neg (by omega)])⟩
      · rintro ⟨rfl, rfl, _⟩; exact ⟨rfl, rfl⟩
    · rename_i h0
      simp only [reduceCtorEq, false_iff]
      rintro ⟨rfl, rfl, h⟩
      rw [if_pos (by omega)] at h
      exact absurd h (by decide)
  · rename_i h4 h6 h7
    simp only [reduceCtorEq, false_iff]
    rintro ⟨_, _, rfl | rfl⟩
    · exact h4 _ rfl
    · by_cases h0 : y % 2 = 0
      · rw [if_pos h0] at h6; exact h6 _ rfl
      · rw [if_neg h0] at h7; exact h7 _ rfl

/-- Which byte strings decode to a given point of the curve. -/
theorem decodePoint_iff (b : Bytes) (x y : Nat) (hv : OnSecp256k1 x y) :
    decodePoint b = some (x, y) ↔ Denotes b x y := by
  have hv' := (validXY_iff x y).mpr hv
  constructor
  · intro h
    by_cases h64 : b.length = 64
    · have hX : (b.take 32).length = 32 := by simp [h64]
      have hY : (b.drop 32).length = 32 := by simp [h64]
      rw [← List.take_append_drop 32 b, decode_raw _ _ hX hY] at h
      simp only [Option.some.injEq, Prod.mk.injEq] at h
      have := Denotes.raw hX hY ((be_eq _).trans h.1) ((be_eq _).trans h.2)
      rwa [List.take_append_drop] at this
    · by_cases h65 : b.length = 65
      · cases b with
        | nil => simp at h65
        | cons c t =>
          have ht : t.length = 64 := by simpa using h65
          have hX : (t.take 32).length = 32 := by simp [ht]
          have hY : (t.drop 32).length = 32 := by simp [ht]
          rw [← List.take_append_drop 32 t] at h ⊢
          rw [decode_65 c _ _ hX hY] at h
          obtain ⟨h1, h2, rfl | rfl⟩ := h
          · exact .uncompressed hX hY ((be_eq _).trans h1.symm) ((be_eq _).trans h2.symm)
          · exact .hybrid hX hY ((be_eq _).trans h1.symm) ((be_eq _).trans h2.symm)
      · by_cases h33 : b.length = 33
        · cases b with
          | nil => simp at h33
          | cons c t =>
            have ht : t.length = 32 := by simpa using h33
            rw [decode_compressed c t ht x y hv'] at h
            obtain ⟨h1, rfl⟩ := h
            exact .compressed ht ((be_eq _).trans h1.symm)
        · unfold decodePoint at h
          simp only [h64, h65, h33, if_false, reduceCtorEq] at h
  · intro h
    cases h with
    | compressed hX hx => exact (decode_compressed _ _ hX x y hv').mpr ⟨by rw [← hx, be_eq], rfl⟩
    | uncompressed hX hY hx hy =>
      exact (decode_65 _ _ _ hX hY x y).mpr ⟨by rw [← hx, be_eq], by rw [← hy, be_eq], .inl rfl⟩
    | hybrid hX hY hx hy =>
      exact (decode_65 _ _ _ hX hY x y).mpr ⟨by rw [← hx, be_eq], by rw [← hy, be_eq], .inr rfl⟩
    | raw hX hY hx hy => rw [decode_raw _ _ hX hY, ← be_eq, ← be_eq, hx, hy]

theorem fromBytes_iff (b : Bytes) (k : PublicKey) :
    PublicKey.fromBytes b = .ok k ↔ Denotes b k.x k.y ∧ OnSecp256k1 k.x k.y := by
  unfold PublicKey.fromBytes
  constructor
  · intro h
    split at h
    · rename_i x y hd
      split at h
      · rename_i hv
        have hk : (⟨x, y⟩ : PublicKey) = k := by simpa using h
        subst hk
        have hv := (validXY_iff x y).mp hv
        exact ⟨(decodePoint_iff b x y hv).mp hd, hv⟩
      · simp [raise] at h
    · simp [raise] at h
  · rintro ⟨hd, hv⟩
    rw [(decodePoint_iff b k.x k.y hv).mpr hd]
    simp only
    rw [if_pos ((validXY_iff _ _).mpr hv)]

theorem fromBytes_error (b : Bytes) (e : Exc) (h : PublicKey.fromBytes b = .error e) : e.cls = .secp256k1Error := by
  unfold PublicKey.fromBytes at h
  split at h
  · split at h
    · simp at h
    · simp [raise] at h; rw [← h]
  · simp [raise] at h; rw [← h]

theorem fieldP_lt : fieldP < 256 ^ 32 := by decide +kernel
theorem N_lt : N < 256 ^ 32 := by decide +kernel

theorem Spec.OnSecp256k1.x_lt {x y : Nat} (h : OnSecp256k1 x y) : x < 256 ^ 32 := by
  have := h.hx; rw [p256k1_eq] at this; exact this.trans fieldP_lt
theorem Spec.OnSecp256k1.y_lt {x y : Nat} (h : OnSecp256k1 x y) : y < 256 ^ 32 := by
  have := h.hy; rw [p256k1_eq] at this; exact this.trans fieldP_lt

theorem denotes_rawCompressed (k : PublicKey) (h : OnSecp256k1 k.x k.y) : Denotes k.rawCompressed k.x k.y := by
  have h1 := Denotes.compressed (X := toBE 32 k.x) (x := k.x) (y := k.y) (toBE_length 32 k.x)
    ((be_eq _).trans (fromBE_toBE 32 _ h.x_lt))
  unfold PublicKey.rawCompressed
  rcases Nat.mod_two_eq_zero_or_one k.y with hk | hk <;> simpa [hk] using h1

theorem denotes_rawUncompressed (k : PublicKey) (h : OnSecp256k1 k.x k.y) : Denotes k.rawUncompressed k.x k.y :=
  .uncompressed (toBE_length 32 k.x) (toBE_length 32 k.y)
    ((be_eq _).trans (fromBE_toBE 32 _ h.x_lt)) ((be_eq _).trans (fromBE_toBE 32 _ h.y_lt))

theorem fromBytes_rawCompressed (k : PublicKey) (h : OnSecp256k1 k.x k.y) :
    PublicKey.fromBytes k.rawCompressed = .ok k :=
  (fromBytes_iff _ _).mpr ⟨denotes_rawCompressed k h, h⟩

theorem rawCompressed_length (k : PublicKey) : k.rawCompressed.length = 33 := by
  simp [PublicKey.rawCompressed]

theorem rawUncompressed_length (k : PublicKey) : k.rawUncompressed.length = 65 := by
  simp [PublicKey.rawUncompressed]

/-! ### Private keys -/

/-- The public key (affine point) of the scalar `n`. -/
theorem exists_pub {n : Nat} (h1 : 1 ≤ n) (h2 : n < N) : ∃ k : PublicKey, gen.mul n = k.point := by
  rw [gen_mul]
  have h0 : n • G ≠ 0 := by
    rw [Ne, nsmul_eq_zero_iff G_ne_zero]
    intro hd
    have := Nat.le_of_dvd (by omega) hd
    omega
  cases h : n • G with
  | zero => exact absurd h h0
  | some x y hxy => exact ⟨⟨x.val, y.val⟩, rfl⟩

theorem point_injective {k k' : PublicKey} (h : k.point = k'.point) : k = k' := by
  cases k; cases k'
  simp only [PublicKey.point, Pt.aff.injEq] at h
  obtain ⟨rfl, rfl⟩ := h
  rfl

theorem pub_valid {n : Nat} {k : PublicKey} (h : gen.mul n = k.point) : OnSecp256k1 k.x k.y := by
  have := valid_toPt (n • G)
  rw [← gen_mul, h] at this
  exact valid_aff.mp this

theorem privFromBytes_iff (b : Bytes) (k : PrivateKey) :
    PrivateKey.fromBytes b = .ok k ↔
      b.length = 32 ∧ 1 ≤ fromBE b ∧ fromBE b < N ∧ k.secexp = fromBE b ∧ gen.mul (fromBE b) = k.verifying.point := by
  unfold PrivateKey.fromBytes
  have hl : PRIVATE_KEY_LENGTH = 32 := rfl
  rw [hl]
  by_cases h32 : b.length = 32
  · rw [if_neg (by simp [h32])]
    by_cases hr : 1 ≤ fromBE b ∧ fromBE b < N
    · rw [if_pos hr]
      obtain ⟨pk, hpk⟩ := exists_pub hr.1 hr.2
      rw [hpk]
      simp only [PublicKey.point]
      constructor
      · intro h
        have h := Except.ok.inj h
        subst h
        exact ⟨h32, hr.1, hr.2, rfl, rfl⟩
      · rintro ⟨_, _, _, h1, h2⟩
        cases k with
        | mk s v =>
          cases pk; cases v
          simp only [Pt.aff.injEq] at h1 h2
          obtain ⟨rfl, rfl⟩ := h2
          subst h1
          rfl
    · rw [if_neg hr]
      simp only [raise, reduceCtorEq, false_iff]
      tauto
  · rw [if_pos (by simpa using h32)]
    simp only [raise, reduceCtorEq, false_iff]
    tauto

theorem privFromBytes_error (b : Bytes) (h : ¬ (b.length = 32 ∧ 1 ≤ fromBE b ∧ fromBE b < N)) :
    PrivateKey.fromBytes b = raise .secp256k1Error "Invalid private key bytes" := by
  unfold PrivateKey.fromBytes
  have hl : PRIVATE_KEY_LENGTH = 32 := rfl
  rw [hl]
  by_cases h32 : b.length = 32
  · rw [if_neg (by simp [h32]), if_neg (by tauto)]
  · rw [if_pos (by simpa using h32)]

theorem privFromBytes_ok (b : Bytes) (h : b.length = 32 ∧ 1 ≤ fromBE b ∧ fromBE b < N) :
    ∃ k : PrivateKey, PrivateKey.fromBytes b = .ok k ∧ k.secexp = fromBE b ∧ k.raw = b
      ∧ gen.mul (fromBE b) = k.publicKey.point ∧ OnSecp256k1 k.publicKey.x k.publicKey.y := by
  obtain ⟨pk, hpk⟩ := exists_pub h.2.1 h.2.2
  refine ⟨⟨fromBE b, pk⟩, (privFromBytes_iff _ _).mpr ⟨h.1, h.2.1, h.2.2, rfl, hpk⟩, rfl, ?_, hpk, pub_valid hpk⟩
  exact toBE_fromBE' b h.1

/-! ### Points -/

theorem times_toPt (k : Nat) (a : E) : times k (toPt a) = toPt (k • a) := by
  induction k with
  | zero => simp [times]
  | succ k ih => rw [times, ih, add_toPt, succ_nsmul]

theorem mul_eq_times (p : Pt) (hp : p.Valid) (k : Nat) : p.mul k = times k p := by
  obtain ⟨a, rfl⟩ := exists_toPt hp
  rw [mul_toPt, times_toPt]

theorem mul_valid (p : Pt) (hp : p.Valid) (k : Nat) : (p.mul k).Valid := by
  obtain ⟨a, rfl⟩ := exists_toPt hp
  rw [mul_toPt]; exact valid_toPt _

theorem gen_mul_mul (a b : Nat) : (gen.mul a).mul b = gen.mul (a * b % N) := by
  rw [gen_mul, gen_mul, mul_toPt, nsmul_mod, mul_comm, mul_nsmul']

theorem fromPoint_point (k : PublicKey) (h : OnSecp256k1 k.x k.y) : PublicKey.fromPoint k.point = .ok k := by
  have h' := valid_aff.mpr h
  unfold PublicKey.fromPoint PublicKey.point
  simp only
  rw [if_pos h'.2.2, if_pos ⟨h'.1, h'.2.1⟩]

/-- Any point of the curve times a scalar not divisible by the order is an affine point. -/
theorem exists_mul (k : PublicKey) (h : OnSecp256k1 k.x k.y) {n : Nat} (hn : 1 ≤ n) (hn2 : n < N) :
    ∃ q : PublicKey, k.point.mul n = q.point ∧ OnSecp256k1 q.x q.y := by
  obtain ⟨a, ha⟩ := exists_toPt (valid_aff.mpr h)
  have ha' : toPt a = k.point := ha
  have hv := mul_valid _ (valid_aff.mpr h) n
  have h0 : a ≠ 0 := by rintro rfl; simp [PublicKey.point] at ha'
  have h1 : n • a ≠ 0 := by
    rw [Ne, nsmul_eq_zero_iff h0]
    intro hd
    have := Nat.le_of_dvd (by omega) hd
    omega
  have hm : k.point.mul n = toPt (n • a) := by rw [← ha', mul_toPt]
  cases hq : n • a with
  | zero => exact absurd hq h1
  | some x y hxy =>
    rw [hq] at hm
    refine ⟨⟨x.val, y.val⟩, hm, ?_⟩
    have := valid_toPt (n • a)
    rw [hq] at this
    exact valid_aff.mp this

end Bip38
