import Verif.Spec.Bip38
import Verif.Lemmas.PublicKey
import Verif.Lemmas.P2pkh
import Verif.Props.Wif
/-! # Lemmas on `bip38/bip38.py` -/
namespace Bip38
open Spec Props

variable {P : Prims}

theorem b2i_eq (b : Bytes) : b2i b = fromBE b := by
  simp [b2i, bytesToInteger]

theorem b2i_be (b : Bytes) : b2i b = be b := by rw [b2i_eq, be_eq]

theorem be_lt (b : Bytes) : be b < 256 ^ b.length := by rw [be_eq]; exact fromBE_lt b

@[simp] theorem bxor_length (a b : Bytes) : (bxor a b).length = min a.length b.length := by simp [bxor]

theorem be_bxor (a b : Bytes) (h : a.length = b.length) : be (bxor a b) = be a ^^^ be b := by
  rw [be_eq, be_eq, be_eq, bxor, ← fromBE_xor a b h]

theorem xorBytes_eq (a b : Bytes) (h : a.length = b.length) : xorBytes a b = .ok (strip (bxor a b)) := by
  unfold xorBytes
  rw [b2i_eq, b2i_eq, fromBE_xor a b h]
  exact integerToBytes_fromBE _

theorem lt_pow_len {b : Bytes} {k : Nat} (h : b.length ≤ k) : fromBE b < 256 ^ k :=
  (fromBE_lt b).trans_le (Nat.pow_le_pow_right (by norm_num) h)

theorem minBE_length_iff (n k : Nat) (hk : 1 ≤ k) : (minBE n).length = k ↔ 256 ^ (k - 1) ≤ n ∧ n < 256 ^ k := by
  have h1 := fromBE_minBE n
  have h0 := head_minBE n
  constructor
  · intro h
    constructor
    · cases hb : minBE n with
      | nil => rw [hb] at h; simp at h; omega
      | cons c t =>
        rw [hb] at h h1 h0
        have hc : c ≠ 0 := by simpa using h0
        have hc' : 1 ≤ c.toNat := by
          rcases Nat.eq_zero_or_pos c.toNat with h2 | h2
          · exact absurd (UInt8.toNat_inj.mp (by simpa using h2)) hc
          · exact h2
        rw [← h1, fromBE_cons]
        simp only [List.length_cons] at h
        have : t.length = k - 1 := by omega
        rw [this]
        nlinarith [Nat.pow_pos (n := k - 1) (show 0 < 256 by norm_num)]
    · rw [← h1, ← h]; exact fromBE_lt _
  · rintro ⟨hlo, hhi⟩
    rcases Nat.lt_trichotomy (minBE n).length k with h | h | h
    · have := lt_pow_len (b := minBE n) (k := k - 1) (by omega)
      rw [h1] at this; omega
    · exact h
    · cases hb : minBE n with
      | nil => rw [hb] at h; simp at h
      | cons c t =>
        rw [hb] at h h1 h0
        have hc : c ≠ 0 := by simpa using h0
        have hc' : 1 ≤ c.toNat := by
          rcases Nat.eq_zero_or_pos c.toNat with h2 | h2
          · exact absurd (UInt8.toNat_inj.mp (by simpa using h2)) hc
          · exact h2
        rw [fromBE_cons] at h1
        simp only [List.length_cons] at h
        have h2 : 256 ^ k ≤ 256 ^ t.length := Nat.pow_le_pow_right (by norm_num) (by omega)
        nlinarith

theorem integerToBytes_nat (n : Nat) : integerToBytes (n : Int) = .ok (strip (minBE n)) := by
  conv_lhs => rw [← fromBE_minBE n]
  exact integerToBytes_fromBE _

theorem strip_minBE (n : Nat) : strip (minBE n) = if n = 0 then [0] else minBE n := by
  have h0 := head_minBE n
  have h1 := fromBE_minBE n
  split
  · rename_i h
    subst h
    rfl
  · rename_i h
    apply strip_of_head _ _ h0
    intro hn; rw [hn] at h1; simp at h1; exact h h1.symm

/-- Value of `integer_to_bytes(a ^ b)`. -/
def xb (a b : Bytes) : Bytes := strip (minBE (be a ^^^ be b))

theorem xorBytes_xb (a b : Bytes) : xorBytes a b = .ok (xb a b) := by
  unfold xorBytes xb
  rw [b2i_be, b2i_be, integerToBytes_nat]

theorem xb_eq (a b : Bytes) (h : a.length = b.length) : xb a b = strip (bxor a b) := by
  have := xorBytes_eq a b h
  rw [xorBytes_xb] at this
  exact Except.ok.inj this

/-- `aes.encrypt(integer_to_bytes(a ^ b))`. -/
theorem aes_xb_ok (k : AES) (a b : Bytes) (h : Maskable a b) : k.encrypt P (xb a b) = .ok (P.aesEncrypt k.key (mask a b)) := by
  unfold xb mask
  unfold Maskable at h
  revert h
  generalize be a ^^^ be b = n
  intro h
  rw [strip_minBE]
  have hl := minBE_length_iff n 16 (by norm_num)
  have h0 : n ≠ 0 := by
    rintro rfl
    exact absurd h.1 (by norm_num)
  have hlen := hl.mpr h
  simp only [bind, Except.bind, AES.encrypt, raiseIf]
  simp only [h0, if_false, hlen]
  have : toBE 16 n = minBE n := by
    conv_lhs => rw [← fromBE_minBE n]
    exact toBE_fromBE' _ hlen
  rw [this]
  simp

theorem aes_xb_err (k : AES) (a b : Bytes) (h : ¬ Maskable a b) :
    k.encrypt P (xb a b) = .error ⟨.valueError, "plaintext block must be 16 bytes"⟩ := by
  unfold xb
  unfold Maskable at h
  revert h
  generalize be a ^^^ be b = n
  intro h
  rw [strip_minBE]
  have hl := minBE_length_iff n 16 (by norm_num)
  have hlen : (if n = 0 then ([0] : Bytes) else minBE n).length ≠ 16 := by
    split
    · simp
    · exact fun h' => h (hl.mp h')
  simp only [bind, Except.bind, AES.encrypt, raiseIf]
  rw [if_pos hlen]

/-- For two 16-byte strings, `Maskable` means that the first bytes differ. -/
theorem mask_eq (a b : Bytes) (ha : a.length = 16) (hb : b.length = 16) : mask a b = bxor a b := by
  unfold mask
  rw [← be_bxor a b (ha.trans hb.symm), be_eq]
  exact toBE_fromBE' _ (by simp [ha, hb])

theorem head_iff_ge (l : Bytes) (k : Nat) (hl : l.length = k + 1) : l.head? ≠ some 0 ↔ 256 ^ k ≤ be l := by
  cases l with
  | nil => simp at hl
  | cons c t =>
    have ht : t.length = k := by simpa using hl
    rw [be, ht]
    have hlt := be_lt t
    rw [ht] at hlt
    have hz : c = 0 ↔ c.toNat = 0 := by
      rw [← UInt8.toNat_inj]; simp
    simp only [List.head?_cons, ne_eq, Option.some.injEq, hz]
    constructor
    · intro h
      have : 1 ≤ c.toNat := by omega
      nlinarith
    · intro h h0
      rw [h0] at h
      simp at h
      omega

theorem maskable_iff (a b : Bytes) (ha : a.length = 16) (hb : b.length = 16) :
    Maskable a b ↔ (bxor a b).head? ≠ some 0 := by
  have hl : (bxor a b).length = 16 := by simp [ha, hb]
  unfold Maskable
  rw [← be_bxor a b (ha.trans hb.symm), head_iff_ge _ 15 hl]
  have := be_lt (bxor a b)
  rw [hl] at this
  exact ⟨fun h => h.1, fun h => ⟨h, this⟩⟩

theorem head_bxor (a b : Bytes) : (bxor a b).head? = some 0 ↔ a ≠ [] ∧ b ≠ [] ∧ a.head? = b.head? := by
  cases a with
  | nil => simp [bxor]
  | cons c t => cases b with
    | nil => simp [bxor]
    | cons d u => simp [bxor, UInt8.xor_eq_zero_iff]

theorem bxor_bxor (a b : Bytes) (h : a.length = b.length) : bxor (bxor a b) b = a := by
  induction a generalizing b with
  | nil => simp [bxor]
  | cons c t ih => cases b with
    | nil => simp at h
    | cons d u =>
      have := ih u (by simpa using h)
      simp only [bxor, List.zipWith_cons_cons] at this ⊢
      rw [this]
      simp [UInt8.xor_assoc]

theorem bxor_append (a b c d : Bytes) (h : a.length = c.length) : bxor (a ++ b) (c ++ d) = bxor a c ++ bxor b d := by
  simp [bxor, List.zipWith_append h]

theorem bxor_injective {a b c : Bytes} (ha : a.length = c.length) (hb : b.length = c.length) (h : bxor a c = bxor b c) : a = b := by
  rw [← bxor_bxor a c ha, h, bxor_bxor b c hb]

theorem AES.new_ok (k : Bytes) (h : k.length = 32) : AES.new k = .ok ⟨k⟩ := by
  simp [AES.new, raiseIf, h, bind, Except.bind]

theorem AES.decrypt_ok (k : AES) (b : Bytes) (h : b.length = 16) : k.decrypt P b = .ok (P.aesDecrypt k.key b) := by
  simp [AES.decrypt, raiseIf, h, bind, Except.bind]

theorem slice_mid {α : Type} {l : List α} (a b t : List α) {i j : Nat} (h : l = a ++ (b ++ t)) (ha : a.length = i)
    (hb : i + b.length = j) : slice i j l = b := by
  subst h ha hb
  unfold slice
  rw [List.take_length_add_append, List.take_left', List.drop_left]
  rfl

/-! ### Constants -/
theorem c_noEc : integerToBytes (NO_EC_MULTIPLIED_PRIVATE_KEY_PREFIX : Nat) = .ok [0x01, 0x42] := by decide +kernel
theorem c_ec : integerToBytes (EC_MULTIPLIED_PRIVATE_KEY_PREFIX : Nat) = .ok [0x01, 0x43] := by decide +kernel
theorem c_flagU : integerToBytes (NO_EC_MULTIPLIED_WIF_FLAG : Nat) = .ok [0xc0] := by decide +kernel
theorem c_flagC : integerToBytes (NO_EC_MULTIPLIED_WIF_COMPRESSED_FLAG : Nat) = .ok [0xe0] := by decide +kernel
theorem c_magicLot : integerToBytes (MAGIC_LOT_AND_SEQUENCE : Nat) = .ok (magicBytes true) := by decide +kernel
theorem c_magicNo : integerToBytes (MAGIC_NO_LOT_AND_SEQUENCE : Nat) = .ok (magicBytes false) := by decide +kernel
theorem c_04 : integerToBytes (MAGIC_LOT_AND_SEQUENCE_UNCOMPRESSED_FLAG : Nat) = .ok [0x04] := by decide +kernel
theorem c_24 : integerToBytes (MAGIC_LOT_AND_SEQUENCE_COMPRESSED_FLAG : Nat) = .ok [0x24] := by decide +kernel
theorem c_00 : integerToBytes (MAGIC_NO_LOT_AND_SEQUENCE_UNCOMPRESSED_FLAG : Nat) = .ok [0x00] := by decide +kernel
theorem c_20 : integerToBytes (MAGIC_NO_LOT_AND_SEQUENCE_COMPRESSED_FLAG : Nat) = .ok [0x20] := by decide +kernel
theorem c_conf : integerToBytes (CONFIRMATION_CODE_PREFIX : Nat) = .ok [0x64, 0x3b, 0xf6, 0xa8, 0x9a] := by decide +kernel

/-! ### Network selection -/
section
variable {self : BIP38} {network : Option String} {c : Coin} {n : String} {v : Net}

theorem new_ok_iff {c : Coin} {n0 : String} {self : BIP38} (h : BIP38.new (.coin c) n0 = .ok self) :
    n0 ∈ c.networkNames ∧ self.cryptocurrency = c ∧ self.networks = c.networkNames ∧ self.network = n0 := by
  unfold BIP38.new at h
  by_cases hm : n0 ∈ c.networkNames
  · simp only [bind, Except.bind, raiseIf, hm, not_true_eq_false, if_false] at h
    have h := Except.ok.inj h
    subst h
    exact ⟨hm, rfl, rfl, rfl⟩
  · simp [bind, Except.bind, raiseIf, hm] at h

theorem Spec.Selects.coin (h : Selects self network c n v) : self.cryptocurrency = c := by
  obtain ⟨n0, h0⟩ := h.built
  exact (new_ok_iff h0).2.1

theorem Spec.Selects.networks (h : Selects self network c n v) : self.networks = c.networkNames := by
  obtain ⟨n0, h0⟩ := h.built
  exact (new_ok_iff h0).2.2.1

theorem Spec.Selects.select (h : Selects self network c n v) : self.selectNetwork network = n := by
  rw [h.chosen]
  unfold BIP38.selectNetwork
  cases network with
  | none => simp
  | some m => by_cases hm : m = "" <;> simp [hm]

theorem Spec.Selects.mem (h : Selects self network c n v) : n ∈ self.networks := by
  rw [h.networks]
  exact List.mem_map.mpr ⟨(n, v), h.found, rfl⟩

theorem Spec.Selects.net (h : Selects self network c n v) : c.net? n = some v := (C36_lookup c h.proper n v).mpr h.found

theorem Spec.Selects.lookup (h : Selects self network c n v) : lookupNet self.cryptocurrency n = .ok v := by
  rw [h.coin]; exact lookupNet_ok h.net

theorem Spec.Selects.wif (h : Selects self network c n v) (key : Bytes) (hk : key.length = 32) (type : String)
    (ht : IsWifType type) : privateKeyToWif P (.bytes key) type self.cryptocurrency n = .ok (wifText P v key type) := by
  rw [h.coin]; exact C07_wif_text P c n v h.net key hk type ht
end

theorem p2pkh_text {v : Net} (pk : PublicKey) (type : String) :
    p2pkhEncode P (.key pk) v.addressPrefix type = .ok (addressText P v pk type) := by
  rw [p2pkhEncode_key pk v.addressPrefix _ (integerToBytes_prefix _)]
  rfl

theorem addressHash_length (hP : P.Lawful) (v : Net) (pk : PublicKey) (type : String) :
    (addressHash P v pk type).length = 4 := checksum_length hP _

theorem stretch_eq (p : Str) (salt : Bytes) (len : Nat) : scryptPassphrase P p salt len = stretch P p salt len := rfl

theorem stretch_length (hP : P.Lawful) (p : Str) (salt : Bytes) (len : Nat) : (stretch P p salt len).length = len :=
  hP.scrypt_length _ _ _ _ _ _

theorem ecDerive_length (hP : P.Lawful) (a b c : Bytes) : (ecDerive P a b c).length = 64 := hP.scrypt_length _ _ _ _ _ _

theorem isPublicKeyOf_iff (pk : PublicKey) (key : Bytes) : IsPublicKeyOf pk key ↔ gen.mul (fromBE key) = pk.point := by
  unfold IsPublicKeyOf
  rw [be_eq, mul_eq_times gen gen_valid]
  exact eq_comm

/-- `PrivateKey.from_bytes` of a valid key. -/
theorem priv_ok (key : Bytes) (h : IsPrivateKey key) :
    ∃ pk, IsPublicKeyOf pk key ∧ OnSecp256k1 pk.x pk.y ∧ PrivateKey.fromBytes key = .ok ⟨be key, pk⟩ := by
  obtain ⟨h1, h2, h3⟩ := h
  rw [be_eq] at h2 h3
  rw [n256k1_eq] at h3
  obtain ⟨k, hk, hs, _, hp, hv⟩ := privFromBytes_ok key ⟨h1, h2, h3⟩
  refine ⟨k.publicKey, (isPublicKeyOf_iff _ _).mpr hp, hv, ?_⟩
  rw [hk, be_eq, ← hs]
  rfl

theorem isPublicKeyOf_unique {pk pk' : PublicKey} {key : Bytes} (h : IsPublicKeyOf pk key) (h' : IsPublicKeyOf pk' key) :
    pk = pk' := by
  rw [isPublicKeyOf_iff] at h h'
  exact point_injective (h.symm.trans h')

theorem isPrivateKey_iff (key : Bytes) : IsPrivateKey key ↔ key.length = 32 ∧ 1 ≤ fromBE key ∧ fromBE key < N := by
  unfold IsPrivateKey; rw [be_eq, n256k1_eq]

end Bip38
