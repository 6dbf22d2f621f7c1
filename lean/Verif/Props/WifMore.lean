import Verif.Lemmas.Create
import Verif.Props.Encoding
import Verif.Props.Wif
/-!
# Property C49: the WIF functions on any prefix, unknown networks, agreement of the readers
-/
namespace Bip38.Props
open Bip38 Spec

variable (P : Prims)

/-- C49: an unknown network is a `KeyError` in every WIF function (in `private_key_to_wif` after the check of the type). -/
theorem C49_unknown_network (c : Coin) (n : String) (hn : ∀ v, c.net? n ≠ some v) (d : Data) (type : String) (ht : IsWifType type)
    (w : Str) :
    (∃ e, privateKeyToWif P d type c n = .error e ∧ e.cls = .keyError)
      ∧ (∃ e, wifToPrivateKey w c n = .error e ∧ e.cls = .keyError)
      ∧ (∃ e, getWifType w c n = .error e ∧ e.cls = .keyError)
      ∧ (∃ e, getWifChecksum w c n = .error e ∧ e.cls = .keyError) := by
  have h0 : c.net? n = none := by
    cases h : c.net? n with
    | none => rfl
    | some v => exact absurd h (hn v)
  have hl : lookupNet c n = .error ⟨.keyError, n⟩ := by simp [lookupNet, h0, raise]
  have ht' : type ∈ WIF_TYPES := by rcases ht with rfl | rfl <;> decide
  refine ⟨⟨⟨.keyError, n⟩, ?_, rfl⟩, ⟨⟨.keyError, n⟩, ?_, rfl⟩, ⟨⟨.keyError, n⟩, ?_, rfl⟩, ⟨⟨.keyError, n⟩, ?_, rfl⟩⟩
  · unfold privateKeyToWif; rw [hl]; simp [raiseIf, ht', bind, Except.bind]
  · unfold wifToPrivateKey; rw [hl]; rfl
  · unfold getWifType; rw [hl]; rfl
  · unfold getWifChecksum; rw [hl]; rfl

example : (∀ v, Coins.Bitcoin.net? "nonet" ≠ some v) ∧ IsWifType "wif" :=
  ⟨by intro v; rw [show Coins.Bitcoin.net? "nonet" = none by decide]; simp, .inl rfl⟩

/-- C49: the three readers accept the same texts and raise the same errors. -/
theorem C49_readers_agree (w : Str) (c : Coin) (n : String) :
    (∃ key type chk, wifToPrivateKey w c n = .ok (hex key) ∧ getWifType w c n = .ok type ∧ getWifChecksum w c n = .ok (hex chk)
        ∧ key.length = 32 ∧ chk.length = 4 ∧ IsWifType type)
      ∨ ∃ e, wifToPrivateKey w c n = .error e ∧ getWifType w c n = .error e ∧ getWifChecksum w c n = .error e := by
  unfold wifToPrivateKey getWifType getWifChecksum
  cases hl : lookupNet c n with
  | error e => exact .inr ⟨e, rfl, rfl, rfl⟩
  | ok v =>
    simp only [bind, Except.bind]
    obtain ⟨pre, hpre, _, _⟩ := integerToBytes_ok v.wifPrefix
    cases hd : decodeWif w (v.wifPrefix : Int) with
    | error e => exact .inr ⟨e, rfl, rfl, rfl⟩
    | ok r =>
      obtain ⟨key, type, chk⟩ := r
      obtain ⟨h1, h2, h3⟩ := (decodeWif_ok_iff w v.wifPrefix pre hpre key chk type).mp hd
      refine .inl ⟨key, type, chk, by simp, rfl, by simp, h1, h2, ?_⟩
      rcases h3 with ⟨rfl, _⟩ | ⟨rfl, _⟩
      · exact .inl rfl
      · exact .inr rfl

/-- C49: `encode_wif` and `decode_wif` with any natural number as prefix (not only one byte): both texts are read back, with the
checksum of the payload; the prefix is written as its big-endian bytes. -/
theorem C49_any_prefix (hP : P.Lawful) (n : Nat) (key : Bytes) (hk : key.length = 32) :
    ∃ (pre : Bytes) (w wc : Str), be pre = n ∧ (pre.head? = some 0 → pre = [0])
      ∧ encodeWif P (.bytes key) (n : Int) = .ok (w, wc)
      ∧ b58decode w = .ok (pre ++ key ++ checksum P (pre ++ key))
      ∧ b58decode wc = .ok (pre ++ key ++ [1] ++ checksum P (pre ++ key ++ [1]))
      ∧ decodeWif w (n : Int) = .ok (key, "wif", checksum P (pre ++ key))
      ∧ decodeWif wc (n : Int) = .ok (key, "wif-compressed", checksum P (pre ++ key ++ [1])) := by
  obtain ⟨b, _, hb⟩ := exists_bytes n
  have hpre : integerToBytes (n : Int) = .ok (strip b) := by rw [← hb]; exact integerToBytes_fromBE b
  refine ⟨strip b, _, _, by rw [be_eq, fromBE_strip, hb], ?_, encodeWif_bytes key hk n _ hpre, dec_enc _, dec_enc _, ?_, ?_⟩
  · unfold strip
    split
    · simp
    · rename_i h
      intro h0
      have := List.head?_dropWhile_not (fun x : UInt8 => x == 0) b
      rw [h0] at this
      simp at this
  · exact decodeWif_uncompressed _ n _ key _ hpre hk (checksum_length hP _) (dec_enc _)
  · exact decodeWif_compressed _ n _ key _ 1 hpre hk (checksum_length hP _) (dec_enc _)

/-- C49: a negative prefix raises `OverflowError` in both. -/
theorem C49_negative_prefix (n : Int) (hn : n < 0) (key : Bytes) (hk : key.length = 32) (w : Str) (hw : ∀ c ∈ w, c.toNat < 128) :
    (∃ e, encodeWif P (.bytes key) n = .error e ∧ e.cls = .overflowError)
      ∧ (∃ e, decodeWif w n = .error e ∧ e.cls = .overflowError) := by
  have h1 : ∃ e, integerToBytes n = .error e ∧ e.cls = .overflowError := by
    unfold integerToBytes intToBytes
    simp [hn, raise]
  obtain ⟨e, he, hc⟩ := h1
  refine ⟨⟨e, ?_, hc⟩, ⟨e, ?_, hc⟩⟩
  · unfold encodeWif
    rw [he]
    simp [bind, Except.bind, raiseIf, hk]
  · obtain ⟨raw, ht⟩ : ∃ raw, b58decode w = .ok raw := ⟨_, b58decode_ascii _ bitcoinAlphabet_ok w hw⟩
    unfold decodeWif
    rw [ht, he]
    rfl

/-- C49: every argument of `private_key_to_wif` (on a known network, for a known type): bytes, or hexadecimal text of bytes, of length
32 give a WIF, of another length (the empty ones included) `Secp256k1Error`; other text `ValueError`; a missing argument and objects
of other types `TypeError`. -/
theorem C49_key_argument (c : Coin) (n : String) (v : Net) (hn : c.net? n = some v) (type : String) (ht : IsWifType type) :
    (∀ b : Bytes, (b.length = 32 → ∃ w, privateKeyToWif P (.bytes b) type c n = .ok w) ∧
      (b.length ≠ 32 → privateKeyToWif P (.bytes b) type c n
        = .error ⟨.secp256k1Error, report "Invalid private key length" "64" (toString b.length)⟩)) ∧
    (∀ (s : Str) (b : Bytes), HexText s b →
      (b.length = 32 → privateKeyToWif P (.str s) type c n = privateKeyToWif P (.bytes b) type c n) ∧
      (b.length ≠ 32 → privateKeyToWif P (.str s) type c n
        = .error ⟨.secp256k1Error, report "Invalid private key length" "64" (toString s.length)⟩)) ∧
    (∀ s : Str, (∀ b, ¬ HexText s b) → ∃ e, privateKeyToWif P (.str s) type c n = .error e ∧ e.cls = .valueError) ∧
    (∃ e, privateKeyToWif P .none type c n = .error e ∧ e.cls = .typeError) ∧
    (∃ e, privateKeyToWif P .other type c n = .error e ∧ e.cls = .typeError) := by
  have hw : type ∈ WIF_TYPES := by rcases ht with rfl | rfl <;> decide
  have hbad : ∀ d x, encodeWif P d v.wifPrefix = .error x → privateKeyToWif P d type c n = .error x := by
    intro d x hx
    unfold privateKeyToWif
    rw [py_bind (not_raise (not_not.mpr hw)), lookupNet_ok hn, py_bind rfl, py_bind_err hx]
  refine ⟨fun b => ⟨fun hb => ⟨_, C07_wif_text P c n v hn b hb type ht⟩, fun hb => (C07_wrong_length P c n v hn b hb type ht).1⟩, ?_, ?_, ?_, ?_⟩
  · intro s b hs
    refine ⟨fun hb => ?_, fun hb => hbad _ _ (encodeWif_length P (.str s) b ((C06_get_bytes_iff s b).mpr hs) hb (by simp) _)⟩
    unfold privateKeyToWif
    simp only [encodeWif_data (.str s) b ((C06_get_bytes_iff s b).mpr hs) hb]
  · intro s hs
    obtain ⟨x, hx, hxc⟩ := C06_get_bytes_error s (fun ⟨b, hb⟩ => hs b hb)
    exact ⟨x, hbad _ x (by unfold encodeWif; rw [py_bind_err hx]), hxc⟩
  · exact ⟨_, hbad .none _ rfl, rfl⟩
  · exact ⟨_, hbad .other _ rfl, rfl⟩

/-- Cases of C49: 31 bytes, 64 digits, a text that is not hexadecimal. -/
example : (List.replicate 31 (7 : UInt8)).length ≠ 32 ∧ HexText (hex (List.replicate 32 7)) (List.replicate 32 7) ∧ (∀ b, ¬ HexText "x".toList b) :=
  ⟨by decide, (C06_get_bytes_iff _ _).mp (getBytes_hex _), fun b h => absurd ((C06_get_bytes_iff _ b).mpr h) (by
    have : ∃ e, getBytes (.str "x".toList) = .error e := ⟨_, rfl⟩
    obtain ⟨e, he⟩ := this
    rw [he]; simp)⟩

/-- C49: the errors of `decode_wif` (with a prefix that is not negative): `UnicodeEncodeError` exactly for text with characters outside
ASCII, else `WIFError` with one and the same text. -/
theorem C49_decode_errors (w : Str) (n : Nat) (e : Exc) (h : decodeWif w (n : Int) = .error e) :
    ((∃ c ∈ w, 128 ≤ c.toNat) ∧ e.cls = .unicodeEncodeError) ∨ ((∀ c ∈ w, c.toNat < 128) ∧ e = ⟨.wifError, "Invalid Wallet Import Format (WIF)"⟩) := by
  obtain ⟨pre, hpre, _, _⟩ := integerToBytes_ok n
  by_cases hw : ∀ c ∈ w, c.toNat < 128
  · refine .inr ⟨hw, ?_⟩
    obtain ⟨raw, ht⟩ : ∃ raw, b58decode w = .ok raw := ⟨_, b58decode_ascii _ bitcoinAlphabet_ok w hw⟩
    by_cases hp : pre <+: raw
    · obtain ⟨rest, hr⟩ := hp
      rw [← hr] at ht
      rw [decodeWif_payload w n pre rest hpre ht] at h
      split at h
      · exact (Except.error.inj h).symm
      · split at h <;> simp at h
    · rw [decodeWif_wrong_prefix w n pre _ hpre ht hp] at h
      exact (Except.error.inj h).symm
  · refine .inl ⟨by push Not at hw; exact hw, ?_⟩
    rw [decodeWif, b58decode_nonascii _ w hw] at h
    simp [bind, Except.bind] at h
    rw [← h]

end Bip38.Props
