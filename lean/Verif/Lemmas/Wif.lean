import Verif.Model.Wif
import Verif.Lemmas.Crypto
import Verif.Lemmas.Base58
/-! # Lemmas on `bip38/wif.py` -/
namespace Bip38
open Spec

variable {P : Prims}

theorem bitcoinAlphabet_ok : ValidAlphabet bitcoinAlphabet := ⟨by decide, by decide, by decide⟩

theorem dec_enc (b : Bytes) : b58decode (b58encode b) = .ok b := b58decode_b58encode _ bitcoinAlphabet_ok b

/-- Big-endian bytes of a number below 256: one byte. -/
theorem integerToBytes_byte (n : Nat) (h : n < 256) : integerToBytes (n : Int) = .ok [UInt8.ofNat n] := by
  have := integerToBytes_fromBE [UInt8.ofNat n]
  have hn : fromBE [UInt8.ofNat n] = n := by simp [fromBE_cons, UInt8.toNat_ofNat', Nat.mod_eq_of_lt h]
  rw [hn] at this
  rw [this]
  unfold strip
  by_cases hz : UInt8.ofNat n = 0
  · simp [hz]
  · simp [hz]

theorem prefixBytes_byte (n : Nat) (h : n < 256) : prefixBytes n = [UInt8.ofNat n] := by rw [prefixBytes, if_pos h]

theorem prefixBytes_ne_nil (n : Nat) : prefixBytes n ≠ [] := by
  rw [prefixBytes]; split <;> simp

theorem fromBE_prefixBytes (n : Nat) : fromBE (prefixBytes n) = n := by
  induction n using Nat.strong_induction_on with
  | _ n ih =>
    rw [prefixBytes]
    split
    · rename_i h; simp [fromBE_cons, UInt8.toNat_ofNat', Nat.mod_eq_of_lt h]
    · rename_i h
      rw [fromBE_append, ih (n / 256) (by omega)]
      simp [fromBE_cons, UInt8.toNat_ofNat']
      omega

theorem head_prefixBytes (n : Nat) (h : n ≠ 0) : (prefixBytes n).head? ≠ some 0 := by
  induction n using Nat.strong_induction_on with
  | _ n ih =>
    rw [prefixBytes]
    split
    · rename_i h1
      intro h0
      have := congrArg UInt8.toNat (Option.some.inj h0)
      simp [UInt8.toNat_ofNat'] at this
      omega
    · rename_i h1
      rw [List.head?_append_of_ne_nil _ (prefixBytes_ne_nil _)]
      exact ih _ (by omega) (by omega)

theorem prefixBytes_inj {n m : Nat} (h : prefixBytes n = prefixBytes m) : n = m := by
  rw [← fromBE_prefixBytes n, h, fromBE_prefixBytes]

/-- `integer_to_bytes` of any number that is not negative. -/
theorem integerToBytes_prefix (n : Nat) : integerToBytes (n : Int) = .ok (prefixBytes n) := by
  have h := integerToBytes_fromBE (prefixBytes n)
  rw [fromBE_prefixBytes] at h
  rw [h]
  by_cases hn : n = 0
  · subst hn; rw [prefixBytes]; rfl
  · have hh := head_prefixBytes n hn
    cases hb : prefixBytes n with
    | nil => exact absurd hb (prefixBytes_ne_nil n)
    | cons c t =>
      rw [hb] at hh
      rw [strip_cons_ne]
      intro h0; exact hh (by simp [h0])

theorem integerToBytes_ok (n : Nat) : ∃ b, integerToBytes (n : Int) = .ok b ∧ b ≠ [] ∧ fromBE b = n := by
  obtain ⟨b, _, hb⟩ := exists_bytes n
  exact ⟨strip b, by rw [← hb]; exact integerToBytes_fromBE b, strip_ne_nil b, by rw [fromBE_strip, hb]⟩

theorem integerToBytes_one : integerToBytes ((COMPRESSED_PRIVATE_KEY_PREFIX : Nat) : Int) = .ok [1] :=
  integerToBytes_byte 1 (by norm_num)

theorem encodeWif_bytes (key : Bytes) (hk : key.length = 32) (n : Nat) (pre : Bytes)
    (hpre : integerToBytes (n : Int) = .ok pre) :
    encodeWif P (.bytes key) (n : Int) =
      .ok (b58encode (pre ++ key ++ checksum P (pre ++ key)),
           b58encode (pre ++ key ++ [1] ++ checksum P (pre ++ key ++ [1]))) := by
  unfold encodeWif
  rw [integerToBytes_one, hpre]
  simp [bind, Except.bind, raiseIf, hk]

theorem encodeWif_data (d : Data) (key : Bytes) (hd : getBytes d = .ok key) (hk : key.length = 32) (n : Int) :
    encodeWif P d n = encodeWif P (.bytes key) n := by
  unfold encodeWif
  rw [hd, getBytes_bytes]
  simp [bind, Except.bind, raiseIf, hk]

/-- Everything `decode_wif` does, in terms of the decoded payload. -/
theorem decodeWif_payload (w : Str) (n : Nat) (pre rest : Bytes) (hpre : integerToBytes (n : Int) = .ok pre)
    (hw : b58decode w = .ok (pre ++ rest)) :
    decodeWif w (n : Int) =
      if (dropLastN 4 rest).length ≠ 33 ∧ (dropLastN 4 rest).length ≠ 32 then
        .error ⟨.wifError, "Invalid Wallet Import Format (WIF)"⟩
      else if (dropLastN 4 rest).length = 33 then
        .ok (dropLastN 1 (dropLastN 4 rest), "wif-compressed", lastN 4 rest)
      else .ok (dropLastN 4 rest, "wif", lastN 4 rest) := by
  unfold decodeWif
  rw [integerToBytes_one, hpre, hw]
  have h1 : pre.isPrefixOf (pre ++ rest) = true := by simp
  simp only [bind, Except.bind, raiseIf, h1, List.take_left, List.drop_left, raise]
  simp

theorem decodeWif_wrong_prefix (w : Str) (n : Nat) (pre raw : Bytes) (hpre : integerToBytes (n : Int) = .ok pre)
    (hw : b58decode w = .ok raw) (h : ¬ pre <+: raw) :
    decodeWif w (n : Int) = .error ⟨.wifError, "Invalid Wallet Import Format (WIF)"⟩ := by
  unfold decodeWif
  rw [hpre, hw]
  have h1 : pre.isPrefixOf raw = false := by
    rw [Bool.eq_false_iff]; intro hh; exact h (List.isPrefixOf_iff_prefix.mp hh)
  simp [bind, Except.bind, raiseIf, h1]

theorem decodeWif_uncompressed (w : Str) (n : Nat) (pre key chk : Bytes) (hpre : integerToBytes (n : Int) = .ok pre)
    (hk : key.length = 32) (hc : chk.length = 4) (hw : b58decode w = .ok (pre ++ key ++ chk)) :
    decodeWif w (n : Int) = .ok (key, "wif", chk) := by
  rw [decodeWif_payload w n pre (key ++ chk) hpre (by rw [hw, List.append_assoc])]
  rw [dropLastN_append _ _ 4 hc, lastN_append _ _ 4 hc, hk]
  simp

theorem decodeWif_compressed (w : Str) (n : Nat) (pre key chk : Bytes) (m : UInt8)
    (hpre : integerToBytes (n : Int) = .ok pre)
    (hk : key.length = 32) (hc : chk.length = 4) (hw : b58decode w = .ok (pre ++ key ++ [m] ++ chk)) :
    decodeWif w (n : Int) = .ok (key, "wif-compressed", chk) := by
  rw [decodeWif_payload w n pre ((key ++ [m]) ++ chk) hpre (by rw [hw]; simp)]
  rw [dropLastN_append _ _ 4 hc, lastN_append _ _ 4 hc, dropLastN_append _ _ 1 rfl]
  simp [hk]

/-- What `decode_wif` accepts. -/
theorem decodeWif_ok_iff (w : Str) (n : Nat) (pre : Bytes) (hpre : integerToBytes (n : Int) = .ok pre)
    (key chk : Bytes) (type : String) :
    decodeWif w (n : Int) = .ok (key, type, chk) ↔ key.length = 32 ∧ chk.length = 4 ∧
      ((type = "wif" ∧ b58decode w = .ok (pre ++ key ++ chk)) ∨
       (type = "wif-compressed" ∧ ∃ m, b58decode w = .ok (pre ++ key ++ [m] ++ chk))) := by
  constructor
  · intro h
    cases hw : b58decode w with
    | error e =>
      unfold decodeWif at h
      rw [hw] at h
      simp [bind, Except.bind] at h
    | ok raw =>
      by_cases hp : pre <+: raw
      · obtain ⟨rest, rfl⟩ := hp
        rw [decodeWif_payload w n pre rest hpre hw] at h
        have hsplit := dropLastN_append_lastN 4 rest
        split at h
        · simp at h
        · rename_i hlen
          have hl4 : (dropLastN 4 rest).length ≠ 0 := by omega
          have hc : (lastN 4 rest).length = 4 := by
            apply lastN_length
            simp only [dropLastN, List.length_take] at hl4
            omega
          split at h
          · rename_i h33
            simp only [Except.ok.injEq, Prod.mk.injEq] at h
            obtain ⟨rfl, rfl, rfl⟩ := h
            have hs1 := dropLastN_append_lastN 1 (dropLastN 4 rest)
            have hm : (lastN 1 (dropLastN 4 rest)).length = 1 := lastN_length 1 _ (by omega)
            obtain ⟨m, hm⟩ := List.length_eq_one_iff.mp hm
            refine ⟨?_, hc, Or.inr ⟨rfl, m, ?_⟩⟩
            · rw [dropLastN, List.length_take]; omega
            · congr 1
              rw [← hm, List.append_assoc pre, hs1, List.append_assoc, hsplit]
          · simp only [Except.ok.injEq, Prod.mk.injEq] at h
            obtain ⟨rfl, rfl, rfl⟩ := h
            exact ⟨by omega, hc, Or.inl ⟨rfl, by rw [List.append_assoc, hsplit]⟩⟩
      · rw [decodeWif_wrong_prefix w n pre raw hpre hw hp] at h
        simp at h
  · rintro ⟨hk, hc, ⟨rfl, hw⟩ | ⟨rfl, m, hw⟩⟩
    · exact decodeWif_uncompressed w n pre key chk hpre hk hc hw
    · exact decodeWif_compressed w n pre key chk m hpre hk hc hw

end Bip38
