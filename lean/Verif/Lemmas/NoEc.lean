import Verif.Lemmas.Bip38
/-! # `encrypt` and the non-EC branch of `decrypt` -/
namespace Bip38
open Spec Props

variable {P : Prims} {self : BIP38} {network : Option String} {c : Coin} {n : String} {v : Net}

theorem not_raise {cls : ExcClass} {msg : String} {q : Prop} [Decidable q] (h : ¬ q) : raiseIf q cls msg = .ok () := by
  simp [raiseIf, h]

theorem do_raise {cls : ExcClass} {msg : String} {q : Prop} [Decidable q] (h : q) : raiseIf q cls msg = .error ⟨cls, msg⟩ := by
  simp [raiseIf, h]

theorem wif_reads {w : Str} {key : Bytes} (h : wifToPrivateKey w c n = .ok (hex key)) (hn : c.net? n = some v) :
    ∃ t k, decodeWif w v.wifPrefix = .ok (key, t, k) := by
  unfold wifToPrivateKey at h
  rw [lookupNet_ok hn] at h
  simp only [bind, Except.bind] at h
  cases hd : decodeWif w v.wifPrefix with
  | error e => rw [hd] at h; simp at h
  | ok r =>
    obtain ⟨k', t, ch⟩ := r
    rw [hd] at h
    simp only [bytesToString_bytes, Except.ok.injEq] at h
    exact ⟨t, ch, by rw [hex_inj h]⟩

/-- Exact behaviour of `encrypt` on a readable WIF with a valid key. -/
theorem encrypt_eq (hP : P.Lawful) (hs : Selects self network c n v) (w pass : Str) (key : Bytes) (type : String)
    (hw : wifToPrivateKey w c n = .ok (hex key)) (ht : getWifType w c n = .ok type) (hk : IsPrivateKey key)
    (hty : IsWifType type) (pk : PublicKey) (hpk : IsPublicKeyOf pk key) :
    self.encrypt P w pass network =
      if (noEcPlain1 (stretch P pass (addressHash P v pk (pubType type)) 64) key).head? ≠ some 0
          ∧ (noEcPlain2 (stretch P pass (addressHash P v pk (pubType type)) 64) key).head? ≠ some 0 then
        .ok (b58encode (noEcRecord P type (addressHash P v pk (pubType type)) (stretch P pass (addressHash P v pk (pubType type)) 64) key
          ++ checksum P (noEcRecord P type (addressHash P v pk (pubType type))
              (stretch P pass (addressHash P v pk (pubType type)) 64) key)))
      else .error ⟨.valueError, "plaintext block must be 16 bytes"⟩ := by
  obtain ⟨pk', hpk', hv, hpriv⟩ := priv_ok key hk
  have := isPublicKeyOf_unique hpk' hpk
  subst this
  set hash := addressHash P v pk' (pubType type) with hhash
  set dk := stretch P pass hash 64 with hdk
  have hdl : dk.length = 64 := stretch_length hP _ _ _
  have hkl : key.length = 32 := hk.1
  have hraw : PrivateKey.raw ⟨be key, pk'⟩ = key := by
    unfold PrivateKey.raw; rw [be_eq]; exact toBE_fromBE' key hkl
  have e1 : slice 0 16 key = key.take 16 := slice_zero _ _
  have e2 : slice 16 32 key = key.drop 16 := by
    unfold slice; rw [List.take_of_length_le (by omega)]
  have e3 : slice 0 16 (slice 0 32 dk) = dk.take 16 := by
    rw [slice_zero, slice_zero, List.take_take]; rfl
  have e4 : slice 16 32 (slice 0 32 dk) = (dk.take 32).drop 16 := by
    rw [slice_zero]; unfold slice; rw [List.take_take]; rfl
  have e5 : slice 32 64 dk = dk.drop 32 := by
    unfold slice; rw [List.take_of_length_le (by omega)]
  have hnew : AES.new (dk.drop 32) = .ok ⟨dk.drop 32⟩ := AES.new_ok _ (by simp [hdl])
  have l1 : (key.take 16).length = 16 := by simp [hkl]
  have l2 : (key.drop 16).length = 16 := by simp [hkl]
  have l3 : (dk.take 16).length = 16 := by simp [hdl]
  have l4 : ((dk.take 32).drop 16).length = 16 := by simp [hdl]
  have hm1 : noEcPlain1 dk key = mask (key.take 16) (dk.take 16) := (mask_eq _ _ l1 l3).symm
  have hm2 : noEcPlain2 dk key = mask (key.drop 16) ((dk.take 32).drop 16) := (mask_eq _ _ l2 l4).symm
  have hq1 : (noEcPlain1 dk key).head? ≠ some 0 ↔ Maskable (key.take 16) (dk.take 16) := (maskable_iff _ _ l1 l3).symm
  have hq2 : (noEcPlain2 dk key).head? ≠ some 0 ↔ Maskable (key.drop 16) ((dk.take 32).drop 16) := (maskable_iff _ _ l2 l4).symm
  have hlk := hs.lookup
  have hco := hs.coin
  unfold BIP38.encrypt
  rw [hs.select]
  simp only [not_raise (not_not.mpr hs.mem), bind, Except.bind]
  rw [hco] at hlk ⊢
  rw [ht]
  have hrest : ∀ (flag : Bytes) (pt : String), flag = [noEcFlag type] → pt = pubType type →
      ((do
        let net ← lookupNet c n
        let address ← p2pkhEncode P (.key (PrivateKey.publicKey ⟨be key, pk'⟩)) net.addressPrefix pt
        let addressHash ← getChecksum P (.bytes (← getBytes (.str address) (unhexlify := false)))
        let key' := scryptPassphrase P pass addressHash
        let derivedHalf1 := slice 0 32 key'
        let derivedHalf2 := slice 32 64 key'
        let aes ← AES.new derivedHalf2
        let encryptedHalf1 ← aes.encrypt P (← xorBytes (slice 0 16 (PrivateKey.raw ⟨be key, pk'⟩)) (slice 0 16 derivedHalf1))
        let encryptedHalf2 ← aes.encrypt P (← xorBytes (slice 16 32 (PrivateKey.raw ⟨be key, pk'⟩)) (slice 16 32 derivedHalf1))
        let pre ← integerToBytes NO_EC_MULTIPLIED_PRIVATE_KEY_PREFIX
        let encryptedPrivateKey := pre ++ flag ++ addressHash ++ encryptedHalf1 ++ encryptedHalf2
        let checksum ← getChecksum P (.bytes encryptedPrivateKey)
        .ok (ensureString (b58encode (encryptedPrivateKey ++ checksum))) : Py Str))
      = if (noEcPlain1 dk key).head? ≠ some 0 ∧ (noEcPlain2 dk key).head? ≠ some 0 then
          .ok (b58encode (noEcRecord P type hash dk key ++ checksum P (noEcRecord P type hash dk key)))
        else .error ⟨.valueError, "plaintext block must be 16 bytes"⟩ := by
    rintro flag pt rfl rfl
    rw [hlk]
    simp only [bind, Except.bind]
    rw [show PrivateKey.publicKey ⟨be key, pk'⟩ = pk' from rfl, p2pkh_text]
    simp only [getBytes_text, getChecksum_bytes]
    rw [show checksum P (utf8 (addressText P v pk' (pubType type))) = hash from rfl, stretch_eq, ← hdk, hraw, e1, e2, e3, e4, e5, hnew, c_noEc]
    simp only
    simp only [xorBytes_xb]
    by_cases h1 : Maskable (key.take 16) (dk.take 16)
    · rw [aes_xb_ok _ _ _ h1]
      simp only
      by_cases h2 : Maskable (key.drop 16) ((dk.take 32).drop 16)
      · rw [aes_xb_ok _ _ _ h2]
        simp only
        rw [if_pos ⟨hq1.mpr h1, hq2.mpr h2⟩, ← hm1, ← hm2]
        simp [ensureString, noEcRecord]
      · rw [aes_xb_err _ _ _ h2, if_neg (fun h => h2 (hq2.mp h.2))]
    · rw [aes_xb_err _ _ _ h1, if_neg (fun h => h1 (hq1.mp h.1))]
  simp only [hw, getBytes_hex, hpriv, c_flagU, c_flagC]
  rcases hty with rfl | rfl
  · exact hrest [0xc0] "uncompressed" rfl rfl
  · exact hrest [0xe0] "compressed" rfl rfl

theorem strip_32 (l : Bytes) (hl : l.length = 32) : (strip l).length = 32 ↔ l.head? ≠ some 0 := by
  have := strip_length_eq_iff l (by omega)
  rwa [hl] at this

/-- What remains of `decrypt` once the shape of a `0x0142` record is known. -/
theorem decrypt_noEc (hs : Selects self network c n v) (e pass : Str) (detail : Bool) (f : UInt8) (rest : Bytes)
    (hl : rest.length = 40) (he : b58decode e = .ok ([0x01, 0x42, f] ++ rest)) :
    self.decrypt P e pass network detail = self.decryptNoEc P ([0x01, 0x42, f] ++ rest) pass n detail := by
  unfold BIP38.decrypt
  rw [hs.select, he]
  simp only [bind, Except.bind, not_raise (not_not.mpr hs.mem), c_noEc, c_ec]
  rw [not_raise (by simp [hl])]
  simp

theorem decrypt_ec (hs : Selects self network c n v) (e pass : Str) (detail : Bool) (f : UInt8) (rest : Bytes)
    (hl : rest.length = 40) (he : b58decode e = .ok ([0x01, 0x43, f] ++ rest)) :
    self.decrypt P e pass network detail = self.decryptEc P ([0x01, 0x43, f] ++ rest) pass n detail := by
  unfold BIP38.decrypt
  rw [hs.select, he]
  simp only [bind, Except.bind, not_raise (not_not.mpr hs.mem), c_noEc, c_ec]
  rw [not_raise (by simp [hl])]
  simp

theorem noEcKey_length (hP : P.Lawful) (dk c1 c2 : Bytes) (hdk : dk.length = 64) (h1 : c1.length = 16) (h2 : c2.length = 16) :
    (noEcKey P dk c1 c2).length = 32 := by
  unfold noEcKey
  have hk : (dk.drop 32).length = 32 := by simp [hdk]
  simp [hP.aesDecrypt_length _ _ hk h1, hP.aesDecrypt_length _ _ hk h2, hdk]

/-- Exact behaviour of `decrypt` on a `0x0142` record with a known flag. -/
theorem decryptNoEc_eq (hP : P.Lawful) (hs : Selects self network c n v) (pass : Str) (detail : Bool) (type : String)
    (hty : IsWifType type) (hash c1 c2 chk : Bytes) (hh : hash.length = 4) (h1 : c1.length = 16) (h2 : c2.length = 16)
    (key : Bytes) (hkey : key = noEcKey P (stretch P pass hash 64) c1 c2) :
    self.decryptNoEc P ([0x01, 0x42, noEcFlag type] ++ (hash ++ c1 ++ c2 ++ chk)) pass n detail =
      if be key = 0 ∨ be key ≥ n256k1 then .error ⟨.error, "Invalid Non-EC encrypted WIF (Wallet Import Format)"⟩
      else if key.head? = some 0 then .error ⟨.secp256k1Error, "Invalid private key bytes"⟩
      else match PrivateKey.fromBytes key with
        | .error e => .error e
        | .ok sk =>
          if addressHash P v sk.publicKey (pubType type) = hash then
            .ok (present detail (keyDetail P v key sk.publicKey type none none))
          else .error ⟨.passphraseError, "Incorrect passphrase"⟩ := by
  set dk := stretch P pass hash 64 with hdk
  have hdl : dk.length = 64 := stretch_length hP _ _ _
  have hkl : key.length = 32 := by rw [hkey]; exact noEcKey_length hP dk c1 c2 hdl h1 h2
  set rec := [0x01, 0x42, noEcFlag type] ++ (hash ++ c1 ++ c2 ++ chk) with hrec
  have s1 : slice 2 3 rec = [noEcFlag type] := by rw [hrec]; simp [slice]
  have s2 : slice 3 7 rec = hash := slice_mid [0x01, 0x42, noEcFlag type] hash (c1 ++ c2 ++ chk) (by simp [hrec]) rfl (by simp [hh])
  have s3 : slice 7 23 rec = c1 := slice_mid ([0x01, 0x42, noEcFlag type] ++ hash) c1 (c2 ++ chk) (by simp [hrec]) (by simp [hh]) (by simp [h1])
  have s4 : slice 23 39 rec = c2 := slice_mid ([0x01, 0x42, noEcFlag type] ++ hash ++ c1) c2 chk (by simp [hrec])
    (by simp [hh, h1]) (by simp [h2])
  have e5 : slice 32 64 dk = dk.drop 32 := by
    unfold slice; rw [List.take_of_length_le (by omega)]
  have hkk : (dk.drop 32).length = 32 := by simp [hdl]
  have hx : xorBytes (P.aesDecrypt (dk.drop 32) c1 ++ P.aesDecrypt (dk.drop 32) c2) (dk.take 32) = .ok (strip key) := by
    rw [xorBytes_eq, hkey]
    · rfl
    · simp [hP.aesDecrypt_length _ _ hkk h1, hP.aesDecrypt_length _ _ hkk h2, hdl]
  have hbe : b2i (strip key) = be key := by rw [b2i_eq, fromBE_strip, be_eq]
  have fu : noEcFlag "wif" = 0xc0 := rfl
  have fc : noEcFlag "wif-compressed" = 0xe0 := rfl
  have pu : pubType "wif" = "uncompressed" := rfl
  have pc : pubType "wif-compressed" = "compressed" := rfl
  have fne : ([0xe0] : Bytes) ≠ [0xc0] := by decide
  unfold BIP38.decryptNoEc
  have hty' := hty
  rcases hty with rfl | rfl
  all_goals
    simp only [s1, s2, s3, s4, c_flagU, c_flagC, bind, Except.bind, fu, fc, pu, pc, fne, if_true, if_false, stretch_eq, ← hdk, e5,
      slice_zero, AES.new_ok _ hkk, AES.decrypt_ok _ _ h1, AES.decrypt_ok _ _ h2, hx]
    rw [hbe, ← n256k1_eq]
    by_cases hr : be key = 0 ∨ be key ≥ n256k1
    · rw [do_raise hr, if_pos hr]
    · rw [not_raise hr, if_neg hr]
      simp only
      by_cases h0 : key.head? = some 0
      · rw [if_pos h0, privFromBytes_error]
        · rfl
        · rintro ⟨h, _⟩
          exact (strip_32 key hkl).mp h h0
      · rw [if_neg h0, strip_of_head key (by intro h; simp [h] at hkl) h0]
        have hpriv : IsPrivateKey key := ⟨hkl, by omega, by omega⟩
        obtain ⟨pk, hpk, hon, hok⟩ := priv_ok key hpriv
        rw [hok]
        simp only
        rw [hs.lookup]
        simp only
        rw [show PrivateKey.publicKey ⟨be key, pk⟩ = pk from rfl, p2pkh_text]
        simp only [getBytes_text, getChecksum_bytes]
        rw [← addressHash]
        generalize hA : addressHash P v pk _ = A
        by_cases ha : A = hash
        · rw [not_raise (by simp [ha]), if_pos ha]
          simp only
          rw [hs.wif key hkl _ hty']
          cases detail
          · simp [present, keyDetail]
          · simp [present, keyDetail, raw_eq_sec1, pu, pc]
        · rw [do_raise ha, if_neg ha]


end Bip38
