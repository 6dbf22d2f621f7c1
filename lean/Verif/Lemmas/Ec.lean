import Verif.Lemmas.NoEc
/-! # The EC branch of `decrypt` -/
namespace Bip38
open Spec Props

variable {P : Prims} {self : BIP38} {network : Option String} {c : Coin} {n : String} {v : Net}

theorem forall_byte {p : UInt8 → Prop} (h : ∀ i : Fin 256, p (UInt8.ofNat i.val)) (f : UInt8) : p f := by
  have h1 := h ⟨f.toNat, f.toNat_lt⟩
  simpa using h1

theorem lot_iff : ∀ f : UInt8, f.toNat ∈ FLAGS_lot_and_sequence ↔ hasLot f :=
  forall_byte (by decide +kernel)

theorem compr_iff : ∀ f : UInt8, f.toNat ∈ FLAGS_compression ↔ isCompressed f :=
  forall_byte (by decide +kernel)

theorem b2i_singleton (f : UInt8) : b2i [f] = f.toNat := by simp [b2i_eq, fromBE_cons]

theorem splitEntropy_eq (f : UInt8) (ent : Bytes) :
    splitEntropy [f] ent = if hasLot f then (ent.take 4, some (ent.drop 4)) else (ent, none) := by
  unfold splitEntropy
  rw [b2i_singleton]
  by_cases h : hasLot f
  · rw [if_pos ((lot_iff f).mpr h), if_pos h]
  · rw [if_neg (fun h' => h ((lot_iff f).mp h')), if_neg h]

theorem drop_cons {ent : Bytes} (h : ent.length = 8) : ∃ a t, ent.drop 4 = a :: t := by
  cases hd : ent.drop 4 with
  | nil => have := congrArg List.length hd; simp [h] at this
  | cons a t => exact ⟨a, t, rfl⟩

theorem passFactorOf_eq (f : UInt8) (ent : Bytes) (h : ent.length = 8) (pass : Str) :
    passFactorOf P pass (splitEntropy [f] ent).1 (splitEntropy [f] ent).2 ent
      = .ok (passFactor P (decide (hasLot f)) pass ent) := by
  rw [splitEntropy_eq]
  unfold passFactorOf passFactor
  by_cases hl : hasLot f
  · obtain ⟨a, t, hd⟩ := drop_cons h
    simp only [hl, if_true, hd, decide_true, doubleSha256_bytes]
    rfl
  · simp only [hl, if_false, decide_false]
    rfl

theorem lotSequenceOf_eq (f : UInt8) (ent : Bytes) (h : ent.length = 8) :
    lotSequenceOf (splitEntropy [f] ent).2
      = ((lotSeq f ent).map fun x => (x.1 : Int), (lotSeq f ent).map fun x => (x.2 : Int)) := by
  rw [splitEntropy_eq]
  unfold lotSequenceOf lotSeq
  by_cases hl : hasLot f
  · obtain ⟨a, t, hd⟩ := drop_cons h
    simp only [hl, if_true, hd, b2i_be, Option.map_some]
    congr 3
    have := Nat.div_add_mod (be (a :: t)) 4096
    omega
  · simp [hl]

theorem passFactor_length (hP : P.Lawful) (b : Bool) (pass : Str) (ent : Bytes) : (passFactor P b pass ent).length = 32 := by
  unfold passFactor
  split
  · exact dsha_length hP _
  · exact stretch_length hP _ _ _

theorem ecType_ok (f : UInt8) : IsWifType (ecType f) := by
  unfold ecType IsWifType; split <;> simp

theorem pubType_ecType (f : UInt8) : pubType (ecType f) = if isCompressed f then "compressed" else "uncompressed" := by
  unfold pubType ecType; split <;> simp

theorem ecNum_lt (pf seed : Bytes) : ecNum P pf seed < n256k1 := by
  unfold ecNum; rw [n256k1_eq]; exact Nat.mod_lt _ N_prime.pos

theorem n256k1_lt : n256k1 < 256 ^ 32 := by rw [n256k1_eq]; exact N_lt

theorem mul_mod_ne {a b : Nat} (ha : 1 ≤ a) (ha' : a < n256k1) (hb : 1 ≤ b) (hb' : b < n256k1) : a * b % n256k1 ≠ 0 := by
  rw [n256k1_eq] at *
  intro h0
  rcases (N_prime.dvd_mul).mp (Nat.dvd_of_mod_eq_zero h0) with h | h
  · have := Nat.le_of_dvd (by omega) h; omega
  · have := Nat.le_of_dvd (by omega) h; omega

theorem be_toBE (k m : Nat) (h : m < 256 ^ k) : be (toBE k m) = m := by rw [be_eq, fromBE_toBE k m h]

theorem toBE_num_priv {m : Nat} (h1 : 1 ≤ m) (h2 : m < n256k1) : IsPrivateKey (toBE 32 m) :=
  ⟨toBE_length _ _, by rw [be_toBE _ _ (h2.trans n256k1_lt)]; exact h1, by rw [be_toBE _ _ (h2.trans n256k1_lt)]; exact h2⟩

/-- Exact behaviour of `decrypt` on a `0x0143` record. -/
theorem decryptEc_eq (hP : P.Lawful) (hs : Selects self network c n v) (pass : Str) (detail : Bool) (f : UInt8)
    (hash ent h11 e2 chk : Bytes) (hh : hash.length = 4) (hent : ent.length = 8) (h1 : h11.length = 8) (h2 : e2.length = 16)
    (hc : chk.length = 4) (pf : Bytes) (hpf : pf = passFactor P (decide (hasLot f)) pass ent) :
    self.decryptEc P ([0x01, 0x43, f] ++ (hash ++ ent ++ h11 ++ e2 ++ chk)) pass n detail =
      if be pf = 0 ∨ be pf ≥ n256k1 then .error ⟨.error, "Invalid EC encrypted WIF (Wallet Import Format)"⟩
      else match PrivateKey.fromBytes pf with
        | .error e => .error e
        | .ok ppk =>
          let dk := ecDerive P ppk.publicKey.rawCompressed hash ent
          let seed := ecSeed P dk h11 e2
          let key := toBE 32 (ecNum P pf seed)
          if (ecTail P dk e2).length < 8 then .error ⟨.valueError, "ciphertext block must be 16 bytes"⟩
          else if be (dsha P seed) = 0 ∨ be (dsha P seed) ≥ n256k1 then
            .error ⟨.error, "Invalid EC encrypted WIF (Wallet Import Format)"⟩
          else if key.head? = some 0 then .error ⟨.secp256k1Error, "Invalid private key bytes"⟩
          else match PrivateKey.fromBytes key with
            | .error e => .error e
            | .ok sk =>
              if addressHash P v sk.publicKey (pubType (ecType f)) = hash then
                .ok (present detail (keyDetail P v key sk.publicKey (ecType f) (some seed) (lotSeq f ent)))
              else .error ⟨.passphraseError, "Incorrect passphrase"⟩ := by
  have hpl : pf.length = 32 := by rw [hpf]; exact passFactor_length hP _ _ _
  set rec := [0x01, 0x43, f] ++ (hash ++ ent ++ h11 ++ e2 ++ chk) with hrec
  have s1 : slice 2 3 rec = [f] := by rw [hrec]; simp [slice]
  have s2 : slice 3 7 rec = hash :=
    slice_mid [0x01, 0x43, f] hash (ent ++ h11 ++ e2 ++ chk) (by simp [hrec]) rfl (by simp [hh])
  have s3 : slice 7 15 rec = ent :=
    slice_mid ([0x01, 0x43, f] ++ hash) ent (h11 ++ e2 ++ chk) (by simp [hrec]) (by simp [hh]) (by simp [hent])
  have s4 : slice 15 23 rec = h11 :=
    slice_mid ([0x01, 0x43, f] ++ hash ++ ent) h11 (e2 ++ chk) (by simp [hrec]) (by simp [hh, hent]) (by simp [h1])
  have s5 : (dropLastN 4 rec).drop 23 = e2 := by
    have : rec = ([0x01, 0x43, f] ++ hash ++ ent ++ h11 ++ e2) ++ chk := by simp [hrec]
    rw [this, dropLastN_append _ _ 4 hc, List.drop_left']
    simp [hh, hent, h1]
  have hp1 := passFactorOf_eq (P := P) f ent hent pass
  have hls := lotSequenceOf_eq f ent hent
  unfold BIP38.decryptEc
  simp only [s1, s2, s3, s4, s5, bind, Except.bind]
  simp only [hls]
  rw [hp1, ← hpf]
  simp only [b2i_be]
  rw [← n256k1_eq]
  by_cases hr : be pf = 0 ∨ be pf ≥ n256k1
  · rw [do_raise hr, if_pos hr]
  · rw [not_raise hr, if_neg hr]
    simp only
    obtain ⟨pp, hpp, hon, hok⟩ := priv_ok pf ⟨hpl, by omega, by omega⟩
    rw [hok]
    simp only
    rw [show PrivateKey.publicKey ⟨be pf, pp⟩ = pp from rfl]
    rw [show P.scrypt pp.rawCompressed (hash ++ ent) 1024 1 1 64 = ecDerive P pp.rawCompressed hash ent from rfl]
    generalize hdk : ecDerive P pp.rawCompressed hash ent = dk
    have hdl : dk.length = 64 := by rw [← hdk]; exact ecDerive_length hP _ _ _
    have hkk : (dk.drop 32).length = 32 := by simp [hdl]
    have e4 : slice 16 32 dk = (dk.take 32).drop 16 := rfl
    rw [AES.new_ok _ hkk]
    simp only [AES.decrypt_ok _ _ h2]
    have hx : xorBytes (P.aesDecrypt (dk.drop 32) e2) (slice 16 32 dk) = .ok (ecTail P dk e2) := by
      rw [e4, xorBytes_eq]
      · rfl
      · simp [hP.aesDecrypt_length _ _ hkk h2, hdl]
    rw [hx]
    simp only
    by_cases ht : (ecTail P dk e2).length < 8
    · rw [if_pos ht]
      have : (h11 ++ (ecTail P dk e2).take 8).length ≠ 16 := by simp [h1]; omega
      unfold AES.decrypt
      rw [do_raise this]
      rfl
    · rw [if_neg ht]
      have h16 : (h11 ++ (ecTail P dk e2).take 8).length = 16 := by simp [h1]; omega
      rw [AES.decrypt_ok _ _ h16]
      simp only
      have hx2 : xorBytes (P.aesDecrypt (dk.drop 32) (h11 ++ (ecTail P dk e2).take 8)) (dk.take 16)
          = .ok (strip (bxor (P.aesDecrypt (dk.drop 32) (h11 ++ (ecTail P dk e2).take 8)) (dk.take 16))) := by
        rw [xorBytes_eq]
        simp [hP.aesDecrypt_length _ _ hkk h16, hdl]
      rw [hx2]
      simp only [doubleSha256_bytes]
      rw [show strip (bxor (P.aesDecrypt (dk.drop 32) (h11 ++ (ecTail P dk e2).take 8)) (dk.take 16)) ++ (ecTail P dk e2).drop 8
        = ecSeed P dk h11 e2 from rfl]
      generalize hseed : ecSeed P dk h11 e2 = seed
      by_cases hfr : be (dsha P seed) = 0 ∨ be (dsha P seed) ≥ n256k1
      · rw [do_raise hfr, if_pos hfr]
      · rw [not_raise hfr, if_neg hfr]
        simp only
        rw [show be pf * be (dsha P seed) % n256k1 = ecNum P pf seed from rfl]
        have hlt := ecNum_lt (P := P) pf seed
        have hne : ecNum P pf seed ≠ 0 := mul_mod_ne (by omega) (by omega) (by omega) (by omega)
        have hkeyp : IsPrivateKey (toBE 32 (ecNum P pf seed)) := toBE_num_priv (by omega) hlt
        have hib : integerToBytes ((ecNum P pf seed : Nat) : Int) = .ok (strip (toBE 32 (ecNum P pf seed))) := by
          have := integerToBytes_fromBE (toBE 32 (ecNum P pf seed))
          rwa [fromBE_toBE _ _ (hlt.trans n256k1_lt)] at this
        rw [hib]
        generalize toBE 32 (ecNum P pf seed) = key at hkeyp
        have hkl : key.length = 32 := hkeyp.1
        simp only
        by_cases h0 : key.head? = some 0
        · rw [if_pos h0, privFromBytes_error]
          · rfl
          · rintro ⟨h, _⟩
            exact (strip_32 key hkl).mp h h0
        · rw [if_neg h0, strip_of_head key (by intro h; simp [h] at hkl) h0]
          obtain ⟨pk, hpk, hon, hok⟩ := priv_ok key hkeyp
          rw [hok]
          simp only
          rw [hs.lookup]
          simp only
          rw [show PrivateKey.publicKey ⟨be key, pk⟩ = pk from rfl, p2pkh_text]
          simp only [getBytes_text, getChecksum_bytes]
          have hb : (be [f] ∈ FLAGS_compression) ↔ isCompressed f := by
            rw [← b2i_be, b2i_singleton]; exact compr_iff f
          have hpt := pubType_ecType f
          have hty := ecType_ok f
          have het : (if be [f] ∈ FLAGS_compression then ("wif-compressed", "compressed") else ("wif", "uncompressed"))
              = (ecType f, pubType (ecType f)) := by
            rw [hpt]; unfold ecType; simp only [hb]; split <;> rfl
          rw [het]
          simp only
          rw [← addressHash]
          by_cases ha : addressHash P v pk (pubType (ecType f)) = hash
          · rw [if_pos ha, if_pos ha, hs.wif key hkl _ hty]
            cases detail
            · simp [present, keyDetail]
            · simp [present, keyDetail, raw_eq_sec1]
          · rw [if_neg ha, if_neg ha]
            rfl

end Bip38
