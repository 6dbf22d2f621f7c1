import Verif.Lemmas.Create
/-! # `confirm_code` -/
namespace Bip38
open Spec Props

variable {P : Prims} {self : BIP38} {network : Option String} {c : Coin} {n : String} {v : Net}

theorem prefix_byte' (a b : UInt8) : integerToBytes ((b.toNat ^^^ (a.toNat &&& 1) : Nat) : Int) = .ok [b ^^^ (a &&& 1)] := by
  rw [Nat.xor_comm]; exact prefix_byte a b

theorem checkDecodeOr_error (t : Str) (cls : ExcClass) (msg : String) (e : Exc) (h : checkDecode P.sha256 t = .error e)
    (hc : e.cls.isValueError = true) : checkDecodeOr P t cls msg = .error ⟨cls, msg⟩ := by
  unfold checkDecodeOr; rw [h]; simp [hc, raise]

/-- Exact behaviour of `confirm_code` on a record of the right shape. -/
theorem confirm_eq (hP : P.Lawful) (hs : Selects self network c n v) (pass code : Str) (detail : Bool) (f : UInt8)
    (hash ent : Bytes) (x : UInt8) (c1 c2 : Bytes) (hh : hash.length = 4) (hent : ent.length = 8) (h1 : c1.length = 16)
    (h2 : c2.length = 16)
    (hcode : checkDecode P.sha256 code = .ok ([0x64, 0x3b, 0xf6, 0xa8, 0x9a, f] ++ (hash ++ ent ++ [x] ++ c1 ++ c2)))
    (pf : Bytes) (hpf : pf = passFactor P (decide (hasLot f)) pass ent) :
    self.confirmCode P pass code network detail =
      if be pf = 0 ∨ be pf ≥ n256k1 then .error ⟨.error, "Invalid EC encrypted WIF (Wallet Import Format)"⟩
      else match PrivateKey.fromBytes pf with
        | .error e => .error e
        | .ok ppk =>
          match PublicKey.fromBytes (confirmPoint P (ecDerive P ppk.publicKey.rawCompressed hash ent) x c1 c2) with
          | .error _ => .error ⟨.passphraseError, "Incorrect passphrase"⟩
          | .ok q =>
            match PublicKey.fromPoint (q.point.mul (be pf)) with
            | .error e => .error e
            | .ok pk =>
              if addressHash P v pk (pubType (ecType f)) = hash then
                .ok (presentAddress detail (confirmDict P v pk (ecType f) (lotSeq f ent)))
              else .error ⟨.passphraseError, "Incorrect passphrase"⟩ := by
  have hpl : pf.length = 32 := by rw [hpf]; exact passFactor_length hP _ _ _
  set rec := [0x64, 0x3b, 0xf6, 0xa8, 0x9a, f] ++ (hash ++ ent ++ [x] ++ c1 ++ c2) with hrec
  have hlen : rec.length = 51 := by simp [hrec, hh, hent, h1, h2]
  have s0 : rec.take ([0x64, 0x3b, 0xf6, 0xa8, 0x9a] : Bytes).length = [0x64, 0x3b, 0xf6, 0xa8, 0x9a] := by
    rw [hrec]; simp
  have s1 : slice 5 6 rec = [f] := by rw [hrec]; simp [slice]
  have s2 : slice 6 10 rec = hash :=
    slice_mid [0x64, 0x3b, 0xf6, 0xa8, 0x9a, f] hash (ent ++ [x] ++ c1 ++ c2) (by simp [hrec]) rfl (by simp [hh])
  have s3 : slice 10 18 rec = ent :=
    slice_mid ([0x64, 0x3b, 0xf6, 0xa8, 0x9a, f] ++ hash) ent ([x] ++ c1 ++ c2) (by simp [hrec]) (by simp [hh]) (by simp [hent])
  have s4 : rec.drop 18 = [x] ++ c1 ++ c2 := by
    have : rec = ([0x64, 0x3b, 0xf6, 0xa8, 0x9a, f] ++ hash ++ ent) ++ ([x] ++ c1 ++ c2) := by simp [hrec]
    rw [this, List.drop_left']; simp [hh, hent]
  have s5 : slice 1 17 ([x] ++ c1 ++ c2) = c1 := slice_mid [x] c1 c2 (by simp) rfl (by simp [h1])
  have s6 : ([x] ++ c1 ++ c2).drop 17 = c2 := List.drop_left' (by simp [h1])
  have s7 : ([x] ++ c1 ++ c2).take 1 = [x] := by simp
  have hp1 := passFactorOf_eq (P := P) f ent hent pass
  have hls := lotSequenceOf_eq f ent hent
  rw [← hpf] at hp1
  have hb : (b2i [f] ∈ FLAGS_compression) ↔ isCompressed f := by
    rw [b2i_singleton]; exact compr_iff f
  have het : (if b2i [f] ∈ FLAGS_compression then "compressed" else "uncompressed") = pubType (ecType f) := by
    rw [pubType_ecType]; simp only [hb]
  clear_value rec
  unfold BIP38.confirmCode
  rw [hs.select]
  simp only
  rw [py_bind (not_raise (not_not.mpr hs.mem)), py_bind (checkDecodeOr_ok _ _ _ _ hcode),
    py_bind (not_raise (fun h => h hlen)), py_bind c_conf, s0, py_bind (not_raise (fun h => h rfl)), s1, s2, s3, s4, s5, s6, s7, hls,
    py_bind hp1, b2i_be, b2i_singleton, ← n256k1_eq]
  by_cases hr : be pf = 0 ∨ be pf ≥ n256k1
  · rw [py_bind_err (do_raise hr), if_pos hr]
  rw [py_bind (not_raise hr), if_neg hr]
  obtain ⟨pp, hpp, hon, hok⟩ := priv_ok pf ⟨hpl, by omega, by omega⟩
  rw [py_bind hok, hok]
  simp only
  rw [show PrivateKey.publicKey ⟨be pf, pp⟩ = pp from rfl]
  rw [show P.scrypt pp.rawCompressed (hash ++ ent) 1024 1 1 64 = ecDerive P pp.rawCompressed hash ent from rfl]
  generalize hdk : ecDerive P pp.rawCompressed hash ent = dk
  have hdl : dk.length = 64 := by rw [← hdk]; exact ecDerive_length hP _ _ _
  have hkk : (dk.drop 32).length = 32 := by simp [hdl]
  have e4 : slice 16 32 dk = (dk.take 32).drop 16 := rfl
  have hx1 : xorBytes (P.aesDecrypt (dk.drop 32) c1) (dk.take 16)
      = .ok (strip (bxor (P.aesDecrypt (dk.drop 32) c1) (dk.take 16))) :=
    xorBytes_eq _ _ (by simp [hP.aesDecrypt_length _ _ hkk h1, hdl])
  have hx2 : xorBytes (P.aesDecrypt (dk.drop 32) c2) ((dk.take 32).drop 16)
      = .ok (strip (bxor (P.aesDecrypt (dk.drop 32) c2) ((dk.take 32).drop 16))) :=
    xorBytes_eq _ _ (by simp [hP.aesDecrypt_length _ _ hkk h2, hdl])
  have hbe1 : ∀ x : UInt8, be [x] = x.toNat := fun x => by rw [← b2i_be, b2i_singleton]
  rw [py_bind (AES.new_ok _ hkk), py_bind (AES.decrypt_ok _ _ h1), py_bind hx1, py_bind (AES.decrypt_ok _ _ h2), e4, py_bind hx2,
    b2i_be, drop_63 hdl, hbe1, py_bind (prefix_byte' _ _)]
  rw [show [x ^^^ (dk.getD 63 0 &&& 1)] ++ strip (bxor (P.aesDecrypt (dk.drop 32) c1) (dk.take 16))
    ++ strip (bxor (P.aesDecrypt (dk.drop 32) c2) ((dk.take 32).drop 16)) = confirmPoint P dk x c1 c2 from rfl]
  generalize confirmPoint P dk x c1 c2 = B
  cases hq : PublicKey.fromBytes B with
  | error e =>
    have hcls := fromBytes_error _ _ hq
    simp only
    rw [py_bind_err (e := ⟨.passphraseError, "Incorrect passphrase"⟩)]
    rw [py_bind_err rfl]
    simp [orIncorrectPassphrase, hcls, raise]
  | ok q =>
    have hqv := ((fromBytes_iff B q).mp hq).2
    obtain ⟨pk, hpk, hpv⟩ := exists_mul q hqv (n := be pf) (by omega) (by rw [← n256k1_eq]; omega)
    rw [py_bind rfl, hpk, py_bind (fromPoint_point pk hpv)]
    simp only
    rw [hpk, fromPoint_point pk hpv]
    simp only
    rw [py_bind (x := (pk, pubType (ecType f)))]
    rotate_left
    · rw [← het]; rfl
    simp only
    rw [py_bind hs.lookup, py_bind (p2pkh_text _ _), py_bind (getBytes_text _), py_bind (getChecksum_bytes _)]
    rw [show checksum P (utf8 (addressText P v pk (pubType (ecType f)))) = addressHash P v pk (pubType (ecType f)) from rfl]
    by_cases ha : addressHash P v pk (pubType (ecType f)) = hash
    · rw [if_pos ha, if_pos ha]
      cases detail
      · rfl
      · simp only [if_true]
        rw [py_bind (bytesToString_bytes _), raw_eq_sec1]
        rfl
    · rw [if_neg ha, if_neg ha]; rfl

end Bip38
