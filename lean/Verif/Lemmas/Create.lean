import Verif.Lemmas.Ec
/-! # `create_new_encrypted_wif` -/
namespace Bip38
open Spec Props

variable {P : Prims} {self : BIP38} {network : Option String} {c : Coin} {n : String} {v : Net}

theorem prefix_byte (a b : UInt8) : integerToBytes (((a.toNat &&& 1) ^^^ b.toNat : Nat) : Int) = .ok [b ^^^ (a &&& 1)] := by
  have e : (a.toNat &&& 1) ^^^ b.toNat = (b ^^^ (a &&& 1)).toNat := by
    rw [UInt8.toNat_xor, UInt8.toNat_and, Nat.xor_comm]; rfl
  rw [e, integerToBytes_byte _ (UInt8.toNat_lt _), UInt8.ofNat_toNat]

theorem drop_63 {dk : Bytes} (h : dk.length = 64) : dk.drop 63 = [dk.getD 63 0] := by
  rw [List.drop_eq_getElem_cons (by omega), List.drop_of_length_le (by omega)]
  congr 1
  rw [List.getD_eq_getElem?_getD, List.getElem?_eq_getElem (by omega)]
  rfl

theorem publicKeyTypeOf_eq {type : String} (ht : IsWifType type) : publicKeyTypeOf type = .ok (pubType type) := by
  rcases ht with rfl | rfl <;> rfl

theorem newFlag_eq (lot : Bool) {type : String} (ht : IsWifType type) :
    newFlag (magicBytes lot) (pubType type) = .ok [ecFlag lot type] := by
  unfold newFlag
  rw [c_magicLot, c_magicNo]
  simp only [bind, Except.bind]
  rcases ht with rfl | rfl <;> cases lot
  · rw [if_neg (by decide), if_pos rfl, if_pos (by decide), c_00]; rfl
  · rw [if_pos rfl, if_pos (by decide), c_04]; rfl
  · rw [if_neg (by decide), if_pos rfl, if_neg (by decide), c_20]; rfl
  · rw [if_pos rfl, if_neg (by decide), c_24]; rfl

theorem py_bind {α β : Type} {m : Py α} {x : α} (h : m = .ok x) (f : α → Py β) : (m >>= f) = f x := by
  subst h; rfl

theorem py_bind_err {α β : Type} {m : Py α} {e : Exc} (h : m = .error e) (f : α → Py β) : (m >>= f) = .error e := by
  subst h; rfl

theorem checkDecodeOr_ok (t : Str) (b : Bytes) (cls : ExcClass) (msg : String) (h : checkDecode P.sha256 t = .ok b) :
    checkDecodeOr P t cls msg = .ok b := by
  unfold checkDecodeOr; rw [h]

/-- What is common to every call whose intermediate code and seed are usable. -/
theorem create_eq (hP : P.Lawful) (hs : Selects self network c n v) (it : Str) (type : String) (ht : IsWifType type)
    (seed : Data) (u seedB : Bytes) (hseed : bytesOrRandom seed u = .ok seedB)
    (lot : Bool) (ent pp : Bytes) (hent : ent.length = 8) (hppl : pp.length = 33)
    (hit : checkDecode P.sha256 it = .ok (magicBytes lot ++ ent ++ pp))
    (hf1 : 0 < be (dsha P seedB)) (hf2 : be (dsha P seedB) < n256k1)
    (q : PublicKey) (hq : PublicKey.fromBytes pp = .ok q)
    (pk : PublicKey) (hpk : q.point.mul (be (dsha P seedB)) = pk.point)
    (pb : PublicKey) (hpb : IsPublicKeyOf pb (dsha P seedB))
    (dk : Bytes) (hdk : dk = ecDerive P pp (addressHash P v pk (pubType type)) ent) :
    self.createNewEncryptedWif P it type seed network u =
      if Maskable (seedB.take 16) (dk.take 16)
        ∧ Maskable ((ecBlock1 P dk seedB).drop 8 ++ seedB.drop 16) ((dk.take 32).drop 16)
        ∧ Maskable ((pb.rawCompressed.drop 1).take 16) (dk.take 16)
        ∧ Maskable (pb.rawCompressed.drop 17) ((dk.take 32).drop 16) then
        .ok (createdDict P v lot type ent dk seedB pb.rawCompressed pk)
      else .error ⟨.valueError, "plaintext block must be 16 bytes"⟩ := by
  have hdl : dk.length = 64 := by rw [hdk]; exact ecDerive_length hP _ _ _
  have hkk : (dk.drop 32).length = 32 := by simp [hdl]
  have hml : (magicBytes lot).length = 8 := by cases lot <;> rfl
  have hlen : (magicBytes lot ++ ent ++ pp).length = 49 := by simp [hml, hent, hppl]
  have s1 : (magicBytes lot ++ ent ++ pp).take 8 = magicBytes lot := by
    rw [List.append_assoc, List.take_left' hml]
  have s2 : slice 8 16 (magicBytes lot ++ ent ++ pp) = ent :=
    slice_mid (magicBytes lot) ent pp (by simp) hml (by simp [hent])
  have s3 : (magicBytes lot ++ ent ++ pp).drop 16 = pp := List.drop_left' (by simp [hml, hent])
  have hon : OnSecp256k1 pk.x pk.y := by
    have hqv := ((fromBytes_iff pp q).mp hq).2
    have := mul_valid _ (valid_aff.mpr hqv) (be (dsha P seedB))
    rw [show Pt.aff q.x q.y = q.point from rfl, hpk] at this
    exact valid_aff.mp this
  have hpriv : PrivateKey.fromBytes (dsha P seedB) = .ok ⟨be (dsha P seedB), pb⟩ := by
    obtain ⟨pb', hpb', _, hok⟩ := priv_ok (dsha P seedB) ⟨dsha_length hP _, hf1, hf2⟩
    rw [hok, isPublicKeyOf_unique hpb hpb']
  have hpbl := rawCompressed_length pb
  have hpt : pubType type = "uncompressed" ∨ pubType type = "compressed" := by
    rcases ht with rfl | rfl <;> simp [pubType]
  have hadd : checksum P (utf8 (addressText P v pk (pubType type))) = addressHash P v pk (pubType type) := rfl
  have hpbx : pb.rawCompressed.take 1 = [pb.rawCompressed.headD 0] := by
    cases h : pb.rawCompressed with
    | nil => rw [h] at hpbl; simp at hpbl
    | cons a t => rfl
  have e17 : slice 1 17 pb.rawCompressed = (pb.rawCompressed.drop 1).take 16 := by
    unfold slice; rw [List.drop_take]
  have e4 : slice 16 32 dk = (dk.take 32).drop 16 := rfl
  have hbe1 : ∀ x : UInt8, be [x] = x.toNat := fun x => by rw [← b2i_be, b2i_singleton]
  have hX : ∀ a b, xorBytes a b = .ok (xb a b) := xorBytes_xb
  have hE : ∀ a b, Maskable a b → AES.encrypt P ⟨dk.drop 32⟩ (xb a b) = .ok (P.aesEncrypt (dk.drop 32) (mask a b)) :=
    fun a b h => aes_xb_ok _ _ _ h
  have hF : ∀ a b, ¬ Maskable a b → AES.encrypt P ⟨dk.drop 32⟩ (xb a b)
      = .error ⟨.valueError, "plaintext block must be 16 bytes"⟩ := fun a b h => aes_xb_err _ _ _ h
  have hb1 : P.aesEncrypt (dk.drop 32) (mask (seedB.take 16) (dk.take 16)) = ecBlock1 P dk seedB := rfl
  have hpf : integerToBytes (((b2i (dk.drop 63) &&& 1) ^^^ b2i (pb.rawCompressed.take 1) : Nat) : Int)
      = .ok [pb.rawCompressed.headD 0 ^^^ (dk.getD 63 0 &&& 1)] := by
    rw [b2i_be, b2i_be, drop_63 hdl, hpbx, hbe1, hbe1, prefix_byte]
  have hsc : P.scrypt pp (addressHash P v pk (pubType type) ++ ent) 1024 1 1 64 = dk := by rw [hdk]; rfl
  have hpk' : PrivateKey.publicKey ⟨be (dsha P seedB), pb⟩ = pb := rfl
  unfold BIP38.createNewEncryptedWif
  rw [hs.select]
  simp only
  rw [py_bind (not_raise (not_not.mpr hs.mem)), py_bind hseed, py_bind (checkDecodeOr_ok _ _ _ _ hit),
    py_bind (not_raise (fun h => h hlen)), s1, s2, s3, py_bind (publicKeyTypeOf_eq ht), py_bind (newFlag_eq lot ht),
    py_bind (doubleSha256_bytes _), b2i_be, py_bind (not_raise (by rw [← n256k1_eq]; exact fun h => h ⟨hf1, hf2⟩)),
    py_bind hq, hpk, py_bind (fromPoint_point pk hon), py_bind hs.lookup, py_bind (p2pkh_text _ _),
    py_bind (getBytes_text _), py_bind (getChecksum_bytes _), hadd, hsc, py_bind (AES.new_ok _ hkk), e4, py_bind (hX _ _)]
  by_cases m1 : Maskable (seedB.take 16) (dk.take 16)
  · rw [py_bind (hE _ _ m1), hb1, py_bind (hX _ _)]
    by_cases m2 : Maskable ((ecBlock1 P dk seedB).drop 8 ++ seedB.drop 16) ((dk.take 32).drop 16)
    · rw [py_bind (hE _ _ m2), py_bind c_ec, py_bind hpriv, hpk', py_bind hpf, e17, py_bind (hX _ _)]
      by_cases m3 : Maskable ((pb.rawCompressed.drop 1).take 16) (dk.take 16)
      · rw [py_bind (hE _ _ m3), py_bind (hX _ _)]
        by_cases m4 : Maskable (pb.rawCompressed.drop 17) ((dk.take 32).drop 16)
        · rw [py_bind (hE _ _ m4), py_bind c_conf, py_bind (bytesToString_bytes _), py_bind (bytesToString_bytes _),
            if_pos ⟨m1, m2, m3, m4⟩, raw_eq_sec1]
          congr 1
          simp [createdDict, ensureString, checkText, checkEncode_eq, ecRecord, confirmRecord, ecBlock2]
        · rw [py_bind_err (hF _ _ m4), if_neg (fun h => m4 h.2.2.2)]
      · rw [py_bind_err (hF _ _ m3), if_neg (fun h => m3 h.2.2.1)]
    · rw [py_bind_err (hF _ _ m2), if_neg (fun h => m2 h.2.1)]
  · rw [py_bind_err (hF _ _ m1), if_neg (fun h => m1 h.1)]

end Bip38
