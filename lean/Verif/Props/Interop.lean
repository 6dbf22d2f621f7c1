import Verif.Spec.Standard
import Verif.Props.ConfirmExamples
import Verif.Props.EcExamples
import Verif.Props.NoEc
/-!
# Properties C64, C65: records written by other programs, and what other programs see
-/
namespace Bip38.Props
open Bip38 Spec

variable {P : Prims} {obj : BIP38} {network : Option String} {c : Coin} {n : String} {v : Net}

/-! ## C64 -/

/-- C64: an encrypted key written by any program that follows BIP38, without EC multiplication. `decrypt` with the right passphrase
returns it, with all details, if the private key does not start with a zero byte; otherwise it raises `Secp256k1Error`. -/
theorem C64_decrypt_standard (hP : P.Lawful) (hs : Selects obj network c n v) (pass : Str) (key : Bytes) (hk : IsPrivateKey key)
    (type : String) (hty : IsWifType type) (pk : PublicKey) (hpk : IsPublicKeyOf pk key) (hash : Bytes)
    (hhash : hash = addressHash P v pk (pubType type)) (e : Str)
    (he : e = checkText P (noEcRecord P type hash (stretch P pass hash 64) key)) (detail : Bool) :
    (key.getD 0 0 ≠ 0 → obj.decrypt P e pass network detail = .ok (present detail (keyDetail P v key pk type none none))) ∧
    (key.getD 0 0 = 0 → ∃ x, obj.decrypt P e pass network detail = .error x ∧ x.cls = .secp256k1Error) := by
  have hne : key ≠ [] := by intro h; have := hk.1; rw [h] at this; simp at this
  have hg := head_getD key hne
  have hl : hash.length = 4 := by rw [hhash]; exact addressHash_length hP _ _ _
  have hd := decrypt_record hP hs e pass detail type hty key hash _ hk hl (checksum_length hP _) pk hpk
    (by rw [he]; exact dec_enc _)
  rw [if_pos hhash.symm] at hd
  refine ⟨fun h => by rw [hd]; exact if_neg (hg.mpr h), fun h => ⟨_, by rw [hd]; exact if_pos (by by_contra h'; exact hg.mp h' h), rfl⟩⟩

theorem standard_block1 (dk seed : Bytes) (hdk : dk.length = 64) (hs : seed.length = 24) :
    ecBlock1 P dk seed = standardBlock1 P dk seed := by
  unfold ecBlock1 standardBlock1
  rw [mask_eq _ _ (by simp [hs]) (by simp [hdk])]

theorem standard_block2 (hP : P.Lawful) (dk seed : Bytes) (hdk : dk.length = 64) (hs : seed.length = 24) :
    ecBlock2 P dk seed = standardBlock2 P dk seed := by
  have := ecBlock1_length hP hdk (seed := seed)
  unfold ecBlock2 standardBlock2
  rw [mask_eq _ _ (by simp [hs, this]) (by simp [hdk]), standard_block1 dk seed hdk hs]

theorem standard_ecRecord (hP : P.Lawful) (f : UInt8) (hash ent dk seed : Bytes) (hdk : dk.length = 64) (hs : seed.length = 24) :
    ecRecord P f hash ent dk seed = standardEcRecord P f hash ent dk seed := by
  unfold ecRecord standardEcRecord
  rw [standard_block1 dk seed hdk hs, standard_block2 hP dk seed hdk hs]

theorem standard_confirmRecord (f : UInt8) (hash ent dk : Bytes) (pb : PublicKey) (hdk : dk.length = 64) :
    confirmRecord P f hash ent dk (sec1 pb "compressed") = standardConfirmRecord P f hash ent dk pb := by
  have hsec : sec1 pb "compressed" = (if pb.y % 2 = 0 then 2 else 3) :: toBE 32 pb.x := by simp [sec1]
  unfold confirmRecord standardConfirmRecord
  rw [hsec]
  simp only [List.headD_cons, List.drop_succ_cons, List.drop_zero]
  rw [mask_eq _ _ (by simp) (by simp [hdk]), mask_eq _ _ (by simp) (by simp [hdk])]

theorem Shared.length (hP : P.Lawful) {pass : Str} {lot : Bool} {ent : Bytes} {type : String} {seed key : Bytes} {pk : PublicKey} {dk : Bytes}
    (h : Shared P v pass lot ent type seed key pk dk) : dk.length = 64 := by
  obtain ⟨pp, _, hd⟩ := h.derived
  rw [hd]; exact ecDerive_length hP _ _ _

/-- C64: an encrypted key with EC multiplication, written by any program that follows BIP38 (24-byte seed). `decrypt` with the right
passphrase returns it if three bytes are not 0: byte 8 of the first encrypted block, byte 0 of the seed and byte 0 of the private key.
If only the last one is 0, it raises `Secp256k1Error`; if one of the others is 0 it does not report the seed (it raises, unless another
seed happens to have the same 4-byte address hash). -/
theorem C64_decrypt_standard_ec (hP : P.Lawful) (hs : Selects obj network c n v) (pass : Str) (lot : Bool) (ent : Bytes) (type : String)
    (seed key : Bytes) (pk : PublicKey) (dk : Bytes) (h : Shared P v pass lot ent type seed key pk dk) (e : Str)
    (he : e = checkText P (standardEcRecord P (ecFlag lot type) (addressHash P v pk (pubType type)) ent dk seed)) :
    ((standardBlock1 P dk seed).getD 8 0 ≠ 0 ∧ seed.getD 0 0 ≠ 0 ∧ key.getD 0 0 ≠ 0 → ∀ detail,
      obj.decrypt P e pass network detail = .ok (present detail (keyDetail P v key pk type (some seed) (storedLot lot ent)))) ∧
    ((standardBlock1 P dk seed).getD 8 0 ≠ 0 ∧ seed.getD 0 0 ≠ 0 ∧ key.getD 0 0 = 0 → ∀ detail,
      ∃ x, obj.decrypt P e pass network detail = .error x ∧ x.cls = .secp256k1Error) ∧
    ((standardBlock1 P dk seed).getD 8 0 = 0 ∨ seed.getD 0 0 = 0 → ∀ d,
      obj.decrypt P e pass network true = .ok (.detail d) → d.seed ≠ some (hex seed)) := by
  have hdl := Shared.length hP h
  obtain ⟨pp, hpp, hdk⟩ := h.derived
  have hcond := C29_condition (P := P) dk seed key h.seed_length h.key_ok.1
  have hb1 := standard_block1 (P := P) dk seed hdl h.seed_length
  rw [hb1] at hcond
  have he' : e = checkText P (ecRecord P (ecFlag lot type) (addressHash P v pk (pubType type)) ent dk seed) := by
    rw [he, standard_ecRecord hP _ _ _ _ _ hdl h.seed_length]
  have l1 := ecBlock1_length hP hdl (seed := seed)
  have f1 : Fits16 (seed.take 16) (dk.take 16) := fits_16 _ _ (by simp) (by simp)
  have f2 : Fits16 ((ecBlock1 P dk seed).drop 8 ++ seed.drop 16) ((dk.take 32).drop 16) :=
    fits_16 _ _ (by simp [l1, h.seed_length]) (by simp [hdl])
  obtain ⟨g1, g2, _⟩ := decrypt_written hP hs h.entropy rfl h.pass_factor hpp h.type_ok h.seed_factor h.key_value h.key_ok h.public_key hdk
    f1 f2 he'
  refine ⟨fun hr detail => g1 (hcond.mpr hr) detail, fun ⟨q1, q2, q3⟩ detail => ?_, fun hr => g2 fun hc => ?_⟩
  · exact decrypt_written_zero hP hs h.entropy rfl h.pass_factor hpp h.type_ok h.seed_factor h.key_value h.key_ok hdk f1 f2 he'
      (by rw [hb1]; exact q1) (by
        have hne : seed.take 16 ≠ [] := by intro h'; have := congrArg List.length h'; simp [h.seed_length] at this
        refine strip_of_head _ hne ?_
        rw [head_getD _ hne]
        cases seed with
        | nil => exact q2
        | cons a t => exact q2) q3 detail
  · obtain ⟨q1, q2, _⟩ := hcond.mp hc
    rcases hr with hr | hr
    · exact q1 hr
    · exact q2 hr

/-- C64: a confirmation code written by any program that follows BIP38. `confirm_code` with the right passphrase returns address, public
key and numbers if the bytes 0 and 16 of the x coordinate of the seed point are not 0; otherwise it raises `PassphraseError`. -/
theorem C64_confirm_standard (hP : P.Lawful) (hs : Selects obj network c n v) (pass : Str) (lot : Bool) (ent : Bytes) (type : String)
    (seed key : Bytes) (pk : PublicKey) (dk : Bytes) (h : Shared P v pass lot ent type seed key pk dk) (pb : PublicKey)
    (hpb : IsPublicKeyOf pb (dsha P seed)) (code : Str)
    (hcode : code = checkText P (standardConfirmRecord P (ecFlag lot type) (addressHash P v pk (pubType type)) ent dk pb))
    (detail : Bool) :
    ((toBE 32 pb.x).getD 0 0 ≠ 0 ∧ (toBE 32 pb.x).getD 16 0 ≠ 0 →
      obj.confirmCode P pass code network detail = .ok (presentAddress detail (confirmDict P v pk type (storedLot lot ent)))) ∧
    ((toBE 32 pb.x).getD 0 0 = 0 ∨ (toBE 32 pb.x).getD 16 0 = 0 →
      ∃ x, obj.confirmCode P pass code network detail = .error x ∧ x.cls = .passphraseError) := by
  have hdl := Shared.length hP h
  obtain ⟨pp, hpp, hdk⟩ := h.derived
  obtain ⟨g, b⟩ := confirm_written hP hs h.entropy rfl h.pass_factor hpp h.type_ok h.seed_factor hpb h.key_value h.public_key hdk
    (code := code) (by rw [hcode, standard_confirmRecord _ _ _ _ _ hdl])
  exact ⟨fun hg => g hg detail, fun hb => b hb detail⟩

/-! ## C65 -/

/-- C65: what `create_new_encrypted_wif` returns for a code of `intermediate_code` and a 24-byte seed are the records of the standard: any
program that follows BIP38 decrypts and confirms them. -/
theorem C65_created_standard (hP : P.Lawful) (hs : Selects obj network c n v) (pass : Str) (lot sequence : Option Int) (salt : Data)
    (u : Bytes) (it : Str) (hi : intermediateCode P pass lot sequence salt u = .ok it) (type : String) (seed : Data) (u' seedB : Bytes)
    (hseed : Supplies seed u' seedB) (hl : seedB.length = 24) (r : Created)
    (hc : obj.createNewEncryptedWif P it type seed network u' = .ok r) :
    ∃ saltB key pk pb dk, Supplies salt u saltB
      ∧ Shared P v pass (usesLot lot sequence) (ownerEntropy lot sequence saltB) type seedB key pk dk
      ∧ IsPublicKeyOf pb (dsha P seedB)
      ∧ r.encryptedWif = checkText P (standardEcRecord P (ecFlag (usesLot lot sequence) type) (addressHash P v pk (pubType type))
          (ownerEntropy lot sequence saltB) dk seedB)
      ∧ r.confirmationCode = checkText P (standardConfirmRecord P (ecFlag (usesLot lot sequence) type)
          (addressHash P v pk (pubType type)) (ownerEntropy lot sequence saltB) dk pb)
      ∧ r.publicKey = hex (sec1 pk (pubType type)) ∧ r.publicKeyType = pubType type
      ∧ r.address = addressText P v pk (pubType type) ∧ r.seed = hex seedB := by
  obtain ⟨saltB, seedB', pf, pp, pb, key, pk, dk, h1, _, h2, m⟩ := made hP hs pass lot sequence salt u it hi type seed u' r hc
  have := Except.ok.inj (hseed.ok.symm.trans h2.ok)
  subst this
  have hpf := m.pass_factor
  subst hpf
  have hdl : dk.length = 64 := by rw [m.derived]; exact ecDerive_length hP _ _ _
  refine ⟨saltB, key, pk, pb, dk, h1, ⟨m.ent_length, m.type_ok, hl, m.pass_factor_ok, m.factor_ok, m.key_ok, m.key_value, m.public_key,
    pp, m.pass_point, m.derived⟩, m.point_b, ?_, ?_, ?_, ?_, ?_, ?_⟩
  · rw [m.result, ← standard_ecRecord hP _ _ _ _ _ hdl hl]; rfl
  · rw [m.result, ← standard_confirmRecord _ _ _ _ _ hdl]; rfl
  all_goals rw [m.result]; rfl

/-! Concrete cases. -/

/-- A shared key under the primitives `unit 1`, for any seed of 24 bytes. -/
theorem shared_unit (seed : Bytes) (hl : seed.length = 24) :
    ∃ pk, Shared (unit 1) ⟨0x80, 0⟩ [] false (List.replicate 8 5) "wif" seed (List.replicate 32 1) pk (List.replicate 64 1) := by
  have hk : IsPrivateKey (List.replicate 32 1) := by decide +kernel
  have hd : dsha (unit 1) seed = toBE 32 1 := unit_dsha _ (by omega)
  have hpf : passFactor (unit 1) false [] (List.replicate 8 5) = List.replicate 32 1 := rfl
  obtain ⟨pk, hpk, _, _⟩ := priv_ok _ hk
  exact ⟨pk, rfl, Or.inl rfl, hl, by rw [hpf]; exact hk, by rw [hd]; decide +kernel, hk, by rw [hpf, hd]; decide +kernel, hpk,
    pk, by rw [hpf]; exact hpk, rfl⟩

/-- A key that is decrypted and confirmed. -/
example : ∃ e code key pk, bitcoinObject.decrypt (unit 1) e [] = .ok (.wif (wifText (unit 1) ⟨0x80, 0⟩ key "wif"))
    ∧ bitcoinObject.confirmCode (unit 1) [] code = .ok (.address (addressText (unit 1) ⟨0x80, 0⟩ pk "uncompressed")) := by
  obtain ⟨pk, h⟩ := shared_unit (List.replicate 24 9) (by decide)
  exact ⟨_, _, _, pk, (C64_decrypt_standard_ec (unit_lawful 1) bitcoin_selects _ _ _ _ _ _ _ _ h _ rfl).1 (by decide +kernel) false,
    (C64_confirm_standard (unit_lawful 1) bitcoin_selects _ _ _ _ _ _ _ _ h _ (genKey_unit _ (by decide)) _ rfl false).1
      (by decide +kernel)⟩

/-- A key that is not: byte 8 of the first encrypted block is 0. -/
example : ∃ e : Str, ∀ d, bitcoinObject.decrypt (unit 1) e [] none true = .ok (.detail d) → d.seed ≠ some (hex (List.replicate 24 1)) := by
  obtain ⟨pk, h⟩ := shared_unit (List.replicate 24 1) (by decide)
  exact ⟨_, (C64_decrypt_standard_ec (unit_lawful 1) bitcoin_selects _ _ _ _ _ _ _ _ h _ rfl).2.2 (Or.inl (by decide +kernel))⟩

/-- Without EC multiplication: the private key 1 is not decrypted, the key of 32 bytes 1 is. -/
example : ∃ e e' w, (∃ x, bitcoinObject.decrypt (unit 1) e [] = .error x ∧ x.cls = .secp256k1Error)
    ∧ bitcoinObject.decrypt (unit 1) e' [] = .ok (.wif w) := by
  obtain ⟨pk, hpk, _, _⟩ := priv_ok (toBE 32 1) (by decide +kernel)
  obtain ⟨pk', hpk', _, _⟩ := priv_ok (List.replicate 32 1) (by decide +kernel)
  exact ⟨_, _, _, (C64_decrypt_standard (unit_lawful 1) bitcoin_selects [] _ (by decide +kernel) "wif" (Or.inl rfl) pk hpk _ rfl _ rfl false).2
      (by decide +kernel),
    (C64_decrypt_standard (unit_lawful 1) bitcoin_selects [] _ (by decide +kernel) "wif" (Or.inl rfl) pk' hpk' _ rfl _ rfl false).1
      (by decide +kernel)⟩

/-- A case of C65. -/
example : ∃ it r, intermediateCode (unit 1) [] none none (.bytes (List.replicate 8 5)) [] = .ok it
    ∧ bitcoinObject.createNewEncryptedWif (unit 1) it "wif" (.bytes (List.replicate 24 9)) none [] = .ok r
    ∧ ∃ saltB key pk pb dk, Supplies (.bytes (List.replicate 8 5)) [] saltB
      ∧ Shared (unit 1) ⟨0x80, 0⟩ [] false (ownerEntropy none none saltB) "wif" (List.replicate 24 9) key pk dk
      ∧ IsPublicKeyOf pb (dsha (unit 1) (List.replicate 24 9)) := by
  obtain ⟨it, r, h1, h2⟩ := unit_create [] none none (List.replicate 8 5) (List.replicate 24 9) noLot8
    (by decide +kernel) (by decide) (by decide +kernel)
  obtain ⟨saltB, key, pk, pb, dk, g1, g2, g3, _⟩ := C65_created_standard (unit_lawful 1) bitcoin_selects [] none none _ _ it h1 "wif" _ _ _
    (supplies rfl) (by decide) r h2
  exact ⟨it, r, h1, h2, saltB, key, pk, pb, dk, g1, g2, g3⟩

end Bip38.Props
