import Verif.Props.Confirm
/-! # Cases of C30 and C35, and the refutation of C30 without its condition -/
namespace Bip38.Props
open Bip38 Spec

/-- A case of C30 and C35: with lot 100001 and sequence 7 and the seed of 24 bytes 9 the code is confirmed. -/
example : ∃ it r d, intermediateCode (unit 1) [] (some 100001) (some 7) (.bytes (List.replicate 4 5)) [] = .ok it
    ∧ bitcoinObject.createNewEncryptedWif (unit 1) it "wif" (.bytes (List.replicate 24 9)) none [] = .ok r
    ∧ bitcoinObject.confirmCode (unit 1) [] r.confirmationCode none true = .ok (.detail d) ∧ d.address = r.address
    ∧ d.lot = some 100001 ∧ d.sequence = some 7 := by
  obtain ⟨it, r, h1, h2⟩ := unit_create [] (some 100001) (some 7) (List.replicate 4 5) (List.replicate 24 9)
    (Or.inr ⟨Or.inl rfl, 100001, 7, rfl, rfl, by omega⟩) (by decide +kernel) (by decide) (by decide +kernel)
  obtain ⟨seedB, pb, h3, h4, h5, _⟩ := C30_confirm_create (unit_lawful 1) bitcoin_selects [] _ _ _ _ it h1 _ _ _ r h2
  have : List.replicate 24 9 = seedB := Except.ok.inj h3.ok
  subst this
  have := isPublicKeyOf_unique h4 (genKey_unit _ (by decide))
  subst this
  obtain ⟨⟨d, g1, g2, _, _, g5, _⟩, _⟩ := h5 (by decide +kernel)
  exact ⟨it, r, d, h1, h2, g1, g2, g5 (by decide +kernel)⟩

/-- All hashes are the number 153, scrypt outputs are made of the byte 1. The x coordinate of 153 times the generator starts with a zero
byte. -/
def unit153 : Prims := { toy 0 1 with sha256 := fun _ => toBE 32 153 }

theorem unit153_lawful : unit153.Lawful where
  sha256_length := by intro b; exact (by decide : (toBE 32 153).length = 32)
  ripemd160_length := (toy_lawful 0 1).ripemd160_length
  scrypt_length := (toy_lawful 0 1).scrypt_length
  aesEncrypt_length := (toy_lawful 0 1).aesEncrypt_length
  aesDecrypt_length := (toy_lawful 0 1).aesDecrypt_length
  aesDecrypt_aesEncrypt := (toy_lawful 0 1).aesDecrypt_aesEncrypt

def key153 : PublicKey := ⟨0xe3ae1974566ca06cc516d47e0fb165a674a3dabcfca15e722f0e3450f45889,
  0x2aeabe7e4531510116217f07bf4d07300de97e4874f81f533420a72eeb0bd6a4⟩

theorem key153_unit (b : Bytes) : IsPublicKeyOf key153 (dsha unit153 b) := by
  rw [isPublicKeyOf_iff]
  exact (by decide +kernel : gen.mul (fromBE (toBE 32 153)) = key153.point)

/-- C30 without its condition is false of the code. -/
theorem C30_refuted : ¬ ∀ (P : Prims), P.Lawful → ∀ (pass it : Str) (salt seed : Bytes) (r : Created), seed.length = 24 →
    intermediateCode P pass none none (.bytes salt) [] = .ok it →
    bitcoinObject.createNewEncryptedWif P it "wif" (.bytes seed) none [] = .ok r →
    bitcoinObject.confirmCode P pass r.confirmationCode none false = .ok (.address r.address) := by
  intro hall
  have hk : IsPrivateKey (passFactor unit153 (usesLot none none) [] (ownerEntropy none none (List.replicate 8 5))) :=
    (by decide +kernel : IsPrivateKey (List.replicate 32 1))
  obtain ⟨pp, hpp, hon, _⟩ := priv_ok _ hk
  have hit := (intermediate_eq (P := unit153) [] none none (.bytes (List.replicate 8 5)) [] (List.replicate 8 5) (supplies rfl) _ rfl).2.2 noLot8 pp hk hpp
  have hr : Ready unit153 (checkText unit153 (intermediateRecord (usesLot none none) (ownerEntropy none none (List.replicate 8 5)) pp)) "wif"
      (.bytes (List.replicate 24 9)) [] (List.replicate 24 9) false (List.replicate 8 5) (sec1 pp "compressed") pp :=
    { seed := supplies rfl
      code := dec_enc _
      ent_length := rfl
      point_length := by simp [sec1]
      type := Or.inl rfl
      factor := (by decide +kernel : IsPrivateKey (toBE 32 153))
      point := (fromBytes_iff _ _).mp (by rw [← raw_eq_sec1]; exact (C15_public_key_roundtrip pp hon "compressed").1) }
  obtain ⟨pk, pb, _, hpb, hcreate⟩ := create_ready unit153_lawful bitcoin_selects hr
  have := isPublicKeyOf_unique hpb (key153_unit _)
  subst this
  have hc := (hcreate _ rfl).trans (if_pos (by exact (by decide +kernel : Blocks unit153 (List.replicate 64 1) (List.replicate 24 9) (sec1 key153 "compressed"))))
  obtain ⟨seedB, pb, h3, h4, _, h6⟩ := C30_confirm_create unit153_lawful bitcoin_selects [] _ _ _ _ _ hit _ _ _ _ hc
  have : List.replicate 24 9 = seedB := Except.ok.inj h3.ok
  subst this
  have := isPublicKeyOf_unique h4 (key153_unit _)
  subst this
  obtain ⟨x, hx, _⟩ := h6 (Or.inl (by decide +kernel)) false
  rw [hall _ unit153_lawful [] _ _ _ _ (by decide) hit hc] at hx
  simp at hx

/-- Cases of C35: a text with a wrong checksum, a short payload, a wrong prefix. -/
example : (∃ x, bitcoinObject.confirmCode (toy 1 0) [] (b58encode (List.replicate 55 2)) none = .error x ∧ x.cls = .error)
    ∧ (∃ x, bitcoinObject.confirmCode (toy 1 0) [] (b58encode (List.replicate 50 2 ++ List.replicate 4 1)) none = .error x ∧ x.cls = .error)
    ∧ (∃ x, bitcoinObject.confirmCode (toy 1 0) [] (b58encode (List.replicate 51 2 ++ List.replicate 4 1)) none = .error x ∧ x.cls = .error) :=
  ⟨C35_checksum (toy_lawful _ _) bitcoin_selects _ _ _ (by
      rintro ⟨raw, h⟩
      have h := Except.ok.inj ((C01_decode_encode_bitcoin _).symm.trans h)
      have hcs : checksum (toy 1 0) raw = [1, 1, 1, 1] := rfl
      rw [hcs] at h
      have := congrArg List.getLast? h
      rw [List.getLast?_append] at this
      simp at this),
   C35_length (toy_lawful _ _) bitcoin_selects _ _ _ _ (C01_decode_encode_bitcoin _) (by decide),
   C35_prefix (toy_lawful _ _) bitcoin_selects _ _ _ _ (C01_decode_encode_bitcoin _) (by decide)⟩

end Bip38.Props
