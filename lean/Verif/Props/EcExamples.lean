import Verif.Props.Ec
/-!
# Cases of C29, C31 - C33, and their refutations

With the primitives `unit 1` every pass factor is `0101…01` (or 1, with a lot), every seed factor is 1, and all derived bytes are 1.
-/
namespace Bip38.Props
open Bip38 Spec

/-- The generator as a public key. -/
def genKey : PublicKey := ⟨0x79BE667EF9DCBBAC55A06295CE870B07029BFCDB2DCE28D959F2815B16F81798,
  0x483ADA7726A3C4655DA4FBFC0E1108A8FD17B448A68554199C47D08FFB10D4B8⟩

theorem unit_dsha (b : Bytes) (h : b.length < 32) : dsha (unit 1) b = toBE 32 1 := by
  have h1 : (unit 1).sha256 b = toBE 32 1 := by
    simp only [unit]
    refine if_neg ?_
    rintro (h' | h')
    · omega
    · rw [h'] at h; simp at h
  unfold dsha
  rw [h1]
  decide +kernel

theorem unit_dsha_lot (b : Bytes) (h : b.length = 40) : dsha (unit 1) b = List.replicate 32 1 := by
  have h1 : (unit 1).sha256 b = List.replicate 32 1 := if_pos (Or.inl h)
  unfold dsha
  rw [h1]
  decide +kernel

theorem genKey_unit (b : Bytes) (h : b.length < 32) : IsPublicKeyOf genKey (dsha (unit 1) b) := by
  unfold IsPublicKeyOf
  rw [unit_dsha b h, show be (toBE 32 1) = 1 by decide +kernel]
  rfl

theorem unit_passFactor (lot sequence : Option Int) (pass : Str) (saltB : Bytes) (ha : Accepted lot sequence saltB.length) :
    passFactor (unit 1) (usesLot lot sequence) pass (ownerEntropy lot sequence saltB) = List.replicate 32 1 := by
  unfold passFactor
  split
  · rename_i hu
    obtain ⟨hl, _⟩ := accepted_lot ha hu
    refine unit_dsha_lot _ ?_
    have : (ownerEntropy lot sequence saltB).length = 8 := by
      simp only [ownerEntropy, hu, if_true, lotEntropy, List.length_append, List.length_take, toBE_length]
      omega
    simp [stretch, unit, toy, this]
  · rfl

/-- With these primitives the codes of `intermediate_code` with 8 bytes of entropy serve to create keys from the seeds with usable blocks. -/
theorem unit_create (pass : Str) (lot sequence : Option Int) (saltB seedB : Bytes) (ha : Accepted lot sequence saltB.length)
    (h8 : (ownerEntropy lot sequence saltB).length = 8) (hne : 1 ≤ seedB.length ∧ seedB.length < 32)
    (hb : Blocks (unit 1) (List.replicate 64 1) seedB (sec1 genKey "compressed")) :
    ∃ it r, intermediateCode (unit 1) pass lot sequence (.bytes saltB) [] = .ok it ∧
      bitcoinObject.createNewEncryptedWif (unit 1) it "wif" (.bytes seedB) none [] = .ok r := by
  have hsb : Supplies (.bytes saltB) [] saltB := by
    cases saltB with
    | nil => unfold Accepted at ha; simp at ha
    | cons a t => exact supplies rfl
  have hseed : Supplies (.bytes seedB) [] seedB := by
    cases seedB with
    | nil => simp at hne
    | cons a t => exact supplies rfl
  have hk : IsPrivateKey (passFactor (unit 1) (usesLot lot sequence) pass (ownerEntropy lot sequence saltB)) := by
    rw [unit_passFactor lot sequence pass saltB ha]; decide +kernel
  obtain ⟨pp, hpp, hon, _⟩ := priv_ok _ hk
  have hit := (intermediate_eq pass lot sequence (.bytes saltB) [] saltB hsb _ rfl).2.2 ha pp hk hpp
  have hr : Ready (unit 1) (checkText (unit 1) (intermediateRecord (usesLot lot sequence) (ownerEntropy lot sequence saltB) pp)) "wif"
      (.bytes seedB) [] seedB (usesLot lot sequence) (ownerEntropy lot sequence saltB) (sec1 pp "compressed") pp :=
    { seed := hseed
      code := dec_enc _
      ent_length := h8
      point_length := by simp [sec1]
      type := Or.inl rfl
      factor := by rw [unit_dsha _ hne.2]; decide +kernel
      point := (fromBytes_iff _ _).mp (by rw [← raw_eq_sec1]; exact (C15_public_key_roundtrip pp hon "compressed").1) }
  obtain ⟨pk, pb, _, hpb, hall⟩ := create_ready (unit_lawful 1) bitcoin_selects hr
  have := isPublicKeyOf_unique hpb (genKey_unit seedB hne.2)
  subst this
  exact ⟨_, _, hit, (hall _ rfl).trans (if_pos hb)⟩

/-- With these primitives, what `decrypt` does with the created record. -/
theorem unit_decrypt (pass it : Str) (lot sequence : Option Int) (saltB seedB : Bytes) (hsl : 1 ≤ saltB.length)
    (hne : 1 ≤ seedB.length ∧ seedB.length < 32) (r : Created)
    (hi : intermediateCode (unit 1) pass lot sequence (.bytes saltB) [] = .ok it)
    (hc : bitcoinObject.createNewEncryptedWif (unit 1) it "wif" (.bytes seedB) none [] = .ok r) :
    Recoverable (unit 1) (List.replicate 64 1) seedB (List.replicate 32 1) ↔
      ∃ d, bitcoinObject.decrypt (unit 1) r.encryptedWif pass none true = .ok (.detail d) ∧ d.seed = some r.seed := by
  obtain ⟨sb, sd, pp, key, pk, dk, h1, h2, _, hdk, hkv, hk, _, _, _, _, g1, g2⟩ :=
    C29_decrypt_create (unit_lawful 1) bitcoin_selects pass lot sequence (.bytes saltB) [] it hi "wif" (.bytes seedB) [] r hc
  have hseed : Supplies (.bytes seedB) [] seedB := by
    cases seedB with
    | nil => simp at hne
    | cons a t => exact supplies rfl
  have hsb : Supplies (.bytes saltB) [] saltB := by
    cases saltB with
    | nil => simp at hsl
    | cons a t => exact supplies rfl
  have := Except.ok.inj (hseed.ok.symm.trans h2.ok)
  subst this
  have := Except.ok.inj (hsb.ok.symm.trans h1.ok)
  subst this
  obtain ⟨ha, _⟩ := (C26_validation pass lot sequence (.bytes saltB) [] saltB hsb).2.1.mp ⟨it, hi⟩
  rw [unit_passFactor lot sequence pass saltB ha, unit_dsha _ hne.2] at hkv
  have hd : dk = List.replicate 64 1 := hdk
  have hke : key = List.replicate 32 1 := by
    have : be key = be (List.replicate 32 1) := hkv.trans
      (by decide +kernel : be (List.replicate 32 1) * be (toBE 32 1) % n256k1 = be (List.replicate 32 1))
    rw [be_eq, be_eq] at this
    rw [← toBE_fromBE' key hk.1, this, toBE_fromBE' _ (by simp)]
  subst hd hke
  constructor
  · intro hr
    obtain ⟨⟨d, hd, _, _, _, _, _, _, hs⟩, _⟩ := g1 hr
    exact ⟨d, hd, hs⟩
  · rintro ⟨d, hd, hs⟩
    by_contra hr
    exact g2 hr d hd hs

theorem noLot8 : Accepted none none (List.replicate 8 (5 : UInt8)).length := Or.inl ⟨rfl, Or.inl rfl, Or.inl rfl⟩

/-- A case of C29 and C31: with lot 100001 and sequence 7, 24 bytes 9 are recovered, and the numbers are reported. -/
example : ∃ it r d, intermediateCode (unit 1) [] (some 100001) (some 7) (.bytes (List.replicate 4 5)) [] = .ok it
    ∧ bitcoinObject.createNewEncryptedWif (unit 1) it "wif" (.bytes (List.replicate 24 9)) none [] = .ok r
    ∧ bitcoinObject.decrypt (unit 1) r.encryptedWif [] none true = .ok (.detail d) ∧ d.seed = some r.seed
    ∧ d.lot = some 100001 ∧ d.sequence = some 7 := by
  obtain ⟨it, r, h1, h2⟩ := unit_create [] (some 100001) (some 7) (List.replicate 4 5) (List.replicate 24 9)
    (Or.inr ⟨Or.inl rfl, 100001, 7, rfl, rfl, by omega⟩) (by decide +kernel) (by decide) (by decide +kernel)
  obtain ⟨d, h3, h4⟩ := (unit_decrypt [] it _ _ _ _ (by decide) (by decide) r h1 h2).mp (by unfold Recoverable; decide +kernel)
  exact ⟨it, r, d, h1, h2, h3, h4,
    (C31_lot_sequence (unit_lawful 1) bitcoin_selects [] _ _ _ _ it h1 _ _ _ r h2 d h3).1 (by decide +kernel)⟩

/-- A case of C29: 24 bytes 9 are recovered. -/
example : ∃ it r d, intermediateCode (unit 1) [] none none (.bytes (List.replicate 8 5)) [] = .ok it
    ∧ bitcoinObject.createNewEncryptedWif (unit 1) it "wif" (.bytes (List.replicate 24 9)) none [] = .ok r
    ∧ bitcoinObject.decrypt (unit 1) r.encryptedWif [] none true = .ok (.detail d) ∧ d.seed = some r.seed := by
  obtain ⟨it, r, h1, h2⟩ := unit_create [] none none (List.replicate 8 5) (List.replicate 24 9) noLot8 rfl (by decide) (by decide +kernel)
  obtain ⟨d, h3, h4⟩ := (unit_decrypt [] it _ _ _ _ (by decide) (by decide) r h1 h2).mp (by unfold Recoverable; decide +kernel)
  exact ⟨it, r, d, h1, h2, h3, h4⟩

/-- C29 without its condition is false of the code. -/
theorem C29_refuted : ¬ ∀ (P : Prims), P.Lawful → ∀ (pass it : Str) (salt seed : Bytes) (r : Created), seed.length = 24 →
    intermediateCode P pass none none (.bytes salt) [] = .ok it →
    bitcoinObject.createNewEncryptedWif P it "wif" (.bytes seed) none [] = .ok r →
    ∃ d, bitcoinObject.decrypt P r.encryptedWif pass none true = .ok (.detail d) ∧ d.seed = some r.seed := by
  intro hall
  obtain ⟨it, r, h1, h2⟩ := unit_create [] none none (List.replicate 8 5) (0 :: List.replicate 23 9) noLot8 rfl (by decide) (by decide +kernel)
  have := (unit_decrypt [] it _ _ _ _ (by decide) (by decide) r h1 h2).mpr (hall _ (unit_lawful 1) [] it _ _ r (by decide) h1 h2)
  revert this
  unfold Recoverable
  decide +kernel

/-- C32 is false of the code: a seed of a single byte is accepted. (It even is recovered by `decrypt`.) -/
theorem C32_refuted_short : ¬ ∀ (P : Prims), P.Lawful → ∀ (pass it : Str) (salt seed : Bytes) (r : Created),
    intermediateCode P pass none none (.bytes salt) [] = .ok it →
    bitcoinObject.createNewEncryptedWif P it "wif" (.bytes seed) none [] = .ok r → seed.length = 24 := by
  intro hall
  obtain ⟨it, r, h1, h2⟩ := unit_create [] none none (List.replicate 8 5) [9] noLot8 rfl (by decide) (by decide +kernel)
  have := hall _ (unit_lawful 1) [] it _ [9] r h1 h2
  simp at this

/-- C32 is false of the code: a seed of 25 bytes is accepted although, by `C32_long_seed`, it cannot be recovered. -/
theorem C32_refuted_long : ¬ ∀ (P : Prims), P.Lawful → ∀ (pass it : Str) (salt seed : Bytes) (r : Created),
    intermediateCode P pass none none (.bytes salt) [] = .ok it →
    bitcoinObject.createNewEncryptedWif P it "wif" (.bytes seed) none [] = .ok r → seed.length ≤ 24 := by
  intro hall
  obtain ⟨it, r, h1, h2⟩ := unit_create [] none none (List.replicate 8 5) (List.replicate 8 9 ++ [1] ++ List.replicate 16 9) noLot8 rfl (by decide) (by decide +kernel)
  have := hall _ (unit_lawful 1) [] it _ _ r h1 h2
  revert this
  decide

/-- Cases of C33: a seed that is not hexadecimal text; a wrong checksum; a payload of 48 bytes; an unknown WIF type; an unknown magic; a
pass point that is not on the curve (there is none with x coordinate 5). -/
example :
    (∃ x, bitcoinObject.createNewEncryptedWif (toy 1 0) [] "wif" (.str "zz".toList) none [] = .error x ∧ x.cls = .valueError)
    ∧ (∃ x, bitcoinObject.createNewEncryptedWif (toy 1 0) (b58encode (List.replicate 53 2)) "wif" .none none [9] = .error x
        ∧ x.cls = .passphraseError)
    ∧ (∃ x, bitcoinObject.createNewEncryptedWif (toy 1 0) (b58encode (List.replicate 48 2 ++ [1, 1, 1, 1])) "wif" .none none [9] = .error x
        ∧ x.cls = .passphraseError)
    ∧ (∃ x, bitcoinObject.createNewEncryptedWif (toy 1 0) (b58encode (List.replicate 49 2 ++ [1, 1, 1, 1])) "WIF" .none none [9] = .error x
        ∧ x.cls = .wifError)
    ∧ (∃ x, bitcoinObject.createNewEncryptedWif (toy 1 0) (b58encode (List.replicate 49 2 ++ [1, 1, 1, 1])) "wif" .none none [9] = .error x
        ∧ x.cls = .error)
    ∧ (∃ x, bitcoinObject.createNewEncryptedWif (toy 1 0)
          (b58encode (magicBytes true ++ List.replicate 8 7 ++ (2 :: toBE 32 5) ++ [1, 1, 1, 1])) "wif" .none none [9] = .error x
        ∧ x.cls = .secp256k1Error) := by
  have hP := toy_lawful 1 0
  have hzz : ¬ ∃ b, Supplies (.str "zz".toList) [] b := by
    rintro ⟨b, hb⟩
    have h1 := hb.ok
    rw [show bytesOrRandom (.str "zz".toList) [] = .error ⟨.valueError, "non-hexadecimal number found in fromhex() arg"⟩ by decide] at h1
    simp at h1
  have h9 : Supplies .none [9] [9] := supplies rfl
  refine ⟨?_, C33_checksum hP bitcoin_selects _ _ _ _ _ h9 ?_,
    C33_length hP bitcoin_selects _ _ _ _ _ (List.replicate 48 2) h9 (C01_decode_encode_bitcoin _) (by decide),
    C33_type hP bitcoin_selects _ _ _ _ _ (List.replicate 49 2) h9 (C01_decode_encode_bitcoin _) (by decide) (by unfold IsWifType; decide),
    C33_magic hP bitcoin_selects _ _ _ _ _ (List.replicate 49 2) h9 (C01_decode_encode_bitcoin _) (by decide) (Or.inl rfl)
      (by intro lot; cases lot <;> decide),
    (C33_factor_point hP bitcoin_selects _ _ _ _ _ true (List.replicate 8 7) (2 :: toBE 32 5) (by decide) (by decide) h9
      (C01_decode_encode_bitcoin _) (Or.inl rfl)).2 (by exact (by decide +kernel : IsPrivateKey (List.replicate 32 1))) ?_⟩
  · obtain ⟨x, hx, hc⟩ := C33_seed (P := toy 1 0) bitcoin_selects [] "wif" (.str "zz".toList) [] hzz
    rcases hc with ⟨_, _, _, hc⟩ | ⟨h, _⟩
    · exact ⟨x, hx, hc⟩
    · simp at h
  · rintro ⟨raw, h⟩
    have h := Except.ok.inj ((C01_decode_encode_bitcoin _).symm.trans h)
    have hcs : checksum (toy 1 0) raw = [1, 1, 1, 1] := rfl
    rw [hcs] at h
    have := congrArg List.getLast? h
    rw [List.getLast?_append] at this
    simp at this
  · intro x y hon hden
    have hq := (fromBytes_iff (2 :: toBE 32 5) ⟨x, y⟩).mpr ⟨hden, hon⟩
    have : PublicKey.fromBytes (2 :: toBE 32 5) = .error ⟨.secp256k1Error, "Invalid public key bytes"⟩ := by decide +kernel
    rw [this] at hq
    simp at hq

end Bip38.Props
