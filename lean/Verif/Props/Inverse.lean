import Verif.Lemmas.AesInverse
import Verif.Props.Inject
/-!
# Properties C53, C57: encrypting what was decrypted
-/
namespace Bip38.Props
open Bip38 Spec

variable {P : Prims} {obj obj' : BIP38} {network network' : Option String} {c c' : Coin} {n n' : String} {v v' : Net}

theorem take32_split {dk : Bytes} : dk.take 32 = dk.take 16 ++ (dk.take 32).drop 16 := by
  conv_lhs => rw [← List.take_append_drop 16 (dk.take 32)]
  rw [List.take_take]; rfl

/-- The record of the key read from two encrypted blocks has these blocks. -/
theorem noEcRecord_of_key (hP : P.Lawful) (type : String) (hash dk c1 c2 : Bytes) (hdl : dk.length = 64) (h1 : c1.length = 16) (h2 : c2.length = 16) :
    noEcRecord P type hash dk (noEcKey P dk c1 c2) = [0x01, 0x42, noEcFlag type] ++ hash ++ c1 ++ c2 := by
  have hk : (dk.drop 32).length = 32 := by simp [hdl]
  have d1 := hP.aesDecrypt_length _ _ hk h1
  have d2 := hP.aesDecrypt_length _ _ hk h2
  have t1 : (dk.take 16).length = 16 := by simp [hdl]
  have t2 : ((dk.take 32).drop 16).length = 16 := by simp [hdl]
  have hkey : noEcKey P dk c1 c2
      = bxor (P.aesDecrypt (dk.drop 32) c1) (dk.take 16) ++ bxor (P.aesDecrypt (dk.drop 32) c2) ((dk.take 32).drop 16) := by
    unfold noEcKey
    conv_lhs => rw [take32_split]
    exact bxor_append _ _ _ _ (by rw [d1, t1])
  have hl : (bxor (P.aesDecrypt (dk.drop 32) c1) (dk.take 16)).length = 16 := by simp [d1, hdl]
  have p1 : noEcPlain1 dk (noEcKey P dk c1 c2) = P.aesDecrypt (dk.drop 32) c1 := by
    rw [noEcPlain1, hkey, List.take_left' hl, bxor_bxor _ _ (by rw [d1, t1])]
  have p2 : noEcPlain2 dk (noEcKey P dk c1 c2) = P.aesDecrypt (dk.drop 32) c2 := by
    rw [noEcPlain2, hkey, List.drop_left' hl, bxor_bxor _ _ (by rw [d2, t2])]
  unfold noEcRecord
  rw [p1, p2, hP.aesEncrypt_aesDecrypt _ _ hk h1, hP.aesEncrypt_aesDecrypt _ _ hk h2]

/-- C53: re-encrypting a decrypted key reproduces the encrypted text: if `decrypt` returns a WIF for a well-formed Base58Check text of
a record without EC multiplication, then `encrypt` of that WIF with the same passphrase and network returns the very same text,
or raises `ValueError` (C18). -/
theorem C53_reencrypt (hP : P.Lawful) (hs : Selects obj network c n v) (e pass w : Str) (rec : Bytes)
    (hwf : WellFormed bitcoinAlphabet e) (hck : checkDecode P.sha256 e = .ok rec) (hpre : rec.take 2 = [0x01, 0x42])
    (h : obj.decrypt P e pass network = .ok (.wif w)) :
    obj.encrypt P w pass network = .ok e ∨ ∃ x, obj.encrypt P w pass network = .error x ∧ x.cls = .valueError := by
  have hdec := (checkDecode_iff hP _ _ _).mp hck
  obtain ⟨rec', _, _, _, he, hl, _⟩ := C20_C21_returned_key hP hs e pass false _ h
  have hrec : rec' = rec ++ checksum P rec := Except.ok.inj (he.symm.trans hdec)
  subst hrec
  have hl39 : rec.length = 39 := by
    rw [List.length_append, checksum_length hP] at hl; omega
  obtain ⟨f, rest, rfl, hrl⟩ : ∃ f rest, rec = [0x01, 0x42, f] ++ rest ∧ rest.length = 36 := by
    match rec, hpre, hl39 with
    | a :: b :: f :: rest, hp, hl =>
      simp at hp
      obtain ⟨rfl, rfl⟩ := hp
      exact ⟨f, rest, rfl, by simpa using hl⟩
  obtain ⟨hash, r1, rfl, hh, hr1⟩ := split_at' rest 4 32 hrl
  obtain ⟨c1, c2, rfl, h1, h2⟩ := split_at' r1 16 16 hr1
  obtain ⟨chk, hchk⟩ : ∃ chk, checksum P ([0x01, 0x42, f] ++ (hash ++ (c1 ++ c2))) = chk := ⟨_, rfl⟩
  have hcl : chk.length = 4 := by rw [← hchk]; exact checksum_length hP _
  have he' : b58decode e = .ok ([0x01, 0x42, f] ++ (hash ++ c1 ++ c2 ++ chk)) := by rw [hdec, hchk]; simp
  obtain ⟨type, key, pk, hty, rfl, hkey, hk, _, hpk, ha, hout⟩ := noEc_returns hP hs e pass false _ f hash c1 c2 chk hh h1 h2 hcl he' h
  have hw : w = wifText P v key type := by
    have := hout false
    rw [h] at this
    exact DecryptOut.wif.inj (Except.ok.inj this)
  obtain ⟨w', hw', hk', ht', _⟩ := C07_wif_roundtrip P hP c n v hs.net key hk.1 type hty
  have hww : w' = w := by
    rw [hw]
    have := hs.wif (P := P) key hk.1 type hty
    rw [hs.coin] at this
    exact Except.ok.inj (hw'.symm.trans this)
  subst hww
  rw [encrypt_eq hP hs w' pass key type hk' ht' hk hty pk hpk, ha]
  split
  · left
    have hrec := noEcRecord_of_key hP type hash (stretch P pass hash 64) c1 c2 (stretch_length hP _ _ _) h1 h2
    rw [← hkey] at hrec
    obtain ⟨b, hb, hbe⟩ := C02_encode_decode _ bitcoinAlphabet_valid e hwf
    have hbb := Except.ok.inj (hb.symm.trans hdec)
    rw [hrec, ← hbe, hbb]
    congr 2
    simp only [List.append_assoc]
  · exact .inr ⟨_, rfl, rfl⟩

/-- The hypotheses of C53 are met, and the text is reproduced. -/
example : ∃ e w rec, WellFormed bitcoinAlphabet e ∧ checkDecode (toy 1 0xff).sha256 e = .ok rec ∧ rec.take 2 = [0x01, 0x42]
    ∧ bitcoinObject.decrypt (toy 1 0xff) e [] none = .ok (.wif w) ∧ bitcoinObject.encrypt (toy 1 0xff) w [] none = .ok e := by
  have hP := toy_lawful 1 0xff
  have hk : IsPrivateKey (List.replicate 32 1) := by decide +kernel
  obtain ⟨w, hw, hkey, hty, _⟩ := C07_wif_roundtrip (toy 1 0xff) hP _ _ _ bitcoin_selects.net _ hk.1 "wif" (Or.inl rfl)
  obtain ⟨e, he⟩ := toy_encrypts _ hk (by decide) (by decide) w hw
  have hd := (C17_roundtrip_iff hP bitcoin_selects _ hk _ (Or.inl rfl) w [] e hw he).1.mpr (by decide +kernel)
  obtain ⟨pk, hpk, _, _⟩ := priv_ok _ hk
  have hr := encrypt_record hP bitcoin_selects w [] e _ _ hkey hty hk (Or.inl rfl) pk hpk he
  have hwf : WellFormed bitcoinAlphabet e := by
    have h := he
    rw [encrypt_eq hP bitcoin_selects w [] _ _ hkey hty hk (Or.inl rfl) pk hpk] at h
    split at h
    · rw [← Except.ok.inj h]; exact b58encode_ascii _ bitcoinAlphabet_valid _
    · cases h
  exact ⟨e, w, _, hwf, (checkDecode_iff hP _ _ _).mpr hr, rfl, hd, he⟩

end Bip38.Props
