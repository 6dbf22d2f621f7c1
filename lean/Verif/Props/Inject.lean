import Verif.Props.EcExamples
/-!
# Properties C51, C52, C54: what determines an encrypted key, a created record, an address
-/
namespace Bip38.Props
open Bip38 Spec

variable {P : Prims} {obj obj' : BIP38} {network network' : Option String} {c c' : Coin} {n n' : String} {v v' : Net}

/-! ## C51 -/

/-- C51: `encrypt` depends on the WIF text only through its private key and its type. -/
theorem C51_same_key (hs : Selects obj network c n v) (w w' pass : Str)
    (hk : wifToPrivateKey w c n = wifToPrivateKey w' c n) (ht : getWifType w c n = getWifType w' c n) :
    obj.encrypt P w pass network = obj.encrypt P w' pass network := by
  unfold BIP38.encrypt
  rw [hs.select]
  simp only [hs.coin, hk, ht]

theorem noEcFlag_inj {t t' : String} (h : IsWifType t) (h' : IsWifType t') (he : noEcFlag t = noEcFlag t') : t = t' := by
  rcases h with rfl | rfl <;> rcases h' with rfl | rfl
  · rfl
  · exact absurd he (by decide)
  · exact absurd he (by decide)
  · rfl

/-- C51: two calls of `encrypt` with the same passphrase, on any two networks, that return the same text were given the same
private key and the same type. -/
theorem C51_injective (hP : P.Lawful) (hs : Selects obj network c n v) (hs' : Selects obj' network' c' n' v') (w w' pass e : Str)
    (h : obj.encrypt P w pass network = .ok e) (h' : obj'.encrypt P w' pass network' = .ok e) :
    ∃ key type, wifToPrivateKey w c n = .ok (hex key) ∧ wifToPrivateKey w' c' n' = .ok (hex key)
      ∧ getWifType w c n = .ok type ∧ getWifType w' c' n' = .ok type := by
  obtain ⟨key, type, hw, ht, hk, hty⟩ := encrypt_reads hs w pass e h
  obtain ⟨key', type', hw', ht', hk', hty'⟩ := encrypt_reads hs' w' pass e h'
  obtain ⟨pk, hpk, _, _⟩ := priv_ok key hk
  obtain ⟨pk', hpk', _, _⟩ := priv_ok key' hk'
  have he := encrypt_record hP hs w pass e key type hw ht hk hty pk hpk h
  have he' := encrypt_record hP hs' w' pass e key' type' hw' ht' hk' hty' pk' hpk' h'
  have hlen := addressHash_length hP v pk (pubType type)
  have hlen' := addressHash_length hP v' pk' (pubType type')
  obtain ⟨hash, hh⟩ : ∃ x, addressHash P v pk (pubType type) = x := ⟨_, rfl⟩
  obtain ⟨hash', hh'⟩ : ∃ x, addressHash P v' pk' (pubType type') = x := ⟨_, rfl⟩
  rw [hh] at he hlen
  rw [hh'] at he' hlen'
  have hrec := Except.ok.inj (he.symm.trans he')
  obtain ⟨hrec, _⟩ := List.append_inj' hrec (by rw [checksum_length hP, checksum_length hP])
  have hdl := stretch_length hP pass hash 64
  have hdl' := stretch_length hP pass hash' 64
  have q : ∀ (dk k : Bytes), dk.length = 64 → k.length = 32 → (P.aesEncrypt (dk.drop 32) (noEcPlain1 dk k)).length = 16
      ∧ (P.aesEncrypt (dk.drop 32) (noEcPlain2 dk k)).length = 16 := by
    intro dk k h1 h2
    have hkk : (dk.drop 32).length = 32 := by simp [h1]
    exact ⟨hP.aesEncrypt_length _ _ hkk (by simp [noEcPlain1, h1, h2]), hP.aesEncrypt_length _ _ hkk (by simp [noEcPlain2, h1, h2])⟩
  obtain ⟨a1, a2⟩ := q _ key hdl hk.1
  obtain ⟨b1, b2⟩ := q _ key' hdl' hk'.1
  unfold noEcRecord at hrec
  obtain ⟨hrec, e2⟩ := List.append_inj' hrec (by rw [a2, b2])
  obtain ⟨hrec, e1⟩ := List.append_inj' hrec (by rw [a1, b1])
  obtain ⟨hf, hhash⟩ := List.append_inj' hrec (by rw [hlen, hlen'])
  subst hhash
  have hf' : noEcFlag type = noEcFlag type' := by simpa using hf
  have htt := noEcFlag_inj hty hty' hf'
  subst htt
  have hkk : key = key' := by
    rw [← noEcKey_record hP _ key hdl hk.1, ← noEcKey_record hP _ key' hdl hk'.1, e1, e2]
  subst hkk
  exact ⟨key, type, hw, hw', ht, ht'⟩

/-- The hypotheses of C51 are met: two different texts with the same key (the checksum is not checked, C09) and the same result. -/
example : ∃ w w' e : Str, w ≠ w' ∧ bitcoinObject.encrypt (toy 1 0xff) w [] none = .ok e ∧ bitcoinObject.encrypt (toy 1 0xff) w' [] none = .ok e := by
  have hk : IsPrivateKey (List.replicate 32 1) := by decide +kernel
  obtain ⟨w, hw, hkey, hty, _⟩ := C07_wif_roundtrip (toy 1 0xff) (toy_lawful _ _) _ _ _ bitcoin_selects.net _ hk.1 "wif" (Or.inl rfl)
  obtain ⟨e, he⟩ := toy_encrypts _ hk (by decide) (by decide) w hw
  have hpre : integerToBytes ((128 : Nat) : Int) = .ok [128] := by decide
  have hd : ∀ chk : Bytes, chk.length = 4 → decodeWif (b58encode ([128] ++ List.replicate 32 1 ++ chk)) ((128 : Nat) : Int)
      = .ok (List.replicate 32 1, "wif", chk) :=
    fun chk hc => decodeWif_uncompressed _ 128 _ _ chk hpre (by decide) hc (dec_enc _)
  have hread : ∀ chk : Bytes, chk.length = 4 →
      wifToPrivateKey (b58encode ([128] ++ List.replicate 32 1 ++ chk)) Coins.Bitcoin "mainnet" = .ok (hex (List.replicate 32 1))
      ∧ getWifType (b58encode ([128] ++ List.replicate 32 1 ++ chk)) Coins.Bitcoin "mainnet" = .ok "wif" := by
    intro chk hc
    unfold wifToPrivateKey getWifType
    rw [show lookupNet Coins.Bitcoin "mainnet" = .ok ⟨128, 0⟩ by decide]
    simp only [bind, Except.bind]
    rw [hd chk hc]
    exact ⟨rfl, rfl⟩
  have henc : ∀ chk : Bytes, chk.length = 4 →
      bitcoinObject.encrypt (toy 1 0xff) (b58encode ([128] ++ List.replicate 32 1 ++ chk)) [] none = .ok e := by
    intro chk hc
    obtain ⟨h1, h2⟩ := hread chk hc
    rw [C51_same_key bitcoin_selects _ w [] (h1.trans hkey.symm) (h2.trans hty.symm), he]
  refine ⟨_, _, e, ?_, henc [1, 2, 3, 4] rfl, henc [1, 2, 3, 5] rfl⟩
  intro h
  exact absurd (C01_encode_injective _ bitcoinAlphabet_valid _ _ h) (by decide)

/-! ## C52 -/

theorem mask_inj {a b d : Bytes} (ha : a.length = 16) (hb : b.length = 16) (hd : d.length = 16) (h : mask a d = mask b d) : a = b := by
  rw [mask_eq a d ha hd, mask_eq b d hb hd] at h
  exact bxor_injective (ha.trans hd.symm) (hb.trans hd.symm) h

theorem aes_inj (hP : P.Lawful) {k a b : Bytes} (hk : k.length = 32) (ha : a.length = 16) (hb : b.length = 16)
    (h : P.aesEncrypt k a = P.aesEncrypt k b) : a = b := by
  rw [← hP.aesDecrypt_aesEncrypt k a hk ha, ← hP.aesDecrypt_aesEncrypt k b hk hb, h]

theorem mask_length (a b : Bytes) : (mask a b).length = 16 := by simp [mask]

theorem ecFlag_inj {l l' : Bool} {t t' : String} (h : IsWifType t) (h' : IsWifType t') (he : ecFlag l t = ecFlag l' t') : l = l' ∧ t = t' := by
  rcases h with rfl | rfl <;> rcases h' with rfl | rfl <;> cases l <;> cases l' <;> first | exact ⟨rfl, rfl⟩ | exact absurd he (by decide)

/-- Two readings of one intermediate code agree. -/
theorem Ready.code_unique (hP : P.Lawful) {it : Str} {type type' : String} {seed seed' : Data} {u u' seedB seedB' : Bytes} {lot lot' : Bool}
    {ent pp ent' pp' : Bytes} {q q' : PublicKey} (hr : Ready P it type seed u seedB lot ent pp q)
    (hr' : Ready P it type' seed' u' seedB' lot' ent' pp' q') : lot = lot' ∧ ent = ent' ∧ pp = pp' := by
  have h := Except.ok.inj (hr.code.symm.trans hr'.code)
  obtain ⟨h, _⟩ := List.append_inj' h (by rw [checksum_length hP, checksum_length hP])
  obtain ⟨h, h3⟩ := List.append_inj' h (by rw [hr.point_length, hr'.point_length])
  obtain ⟨h1, h2⟩ := List.append_inj' h (by rw [hr.ent_length, hr'.ent_length])
  refine ⟨?_, h2, h3⟩
  cases lot <;> cases lot' <;> first | rfl | exact absurd h1 (by decide)

/-- C52: two records made from one intermediate code (by any objects, for any networks and types) that have the same encrypted WIF
were made from the same seed and for the same type, if the seeds have 24 bytes. -/
theorem C52_seed_injective (hP : P.Lawful) (hs : Selects obj network c n v) (hs' : Selects obj' network' c' n' v') (it : Str)
    (type type' : String) (s s' : Bytes) (hl : s.length = 24) (hl' : s'.length = 24) (u u' : Bytes) (r r' : Created)
    (h : obj.createNewEncryptedWif P it type (.bytes s) network u = .ok r)
    (h' : obj'.createNewEncryptedWif P it type' (.bytes s') network' u' = .ok r')
    (he : r.encryptedWif = r'.encryptedWif) : s = s' ∧ type = type' := by
  obtain ⟨seedB, lot, ent, pp, q, pk, pb, hr, _, _, _, rfl⟩ := C33_returns hP hs it type _ u r h
  obtain ⟨seedB', lot', ent', pp', q', pk', pb', hr', _, _, _, rfl⟩ := C33_returns hP hs' it type' _ u' r' h'
  have hsame : ∀ {b w x : Bytes}, b.length = 24 → Supplies (.bytes b) w x → x = b := by
    intro b w x hb hx
    rcases hx with ⟨ha, _⟩ | ⟨_, hx | ⟨t, ht, _⟩⟩
    · rcases ha with ha | ha | ha
      · cases ha
      · cases ha; simp at hb
      · cases ha
    · cases hx; rfl
    · cases ht
  have h1 := hsame hl hr.seed
  have h2 := hsame hl' hr'.seed
  subst h1 h2
  obtain ⟨rfl, rfl, rfl⟩ := hr.code_unique hP hr'
  simp only [createdDict, checkText] at he
  have he := C01_encode_injective _ bitcoinAlphabet_valid _ _ he
  obtain ⟨he, _⟩ := List.append_inj' he (by rw [checksum_length hP, checksum_length hP])
  have hlen := addressHash_length hP v pk (pubType type)
  have hlen' := addressHash_length hP v' pk' (pubType type')
  obtain ⟨hash, hh⟩ : ∃ x, addressHash P v pk (pubType type) = x := ⟨_, rfl⟩
  obtain ⟨hash', hh'⟩ : ∃ x, addressHash P v' pk' (pubType type') = x := ⟨_, rfl⟩
  simp only [hh, hh'] at he hlen hlen'
  have hdl := ecDerive_length hP pp hash ent
  have hdl' := ecDerive_length hP pp hash' ent
  have hk1 : ∀ {d : Bytes}, d.length = 64 → (d.drop 32).length = 32 := fun h => by simp [h]
  have b1 : ∀ {d x : Bytes}, d.length = 64 → (ecBlock1 P d x).length = 16 := fun h => hP.aesEncrypt_length _ _ (hk1 h) (mask_length _ _)
  have b2 : ∀ {d x : Bytes}, d.length = 64 → (ecBlock2 P d x).length = 16 := fun h => hP.aesEncrypt_length _ _ (hk1 h) (mask_length _ _)
  unfold ecRecord at he
  obtain ⟨he, e2⟩ := List.append_inj' he (by rw [b2 hdl, b2 hdl'])
  obtain ⟨he, e1⟩ := List.append_inj' he (by simp [b1 hdl, b1 hdl'])
  obtain ⟨he, _⟩ := List.append_inj' he rfl
  obtain ⟨hf, hhash⟩ := List.append_inj' he (by rw [hlen, hlen'])
  subst hhash
  have hf' : ecFlag lot type = ecFlag lot type' := by simpa using hf
  refine ⟨?_, (ecFlag_inj hr.type hr'.type hf').2⟩
  obtain ⟨dk, hdk⟩ : ∃ x, ecDerive P pp hash ent = x := ⟨_, rfl⟩
  rw [hdk] at e1 e2 hdl
  have t1 : (dk.take 16).length = 16 := by simp [hdl]
  have t2 : ((dk.take 32).drop 16).length = 16 := by simp [hdl]
  have e2' := mask_inj (by simp [b1 hdl, hl]) (by simp [b1 hdl, hl']) t2
    (aes_inj hP (hk1 hdl) (mask_length _ _) (mask_length _ _) e2)
  obtain ⟨m1, m2⟩ := List.append_inj e2' (by simp [b1 hdl])
  have hb : ecBlock1 P dk seedB = ecBlock1 P dk seedB' := by
    rw [← List.take_append_drop 8 (ecBlock1 P dk seedB), e1, m1, List.take_append_drop]
  have m0 := mask_inj (by simp [hl]) (by simp [hl']) t1 (aes_inj hP (hk1 hdl) (mask_length _ _) (mask_length _ _) hb)
  rw [← List.take_append_drop 16 seedB, m0, m2, List.take_append_drop]

/-- The hypotheses of C52 are met. -/
example : ∃ it r, bitcoinObject.createNewEncryptedWif (unit 1) it "wif" (.bytes (List.replicate 24 9)) none [] = .ok r :=
  let ⟨it, r, _, h2⟩ := unit_create [] none none (List.replicate 8 5) (List.replicate 24 9) noLot8 rfl (by decide) (by decide +kernel)
  ⟨it, r, h2⟩

end Bip38.Props
