import Verif.Props.Inverse
/-!
# Property C57: creating again what was decrypted
-/
namespace Bip38.Props
open Bip38 Spec

variable {P : Prims} {obj : BIP38} {network : Option String} {c : Coin} {n : String} {v : Net}

/-- A seed of 24 bytes read from the blocks of a record has these blocks. -/
theorem ecBlocks_of_seed (hP : P.Lawful) (dk h11 e2 : Bytes) (hdl : dk.length = 64) (h1 : h11.length = 8) (h2 : e2.length = 16)
    (h8 : 8 ≤ (ecTail P dk e2).length) (hl : (ecSeed P dk h11 e2).length = 24) :
    (ecBlock1 P dk (ecSeed P dk h11 e2)).take 8 = h11 ∧ ecBlock2 P dk (ecSeed P dk h11 e2) = e2 := by
  have hk : (dk.drop 32).length = 32 := by simp [hdl]
  have t1 : (dk.take 16).length = 16 := by simp [hdl]
  have t2 : ((dk.take 32).drop 16).length = 16 := by simp [hdl]
  have d2 := hP.aesDecrypt_length _ _ hk h2
  obtain ⟨x, hx⟩ : ∃ x, bxor (P.aesDecrypt (dk.drop 32) e2) ((dk.take 32).drop 16) = x := ⟨_, rfl⟩
  have lx : x.length = 16 := by rw [← hx]; simp [d2, hdl]
  have hne : ∀ {b : Bytes}, b.length = 16 → b ≠ [] := by rintro b h rfl; simp at h
  have tle : (ecTail P dk e2).length ≤ 16 := by
    unfold ecTail; rw [hx, ← lx]; exact length_strip_le _ (hne lx)
  have hh : (h11 ++ (ecTail P dk e2).take 8).length = 16 := by simp [h1]; omega
  have d1 := hP.aesDecrypt_length _ _ hk hh
  obtain ⟨y, hy⟩ : ∃ y, bxor (P.aesDecrypt (dk.drop 32) (h11 ++ (ecTail P dk e2).take 8)) (dk.take 16) = y := ⟨_, rfl⟩
  have ly : y.length = 16 := by rw [← hy]; simp [d1, hdl]
  have yle := length_strip_le y (hne ly)
  have hseed : ecSeed P dk h11 e2 = strip y ++ (ecTail P dk e2).drop 8 := by unfold ecSeed; rw [hy]
  rw [hseed, List.length_append, List.length_drop] at hl
  have full : ∀ {b : Bytes}, b.length = 16 → (strip b).length = 16 → strip b = b := by
    intro b hb hs
    exact strip_of_head b (hne hb) ((strip_length_eq_iff b (by omega)).mp (by omega))
  have hy' : strip y = y := full ly (by omega)
  have htail : ecTail P dk e2 = x := by
    have : (ecTail P dk e2).length = 16 := by omega
    unfold ecTail at this ⊢
    rw [hx] at this ⊢
    exact full lx this
  rw [htail] at hseed hh hy
  rw [hy'] at hseed
  have b1 : ecBlock1 P dk (ecSeed P dk h11 e2) = h11 ++ x.take 8 := by
    unfold ecBlock1
    rw [hseed, List.take_left' ly, mask_eq _ _ ly t1, ← hy, bxor_bxor _ _ (by rw [hP.aesDecrypt_length _ _ hk hh, t1]),
      hP.aesEncrypt_aesDecrypt _ _ hk hh]
  refine ⟨by rw [b1, List.take_left' h1], ?_⟩
  unfold ecBlock2
  rw [b1, hseed, List.drop_left' ly, List.drop_left' h1, List.take_append_drop, mask_eq _ _ lx t2, ← hx,
    bxor_bxor _ _ (by rw [d2, t2]), hP.aesEncrypt_aesDecrypt _ _ hk h2]

/-- C57: creating a record again from the seed read by `decrypt`: if `decrypt` reports a seed of 24 bytes for a well-formed Base58Check
text with one of the four flags `create_new_encrypted_wif` writes, and an intermediate code of the same passphrase carries
the owner entropy of the record (with the magic for lot and sequence exactly if the flag says so), then `create_new_encrypted_wif`
with this code, the reported type and seed returns the very same text, address and public key, or raises `ValueError` (C33). -/
theorem C57_recreate (hP : P.Lawful) (hs : Selects obj network c n v) (e pass : Str) (f : UInt8) (hash ent rest : Bytes)
    (hwf : WellFormed bitcoinAlphabet e) (hck : checkDecode P.sha256 e = .ok ([0x01, 0x43, f] ++ hash ++ ent ++ rest))
    (hh : hash.length = 4) (hent : ent.length = 8) (hf : f ∈ [0x00, 0x04, 0x20, 0x24]) (d : DecryptDetail)
    (h : obj.decrypt P e pass network true = .ok (.detail d)) (seed : Bytes) (hseed : d.seed = some (hex seed)) (hl : seed.length = 24)
    (lot sequence : Option Int) (salt : Data) (u : Bytes) (it : Str) (hi : intermediateCode P pass lot sequence salt u = .ok it)
    (point : Bytes) (hpl : point.length = 33) (hit : checkDecode P.sha256 it
      = .ok ([0x2c, 0xe9, 0xb3, 0xe1, 0xff, 0x39, 0xe2, if f &&& 0x04 = 0 then 0x53 else 0x51] ++ ent ++ point)) (u' : Bytes) :
    (∃ r, obj.createNewEncryptedWif P it d.wifType (.bytes seed) network u' = .ok r
        ∧ r.encryptedWif = e ∧ r.address = d.address ∧ r.publicKey = d.publicKey)
      ∨ ∃ x, obj.createNewEncryptedWif P it d.wifType (.bytes seed) network u' = .error x ∧ x.cls = .valueError := by
  have hdec := (checkDecode_iff hP _ _ _).mp hck
  obtain ⟨rec', _, _, _, he, hl43, _⟩ := C20_C21_returned_key hP hs e pass true _ h
  have hrec : rec' = _ := Except.ok.inj (he.symm.trans hdec)
  subst hrec
  have hrl : rest.length = 24 := by
    simp [checksum_length hP, hh, hent] at hl43; omega
  obtain ⟨h11, e2, rfl, h1, h2⟩ := split_at' rest 8 16 hrl
  obtain ⟨chk, hchk⟩ : ∃ chk, checksum P ([0x01, 0x43, f] ++ hash ++ ent ++ (h11 ++ e2)) = chk := ⟨_, rfl⟩
  have hcl : chk.length = 4 := by rw [← hchk]; exact checksum_length hP _
  have he' : b58decode e = .ok ([0x01, 0x43, f] ++ (hash ++ ent ++ h11 ++ e2 ++ chk)) := by rw [hdec, hchk]; simp
  obtain ⟨pf, pp, seed', key, pk, hpf, hpk, hpp, h8, hs', hfac, hkl, hkv, hkey, _, hpub, ha, hout⟩ :=
    ec_returns hP hs e pass true _ f hash ent h11 e2 chk hh hent h1 h2 hcl he' h
  have hd : d = keyDetail P v key pk (ecType f) (some seed') (lotSeq f ent) := by
    have := hout true
    rw [h] at this
    simpa [present] using Except.ok.inj this
  have hse : seed' = seed := by
    rw [hd] at hseed
    simp only [keyDetail, Option.map_some, Option.some.injEq] at hseed
    exact hex_inj hseed
  subst hse
  have hty : d.wifType = ecType f := by rw [hd]; rfl
  -- the intermediate code
  cases hd' : bytesOrRandom salt u with
  | error x =>
    unfold intermediateCode at hi
    rw [py_bind_err hd'] at hi
    cases hi
  | ok saltB =>
  obtain ⟨hacc, hk⟩ := (C26_validation pass lot sequence salt u saltB (supplies hd')).2.1.mp ⟨it, hi⟩
  obtain ⟨q, hq, hqon, _⟩ := priv_ok _ hk
  have hitx := Except.ok.inj (hi.symm.trans ((intermediate_eq pass lot sequence salt u saltB (supplies hd') _ rfl).2.2 hacc q hk hq))
  have hcode := (checkDecode_iff hP _ _ _).mp hit
  have hcode' := hcode
  rw [hitx, checkText, dec_enc] at hcode
  have hraw := (List.append_inj' (Except.ok.inj hcode) (by rw [checksum_length hP, checksum_length hP])).1
  have hml : ∀ b, (magicBytes b).length = 8 := fun b => by cases b <;> rfl
  unfold intermediateRecord at hraw
  rw [List.append_assoc, List.append_assoc] at hraw
  obtain ⟨hm, hraw⟩ := List.append_inj hraw (by rw [hml]; rfl)
  obtain ⟨hoe, hpoint⟩ := List.append_inj' hraw (by simp [sec1, hpl])
  have hlot : usesLot lot sequence = decide (hasLot f) := by
    simp only [List.mem_cons, List.not_mem_nil, or_false] at hf
    revert hm
    rcases hf with rfl | rfl | rfl | rfl <;> cases usesLot lot sequence <;> decide
  have hflag : f = ecFlag (decide (hasLot f)) (ecType f) ∧ IsWifType (ecType f) := by
    simp only [List.mem_cons, List.not_mem_nil, or_false] at hf
    unfold IsWifType
    rcases hf with rfl | rfl | rfl | rfl <;> decide
  rw [hoe, hlot, ← hpf] at hk hq
  have := isPublicKeyOf_unique hpp hq
  subst this
  have hsup : Supplies (.bytes seed') u' seed' := by
    cases seed' with
    | nil => simp at hl
    | cons a t => exact supplies rfl
  have hready : Ready P it d.wifType (.bytes seed') u' seed' (decide (hasLot f)) ent (sec1 pp "compressed") pp :=
    { seed := hsup
      code := by
        rw [hcode', ← hpoint, ← hlot, ← hm]
      ent_length := hent
      point_length := by simp [sec1]
      type := by rw [hty]; exact hflag.2
      factor := hfac
      point := (fromBytes_iff _ _).mp (by rw [← raw_eq_sec1]; exact (C15_public_key_roundtrip pp hqon "compressed").1) }
  obtain ⟨pk', pb, hpk', hpb, hall⟩ := create_ready hP hs hready
  have hpke : pk' = pk := by
    have : IsPublicKeyOf pk' key := by
      unfold IsPublicKeyOf
      rw [hkv, ← C16_scalar_mul, hpk', ← hpp, mul_eq_times _ (valid_aff.mpr hqon)]
    exact isPublicKeyOf_unique this hpub
  subst hpke
  rw [hty] at hall ⊢
  rw [ha, ← rawCompressed_sec1] at hall
  have hdl : (ecDerive P pp.rawCompressed hash ent).length = 64 := ecDerive_length hP _ _ _
  have hb := ecBlocks_of_seed hP (ecDerive P pp.rawCompressed hash ent) h11 e2 hdl h1 h2 h8 (by rw [← hs']; exact hl)
  rw [← hs'] at hb
  rw [hall _ rfl]
  split
  · left
    refine ⟨_, rfl, ?_, ?_, ?_⟩
    · simp only [createdDict, checkText, ha]
      obtain ⟨b, hbd, hbe⟩ := C02_encode_decode _ bitcoinAlphabet_valid e hwf
      rw [← hbe, Except.ok.inj (hbd.symm.trans he), ← hflag.1]
      unfold ecRecord
      rw [hb.1, hb.2]
      simp only [List.append_assoc]
    · rw [hd]; rfl
    · rw [hd]; rfl
  · exact .inr ⟨_, rfl, rfl⟩

/-- The hypotheses of C57 are met. -/
example : ∃ (e : Str) (f : UInt8) (hash ent rest : Bytes) (d : DecryptDetail) (seed : Bytes) (it : Str) (point : Bytes),
    WellFormed bitcoinAlphabet e ∧ checkDecode (unit 1).sha256 e = .ok ([0x01, 0x43, f] ++ hash ++ ent ++ rest)
      ∧ hash.length = 4 ∧ ent.length = 8 ∧ f ∈ [0x00, 0x04, 0x20, 0x24]
      ∧ bitcoinObject.decrypt (unit 1) e [] none true = .ok (.detail d) ∧ d.seed = some (hex seed) ∧ seed.length = 24
      ∧ intermediateCode (unit 1) [] none none (.bytes (List.replicate 8 5)) [] = .ok it ∧ point.length = 33
      ∧ checkDecode (unit 1).sha256 it
          = .ok ([0x2c, 0xe9, 0xb3, 0xe1, 0xff, 0x39, 0xe2, if f &&& 0x04 = 0 then 0x53 else 0x51] ++ ent ++ point) := by
  have hP := unit_lawful 1
  obtain ⟨it, r, h1, h2⟩ := unit_create [] none none (List.replicate 8 5) (List.replicate 24 9) noLot8 rfl (by decide) (by decide +kernel)
  obtain ⟨d, h3, h4⟩ := (unit_decrypt [] it _ _ _ _ (by decide) (by decide) r h1 h2).mp (by unfold Recoverable; decide +kernel)
  obtain ⟨saltB, seedB, pf, pp, pb, key, pk, dk, hsup, _, hsup', m⟩ := made hP bitcoin_selects [] none none _ [] it h1 "wif" _ [] r h2
  have : seedB = List.replicate 24 9 := Except.ok.inj (hsup'.ok.symm.trans rfl)
  subst this
  have : saltB = List.replicate 8 5 := Except.ok.inj (hsup.ok.symm.trans rfl)
  subst this
  obtain ⟨_, _, _, pp', hs1, hn, _, _, _, hit⟩ := C28_layout hP [] none none _ [] it h1
  have := (hn rfl).1
  subst this
  have := Except.ok.inj (hs1.ok.symm.trans hsup.ok)
  subst this
  refine ⟨r.encryptedWif, 0, addressHash (unit 1) ⟨0x80, 0⟩ pk (pubType "wif"), List.replicate 8 5,
    (ecBlock1 (unit 1) dk (List.replicate 24 9)).take 8 ++ ecBlock2 (unit 1) dk (List.replicate 24 9), d, List.replicate 24 9, it,
    sec1 pp' "compressed", ?_, ?_, addressHash_length hP _ _ _, rfl, by simp, h3, ?_, rfl, h1, by simp [sec1], ?_⟩
  · rw [m.result]; exact b58encode_ascii _ bitcoinAlphabet_valid _
  · rw [m.result, checkDecode_iff hP]
    simp only [createdDict, checkText]
    rw [dec_enc]
    rw [show ecFlag (usesLot none none) "wif" = 0 by decide]
    simp only [ecRecord, ownerEntropy, List.append_assoc]
    rfl
  · rw [h4, m.result]; rfl
  · rw [hit]; rfl

end Bip38.Props
