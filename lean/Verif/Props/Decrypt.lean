import Verif.Props.NoEc
/-!
# Properties C20 - C23, C40: what `decrypt` can return
-/
namespace Bip38.Props
open Bip38 Spec

variable {P : Prims} {obj : BIP38} {network : Option String} {c : Coin} {n : String} {v : Net}

/-- The first `k` elements of a list of length `m`. -/
theorem split_at' (l : Bytes) (k m : Nat) (h : l.length = k + m) : ∃ a b, l = a ++ b ∧ a.length = k ∧ b.length = m :=
  ⟨l.take k, l.drop k, (List.take_append_drop k l).symm, by simp [h], by simp [h]⟩

theorem split_noEc (rest : Bytes) (h : rest.length = 40) :
    ∃ hash c1 c2 chk, rest = hash ++ c1 ++ c2 ++ chk ∧ hash.length = 4 ∧ c1.length = 16 ∧ c2.length = 16 ∧ chk.length = 4 := by
  obtain ⟨hash, r1, rfl, h1, h2⟩ := split_at' rest 4 36 h
  obtain ⟨c1, r2, rfl, h3, h4⟩ := split_at' r1 16 20 h2
  obtain ⟨c2, chk, rfl, h5, h6⟩ := split_at' r2 16 4 h4
  exact ⟨hash, c1, c2, chk, by simp, h1, h3, h5, h6⟩

theorem split_ec (rest : Bytes) (h : rest.length = 40) :
    ∃ hash ent h11 e2 chk, rest = hash ++ ent ++ h11 ++ e2 ++ chk ∧ hash.length = 4 ∧ ent.length = 8 ∧ h11.length = 8 ∧ e2.length = 16
      ∧ chk.length = 4 := by
  obtain ⟨hash, r1, rfl, h1, h2⟩ := split_at' rest 4 36 h
  obtain ⟨ent, r2, rfl, h3, h4⟩ := split_at' r1 8 28 h2
  obtain ⟨h11, r3, rfl, h5, h6⟩ := split_at' r2 8 20 h4
  obtain ⟨e2, chk, rfl, h7, h8⟩ := split_at' r3 16 4 h6
  exact ⟨hash, ent, h11, e2, chk, by simp, h1, h3, h5, h7, h8⟩

/-! ## C23: malformed records -/

/-- C23: the payload must have 43 bytes. -/
theorem C23_length (hs : Selects obj network c n v) (e pass : Str) (detail : Bool) (rec : Bytes) (he : b58decode e = .ok rec)
    (hl : rec.length ≠ 43) : ∃ x, obj.decrypt P e pass network detail = .error x ∧ x.cls = .wifError := by
  unfold BIP38.decrypt
  rw [hs.select]
  simp only
  rw [py_bind (not_raise (not_not.mpr hs.mem)), py_bind he, py_bind_err (do_raise hl)]
  exact ⟨_, rfl, rfl⟩

/-- C23: the payload must start with `0142` or `0143`. -/
theorem C23_prefix (hs : Selects obj network c n v) (e pass : Str) (detail : Bool) (rec : Bytes) (he : b58decode e = .ok rec)
    (hl : rec.length = 43) (h1 : rec.take 2 ≠ [0x01, 0x42]) (h2 : rec.take 2 ≠ [0x01, 0x43]) :
    ∃ x, obj.decrypt P e pass network detail = .error x ∧ x.cls = .error := by
  unfold BIP38.decrypt
  rw [hs.select]
  simp only
  rw [py_bind (not_raise (not_not.mpr hs.mem)), py_bind he, py_bind (not_raise (fun h => h hl)), py_bind c_noEc, py_bind c_ec,
    if_neg h1, if_neg h2]
  exact ⟨_, rfl, rfl⟩

/-- C23: a `0142` record must have the flag `c0` or `e0`. -/
theorem C23_flag (hs : Selects obj network c n v) (e pass : Str) (detail : Bool) (f : UInt8) (rest : Bytes)
    (hl : rest.length = 40) (he : b58decode e = .ok ([0x01, 0x42, f] ++ rest)) (h1 : f ≠ 0xc0) (h2 : f ≠ 0xe0) :
    ∃ x, obj.decrypt P e pass network detail = .error x ∧ x.cls = .error := by
  rw [decrypt_noEc hs e pass detail f rest hl he]
  have s1 : slice 2 3 ([0x01, 0x42, f] ++ rest) = [f] := by simp [slice]
  unfold BIP38.decryptNoEc
  simp only
  rw [s1, py_bind c_flagU, py_bind c_flagC, if_neg (by simpa using h1), if_neg (by simpa using h2)]
  exact ⟨_, rfl, rfl⟩

/-- C23: non-ASCII text raises `UnicodeEncodeError`, a `ValueError`. -/
theorem C23_non_ascii (hs : Selects obj network c n v) (e pass : Str) (detail : Bool) (he : ∃ ch ∈ e, 128 ≤ ch.toNat) :
    ∃ x, obj.decrypt P e pass network detail = .error x ∧ x.cls.isValueError = true := by
  obtain ⟨x, hx, hc⟩ := C04_decode_nonascii bitcoinAlphabet e he
  refine ⟨x, ?_, by rw [hc]; rfl⟩
  unfold BIP38.decrypt
  rw [hs.select]
  simp only
  rw [py_bind (not_raise (not_not.mpr hs.mem)), py_bind_err hx]

/-! ## C20, C21 -/

/-- `d` describes the private key `key` on the network with prefixes `v`: every field is the one the API gives for that key. -/
structure Describes (P : Prims) (c : Coin) (n : String) (v : Net) (key : Bytes) (type : String) (d : DecryptDetail) : Prop where
  priv : IsPrivateKey key
  private_key : d.privateKey = hex key
  wif_type : d.wifType = type ∧ IsWifType type
  wif : privateKeyToWif P (.bytes key) type c n = .ok d.wif
  reads : wifToPrivateKey d.wif c n = .ok d.privateKey ∧ getWifType d.wif c n = .ok d.wifType
  public_key : ∃ sk, PrivateKey.fromBytes key = .ok sk ∧ d.publicKey = hex (sk.publicKey.raw d.publicKeyType)
    ∧ p2pkhEncode P (.key sk.publicKey) v.addressPrefix d.publicKeyType = .ok d.address
  public_key_type : d.publicKeyType = if type = "wif" then "uncompressed" else "compressed"

theorem describes_keyDetail (hP : P.Lawful) (hs : Selects obj network c n v) (key : Bytes) (hk : IsPrivateKey key) (pk : PublicKey)
    (hpk : IsPublicKeyOf pk key) (type : String) (hty : IsWifType type) (seed : Option Bytes) (ls : Option (Nat × Nat)) :
    Describes P c n v key type (keyDetail P v key pk type seed ls) := by
  obtain ⟨w, hw, hr1, hr2, _⟩ := C07_wif_roundtrip P hP c n v hs.net key hk.1 type hty
  have hwt := C07_wif_text P c n v hs.net key hk.1 type hty
  have hw' : w = wifText P v key type := Except.ok.inj (hw.symm.trans hwt)
  subst hw'
  obtain ⟨pk', hpk', _, hok⟩ := priv_ok key hk
  have := isPublicKeyOf_unique hpk hpk'
  subst this
  refine ⟨hk, rfl, ⟨rfl, hty⟩, hwt, ⟨hr1, hr2⟩, ⟨_, hok, ?_, ?_⟩, rfl⟩
  · rw [raw_eq_sec1]; rfl
  · exact p2pkh_text pk _

/-- Everything that is true of a value returned for a `0142` record. -/
theorem noEc_returns (hP : P.Lawful) (hs : Selects obj network c n v) (e pass : Str) (detail : Bool) (out : DecryptOut) (f : UInt8)
    (hash c1 c2 chk : Bytes) (hh : hash.length = 4) (h1 : c1.length = 16) (h2 : c2.length = 16) (hc : chk.length = 4)
    (he : b58decode e = .ok ([0x01, 0x42, f] ++ (hash ++ c1 ++ c2 ++ chk)))
    (h : obj.decrypt P e pass network detail = .ok out) :
    ∃ type key pk, IsWifType type ∧ f = noEcFlag type ∧ key = noEcKey P (stretch P pass hash 64) c1 c2 ∧ IsPrivateKey key
      ∧ key.head? ≠ some 0 ∧ IsPublicKeyOf pk key ∧ addressHash P v pk (pubType type) = hash
      ∧ ∀ detail', obj.decrypt P e pass network detail' = .ok (present detail' (keyDetail P v key pk type none none)) := by
  have hl : (hash ++ c1 ++ c2 ++ chk).length = 40 := by simp [hh, h1, h2, hc]
  have hf : ∃ type, IsWifType type ∧ f = noEcFlag type := by
    by_cases hu : f = 0xc0
    · exact ⟨"wif", Or.inl rfl, hu⟩
    by_cases hcm : f = 0xe0
    · exact ⟨"wif-compressed", Or.inr rfl, hcm⟩
    obtain ⟨x, hx, _⟩ := C23_flag (P := P) hs e pass detail f _ hl he hu hcm
    rw [hx] at h; simp at h
  obtain ⟨type, hty, rfl⟩ := hf
  have hd : ∀ detail', obj.decrypt P e pass network detail' = _ := fun detail' =>
    (decrypt_noEc hs e pass detail' _ _ hl he).trans (decryptNoEc_eq hP hs pass detail' type hty hash c1 c2 chk hh h1 h2 _ rfl)
  have hkl := noEcKey_length hP (stretch P pass hash 64) c1 c2 (stretch_length hP _ _ _) h1 h2
  generalize hkey : noEcKey P (stretch P pass hash 64) c1 c2 = key at hd hkl
  rw [hd detail] at h
  by_cases hr : be key = 0 ∨ be key ≥ n256k1
  · rw [if_pos hr] at h; simp at h
  rw [if_neg hr] at h
  by_cases h0 : key.head? = some 0
  · rw [if_pos h0] at h; simp at h
  rw [if_neg h0] at h
  have hk : IsPrivateKey key := ⟨hkl, by omega, by omega⟩
  obtain ⟨pk, hpk, _, hok⟩ := priv_ok key hk
  rw [hok] at h
  simp only at h
  by_cases ha : addressHash P v pk (pubType type) = hash
  · refine ⟨type, key, pk, hty, rfl, rfl, hk, h0, hpk, ha, fun detail' => ?_⟩
    rw [hd detail', if_neg hr, if_neg h0, hok]
    exact if_pos ha
  · simp only [PrivateKey.publicKey, ha, if_false] at h
    simp at h

/-- Everything that is true of a value returned for a `0143` record. -/
theorem ec_returns (hP : P.Lawful) (hs : Selects obj network c n v) (e pass : Str) (detail : Bool) (out : DecryptOut) (f : UInt8)
    (hash ent h11 e2 chk : Bytes) (hh : hash.length = 4) (hent : ent.length = 8) (h1 : h11.length = 8) (h2 : e2.length = 16)
    (hc : chk.length = 4) (he : b58decode e = .ok ([0x01, 0x43, f] ++ (hash ++ ent ++ h11 ++ e2 ++ chk)))
    (h : obj.decrypt P e pass network detail = .ok out) :
    ∃ pf pp seed key pk, pf = passFactor P (decide (hasLot f)) pass ent ∧ IsPrivateKey pf ∧ IsPublicKeyOf pp pf
      ∧ 8 ≤ (ecTail P (ecDerive P pp.rawCompressed hash ent) e2).length
      ∧ seed = ecSeed P (ecDerive P pp.rawCompressed hash ent) h11 e2 ∧ IsPrivateKey (dsha P seed)
      ∧ key.length = 32 ∧ be key = be pf * be (dsha P seed) % n256k1 ∧ IsPrivateKey key ∧ key.head? ≠ some 0
      ∧ IsPublicKeyOf pk key ∧ addressHash P v pk (pubType (ecType f)) = hash
      ∧ ∀ detail', obj.decrypt P e pass network detail'
          = .ok (present detail' (keyDetail P v key pk (ecType f) (some seed) (lotSeq f ent))) := by
  have hl : (hash ++ ent ++ h11 ++ e2 ++ chk).length = 40 := by simp [hh, hent, h1, h2, hc]
  have hd : ∀ detail', obj.decrypt P e pass network detail' = _ := fun detail' =>
    (decrypt_ec hs e pass detail' _ _ hl he).trans (decryptEc_eq hP hs pass detail' f hash ent h11 e2 chk hh hent h1 h2 hc _ rfl)
  have hpl := passFactor_length hP (decide (hasLot f)) pass ent
  generalize hpf : passFactor P (decide (hasLot f)) pass ent = pf at hd hpl
  rw [hd detail] at h
  by_cases hr : be pf = 0 ∨ be pf ≥ n256k1
  · rw [if_pos hr] at h; simp at h
  rw [if_neg hr] at h
  have hpk1 : IsPrivateKey pf := ⟨hpl, by omega, by omega⟩
  obtain ⟨pp, hpp, _, hok⟩ := priv_ok pf hpk1
  rw [hok] at h
  simp only [PrivateKey.publicKey] at h
  by_cases ht : (ecTail P (ecDerive P pp.rawCompressed hash ent) e2).length < 8
  · simp only [ht, if_true] at h; simp at h
  simp only [ht, if_false] at h
  obtain ⟨seed, hseed⟩ : ∃ s, ecSeed P (ecDerive P pp.rawCompressed hash ent) h11 e2 = s := ⟨_, rfl⟩
  simp only [hseed] at h
  by_cases hfr : be (dsha P seed) = 0 ∨ be (dsha P seed) ≥ n256k1
  · simp only [hfr, if_true] at h; simp at h
  simp only [hfr, if_false] at h
  by_cases h0 : (toBE 32 (ecNum P pf seed)).head? = some 0
  · simp only [h0, if_true] at h; simp at h
  simp only [h0, if_false] at h
  have hlt := ecNum_lt (P := P) pf seed
  have hne : ecNum P pf seed ≠ 0 := mul_mod_ne (by omega) (by omega) (by omega) (by omega)
  have hkeyp : IsPrivateKey (toBE 32 (ecNum P pf seed)) := toBE_num_priv (by omega) hlt
  obtain ⟨pk, hpk, _, hok2⟩ := priv_ok _ hkeyp
  rw [hok2] at h
  simp only at h
  by_cases ha : addressHash P v pk (pubType (ecType f)) = hash
  · refine ⟨pf, pp, seed, _, pk, rfl, hpk1, hpp, by omega, hseed.symm, ⟨dsha_length hP _, by omega, by omega⟩, hkeyp.1, ?_, hkeyp, h0,
      hpk, ha, fun detail' => ?_⟩
    · exact be_toBE _ _ (hlt.trans n256k1_lt)
    · rw [hd detail', if_neg hr, hok]
      simp only [PrivateKey.publicKey, ht, if_false, hseed, hfr, h0, hok2, ha, if_true]
  · simp only [ha, if_false] at h
    simp at h

/-- C20 and C21: whenever `decrypt` returns, there are one private key in `1 .. N-1` and one WIF type such that
* the type is the one announced by the flag byte of the record,
* the P2PKH address of the key, on the selected network and with that type, hashes to the 4 bytes stored in the record,
* with `detail=True` all returned fields describe that key; with `detail=False` the result is the `wif` field. -/
theorem C20_C21_returned_key (hP : P.Lawful) (hs : Selects obj network c n v) (e pass : Str) (detail : Bool) (out : DecryptOut)
    (h : obj.decrypt P e pass network detail = .ok out) :
    ∃ rec key type d, b58decode e = .ok rec ∧ rec.length = 43
      ∧ (rec.take 2 = [0x01, 0x42] ∧ rec.getD 2 0 = (if type = "wif" then 0xc0 else 0xe0)
        ∨ rec.take 2 = [0x01, 0x43] ∧ type = if isCompressed (rec.getD 2 0) then "wif-compressed" else "wif")
      ∧ Describes P c n v key type d
      ∧ checksum P (utf8 d.address) = (rec.drop 3).take 4
      ∧ obj.decrypt P e pass network true = .ok (.detail d)
      ∧ obj.decrypt P e pass network false = .ok (.wif d.wif) := by
  cases he : b58decode e with
  | error x =>
    exfalso
    unfold BIP38.decrypt at h
    rw [hs.select] at h
    simp only at h
    rw [py_bind (not_raise (not_not.mpr hs.mem)), py_bind_err he] at h
    simp at h
  | ok rec =>
    by_cases hl : rec.length = 43
    swap
    · obtain ⟨x, hx, _⟩ := C23_length (P := P) hs e pass detail rec he hl
      rw [hx] at h; simp at h
    obtain ⟨hd3, rest, rfl, h3, h40⟩ := split_at' rec 3 40 hl
    match hd3, h3 with
    | [p0, p1, f], _ =>
    by_cases hp1 : ([p0, p1, f] ++ rest).take 2 = [0x01, 0x42]
    · have hp : p0 = 0x01 ∧ p1 = 0x42 := by simpa using hp1
      obtain ⟨rfl, rfl⟩ := hp
      obtain ⟨hash, c1, c2, chk, rfl, l1, l2, l3, l4⟩ := split_noEc rest h40
      obtain ⟨type, key, pk, hty, hf, _, hk, _, hpk, ha, hall⟩ := noEc_returns hP hs e pass detail out f hash c1 c2 chk l1 l2 l3 l4 he h
      refine ⟨_, key, type, keyDetail P v key pk type none none, rfl, hl, Or.inl ⟨hp1, hf⟩,
        describes_keyDetail hP hs key hk pk hpk type hty none none, ?_, hall true, hall false⟩
      rw [show checksum P (utf8 (keyDetail P v key pk type none none).address) = addressHash P v pk (pubType type) from rfl, ha]
      simp [l1]
    · by_cases hp2 : ([p0, p1, f] ++ rest).take 2 = [0x01, 0x43]
      · have hp : p0 = 0x01 ∧ p1 = 0x43 := by simpa using hp2
        obtain ⟨rfl, rfl⟩ := hp
        obtain ⟨hash, ent, h11, e2, chk, rfl, l1, l2, l3, l4, l5⟩ := split_ec rest h40
        obtain ⟨pf, pp, seed, key, pk, _, _, _, _, _, _, _, _, hk, _, hpk, ha, hall⟩ :=
          ec_returns hP hs e pass detail out f hash ent h11 e2 chk l1 l2 l3 l4 l5 he h
        refine ⟨_, key, ecType f, keyDetail P v key pk (ecType f) (some seed) (lotSeq f ent), rfl, hl, Or.inr ⟨hp2, rfl⟩,
          describes_keyDetail hP hs key hk pk hpk _ (ecType_ok f) _ _, ?_, hall true, hall false⟩
        rw [show checksum P (utf8 (keyDetail P v key pk (ecType f) (some seed) (lotSeq f ent)).address)
          = addressHash P v pk (pubType (ecType f)) from rfl, ha]
        simp [l1]
      · obtain ⟨x, hx, _⟩ := C23_prefix (P := P) hs e pass detail _ he hl hp1 hp2
        rw [hx] at h; simp at h

/-- The hypothesis of C20/C21 is met: `decrypt` returns for the key `01…01`. -/
theorem toy_decrypts : ∃ e out, bitcoinObject.decrypt (toy 1 0xff) e [] none = .ok out := by
  have hk : IsPrivateKey (List.replicate 32 1) := by decide +kernel
  obtain ⟨w, hw, _⟩ := C07_wif_roundtrip (toy 1 0xff) (toy_lawful _ _) _ _ _ bitcoin_selects.net _ hk.1 "wif" (Or.inl rfl)
  obtain ⟨e, he⟩ := toy_encrypts _ hk (by decide) (by decide) w hw
  exact ⟨e, _, (C17_roundtrip_iff (toy_lawful _ _) bitcoin_selects _ hk _ (Or.inl rfl) w [] e hw he).1.mpr (by decide +kernel)⟩

/-- Cases of C23: a 42-byte payload, a wrong prefix, a wrong flag, a non-ASCII text. -/
example : (∃ x, bitcoinObject.decrypt (toy 1 0xff) (b58encode (List.replicate 42 1)) [] none = .error x ∧ x.cls = .wifError)
    ∧ (∃ x, bitcoinObject.decrypt (toy 1 0xff) (b58encode (List.replicate 43 1)) [] none = .error x ∧ x.cls = .error)
    ∧ (∃ x, bitcoinObject.decrypt (toy 1 0xff) (b58encode ([0x01, 0x42, 0xc1] ++ List.replicate 40 1)) [] none = .error x ∧ x.cls = .error)
    ∧ (∃ x, bitcoinObject.decrypt (toy 1 0xff) "6PÜ".toList [] none = .error x ∧ x.cls.isValueError = true) :=
  ⟨C23_length bitcoin_selects _ _ _ _ (C01_decode_encode_bitcoin _) (by decide),
   C23_prefix bitcoin_selects _ _ _ _ (C01_decode_encode_bitcoin _) (by decide) (by decide) (by decide),
   C23_flag bitcoin_selects _ _ _ _ _ (by decide) (C01_decode_encode_bitcoin _) (by decide) (by decide),
   C23_non_ascii bitcoin_selects _ _ _ ⟨'Ü', by decide, by decide⟩⟩

/-! ## C22 -/

theorem slice_append_left (a b : Nat) (x y : Bytes) (h : b ≤ x.length) : slice a b (x ++ y) = slice a b x := by
  unfold slice; rw [List.take_append_of_le_length h]

/-- C22: the outcome of `decrypt` (value or exception) does not depend on the last four payload bytes - for every object,
network, passphrase and text. -/
theorem C22_checksum_ignored (obj : BIP38) (network : Option String) (e e' pass : Str) (detail : Bool) (body chk chk' : Bytes)
    (hc : chk.length = 4) (hc' : chk'.length = 4) (he : b58decode e = .ok (body ++ chk)) (he' : b58decode e' = .ok (body ++ chk')) :
    obj.decrypt P e pass network detail = obj.decrypt P e' pass network detail := by
  have hl : (body ++ chk).length = (body ++ chk').length := by simp [hc, hc']
  unfold BIP38.decrypt
  simp only [he, he', bind, Except.bind, c_noEc, c_ec]
  split
  · rfl
  by_cases h43 : (body ++ chk).length = 43
  swap
  · rw [do_raise h43, do_raise (by rw [← hl]; exact h43), hl]
  rw [not_raise (not_not.mpr h43), not_raise (not_not.mpr (hl ▸ h43))]
  have hb : body.length = 39 := by simp [hc] at h43; omega
  have ht : (body ++ chk).take 2 = (body ++ chk').take 2 := by
    rw [List.take_append_of_le_length (by omega), List.take_append_of_le_length (by omega)]
  simp only [ht]
  have s : ∀ a b, b ≤ 39 → slice a b (body ++ chk) = slice a b (body ++ chk') := fun a b h => by
    rw [slice_append_left a b _ _ (by omega), slice_append_left a b _ _ (by omega)]
  have d : dropLastN 4 (body ++ chk) = dropLastN 4 (body ++ chk') := by
    rw [dropLastN_append _ _ 4 hc, dropLastN_append _ _ 4 hc']
  have h1 : ∀ m, obj.decryptNoEc P (body ++ chk) pass m detail = obj.decryptNoEc P (body ++ chk') pass m detail := fun m => by
    unfold BIP38.decryptNoEc
    rw [s 2 3 (by omega), s 3 7 (by omega), s 7 23 (by omega), s 23 39 (by omega)]
  have h2 : ∀ m, obj.decryptEc P (body ++ chk) pass m detail = obj.decryptEc P (body ++ chk') pass m detail := fun m => by
    unfold BIP38.decryptEc
    rw [s 2 3 (by omega), s 3 7 (by omega), s 7 15 (by omega), s 15 23 (by omega), d]
  rw [h1, h2]

/-- C22 as the BIP demands it is false of the code. -/
theorem C22_refuted : ¬ ∀ (P : Prims), P.Lawful → ∀ (e pass : Str) (payload chk : Bytes), b58decode e = .ok (payload ++ chk) →
    chk.length = 4 → chk ≠ checksum P payload → ∃ x, bitcoinObject.decrypt P e pass none = .error x := by
  intro hall
  obtain ⟨e, out, hok⟩ := toy_decrypts
  obtain ⟨rec, _, _, _, he, hl, _⟩ := C20_C21_returned_key (toy_lawful _ _) bitcoin_selects e [] false out hok
  obtain ⟨body, chk, rfl, hb, hc⟩ := split_at' rec 39 4 hl
  obtain ⟨x, hx⟩ := hall (toy 1 0xff) (toy_lawful _ _) (b58encode (body ++ [2, 2, 2, 2])) [] body [2, 2, 2, 2]
    (C01_decode_encode_bitcoin _) rfl (by exact (by decide : ([2, 2, 2, 2] : Bytes) ≠ [1, 1, 1, 1]))
  rw [C22_checksum_ignored bitcoinObject none _ e [] false body _ chk rfl hc (C01_decode_encode_bitcoin _) he, hok] at hx
  simp at hx

/-! ## C40 -/

/-- C40, exact condition for a record without EC multiplication: `decrypt` returns for exactly those passphrases whose derived key is
a private key with non-zero first byte and with the stored address hash. -/
theorem C40_noEc_iff (hP : P.Lawful) (hs : Selects obj network c n v) (e pass : Str) (detail : Bool) (type : String)
    (hty : IsWifType type) (hash c1 c2 chk : Bytes) (hh : hash.length = 4) (h1 : c1.length = 16) (h2 : c2.length = 16)
    (hc : chk.length = 4) (he : b58decode e = .ok ([0x01, 0x42, if type = "wif" then 0xc0 else 0xe0] ++ (hash ++ c1 ++ c2 ++ chk))) :
    (∃ out, obj.decrypt P e pass network detail = .ok out) ↔
      ∃ key pk, key = noEcKey P (stretch P pass hash 64) c1 c2 ∧ IsPrivateKey key ∧ key.head? ≠ some 0 ∧ IsPublicKeyOf pk key
        ∧ addressHash P v pk (pubType type) = hash := by
  constructor
  · rintro ⟨out, h⟩
    obtain ⟨type', key, pk, hty', hf, hkey, hk, h0, hpk, ha, _⟩ := noEc_returns hP hs e pass detail out _ hash c1 c2 chk hh h1 h2 hc he h
    have : type = type' := by
      rcases hty with rfl | rfl <;> rcases hty' with rfl | rfl <;> first | rfl | (exact absurd hf (by decide))
    subst this
    exact ⟨key, pk, hkey, hk, h0, hpk, ha⟩
  · rintro ⟨key, pk, hkey, hk, h0, hpk, ha⟩
    obtain ⟨pk', hpk', _, hok⟩ := priv_ok key hk
    have := isPublicKeyOf_unique hpk hpk'
    subst this
    have hk2 := hk.2
    refine ⟨present detail (keyDetail P v key pk type none none), ?_⟩
    rw [decrypt_noEc hs e pass detail _ _ (by simp [hh, h1, h2, hc]) he]
    refine (decryptNoEc_eq hP hs pass detail type hty hash c1 c2 chk hh h1 h2 key hkey).trans ?_
    rw [if_neg (by omega), if_neg h0, hok]
    exact if_pos ha

/-- C40, exact condition for a record with EC multiplication. -/
theorem C40_ec_iff (hP : P.Lawful) (hs : Selects obj network c n v) (e pass : Str) (detail : Bool) (f : UInt8)
    (hash ent h11 e2 chk : Bytes) (hh : hash.length = 4) (hent : ent.length = 8) (h1 : h11.length = 8) (h2 : e2.length = 16)
    (hc : chk.length = 4) (he : b58decode e = .ok ([0x01, 0x43, f] ++ (hash ++ ent ++ h11 ++ e2 ++ chk))) :
    (∃ out, obj.decrypt P e pass network detail = .ok out) ↔
      ∃ pf pp seed key pk, pf = passFactor P (decide (hasLot f)) pass ent ∧ IsPrivateKey pf ∧ IsPublicKeyOf pp pf
        ∧ 8 ≤ (ecTail P (ecDerive P pp.rawCompressed hash ent) e2).length
        ∧ seed = ecSeed P (ecDerive P pp.rawCompressed hash ent) h11 e2 ∧ IsPrivateKey (dsha P seed)
        ∧ key.length = 32 ∧ be key = be pf * be (dsha P seed) % n256k1 ∧ key.head? ≠ some 0
        ∧ IsPublicKeyOf pk key ∧ addressHash P v pk (pubType (ecType f)) = hash := by
  constructor
  · rintro ⟨out, h⟩
    obtain ⟨pf, pp, seed, key, pk, a1, a2, a3, a4, a5, a6, a7, a8, a9, a10, a11, a12, _⟩ :=
      ec_returns hP hs e pass detail out f hash ent h11 e2 chk hh hent h1 h2 hc he h
    exact ⟨pf, pp, seed, key, pk, a1, a2, a3, a4, a5, a6, a7, a8, a10, a11, a12⟩
  · rintro ⟨pf, pp, seed, key, pk, hpf, hk1, hpp, ht, hseed, hfb, hkl, hke, h0, hpk, ha⟩
    obtain ⟨pp', hpp', _, hok⟩ := priv_ok pf hk1
    have := isPublicKeyOf_unique hpp hpp'
    subst this
    have hkeq : toBE 32 (ecNum P pf seed) = key := by
      unfold ecNum; rw [← hke, be_eq, toBE_fromBE' key hkl]
    have hne : be key ≠ 0 := by rw [hke]; exact mul_mod_ne hk1.2.1 hk1.2.2 hfb.2.1 hfb.2.2
    have hlt : be key < n256k1 := by rw [hke]; exact ecNum_lt pf seed
    obtain ⟨pk', hpk', _, hok2⟩ := priv_ok key ⟨hkl, by omega, hlt⟩
    have := isPublicKeyOf_unique hpk hpk'
    subst this
    have q1 := hk1.2
    have q2 := hfb.2
    refine ⟨present detail (keyDetail P v key pk (ecType f) (some seed) (lotSeq f ent)), ?_⟩
    rw [decrypt_ec hs e pass detail _ _ (by simp [hh, hent, h1, h2, hc]) he]
    refine (decryptEc_eq hP hs pass detail f hash ent h11 e2 chk hh hent h1 h2 hc pf hpf).trans ?_
    have n1 : ¬ (be pf = 0 ∨ be pf ≥ n256k1) := by omega
    have n2 : ¬ (be (dsha P seed) = 0 ∨ be (dsha P seed) ≥ n256k1) := by omega
    have n3 : ¬ (ecTail P (ecDerive P pp.rawCompressed hash ent) e2).length < 8 := by omega
    simp only [hok, PrivateKey.publicKey, n1, n2, n3, ← hseed, hkeq, hok2, h0, ha, if_false, if_true]

/-- C40: every exception `decrypt` can raise on a known network. -/
theorem C40_decrypt_errors (hP : P.Lawful) (hs : Selects obj network c n v) (e pass : Str) (detail : Bool) (x : Exc)
    (h : obj.decrypt P e pass network detail = .error x) :
    x.cls ∈ [.passphraseError, .secp256k1Error, .error, .wifError, .valueError, .unicodeEncodeError] := by
  cases he : b58decode e with
  | error y =>
    unfold BIP38.decrypt at h
    rw [hs.select] at h
    simp only at h
    rw [py_bind (not_raise (not_not.mpr hs.mem)), py_bind_err he] at h
    have : y = x := Except.error.inj h
    subst this
    by_cases ha : ∀ ch ∈ e, ch.toNat < 128
    · rw [b58decode_ascii bitcoinAlphabet bitcoinAlphabet_valid e ha] at he; simp at he
    · push Not at ha
      obtain ⟨z, hz, hzc⟩ := C04_decode_nonascii bitcoinAlphabet e ha
      rw [hz] at he
      rw [← Except.error.inj he, hzc]; simp
  | ok rec =>
    by_cases hl : rec.length = 43
    swap
    · obtain ⟨y, hy, hyc⟩ := C23_length (P := P) hs e pass detail rec he hl
      rw [hy] at h; rw [← Except.error.inj h, hyc]; simp
    obtain ⟨hd3, rest, rfl, h3, h40⟩ := split_at' rec 3 40 hl
    match hd3, h3 with
    | [p0, p1, f], _ =>
    by_cases hp1 : ([p0, p1, f] ++ rest).take 2 = [0x01, 0x42]
    · have hp : p0 = 0x01 ∧ p1 = 0x42 := by simpa using hp1
      obtain ⟨rfl, rfl⟩ := hp
      by_cases hf : f ≠ 0xc0 ∧ f ≠ 0xe0
      · obtain ⟨y, hy, hyc⟩ := C23_flag (P := P) hs e pass detail f rest h40 he hf.1 hf.2
        rw [hy] at h; rw [← Except.error.inj h, hyc]; simp
      have hf : ∃ type, IsWifType type ∧ f = noEcFlag type := by
        by_cases hu : f = 0xc0
        · exact ⟨"wif", Or.inl rfl, hu⟩
        · exact ⟨"wif-compressed", Or.inr rfl, by by_contra h'; exact hf ⟨hu, h'⟩⟩
      obtain ⟨type, hty, rfl⟩ := hf
      obtain ⟨hash, c1, c2, chk, rfl, l1, l2, l3, l4⟩ := split_noEc rest h40
      rw [decrypt_noEc hs e pass detail _ _ h40 he, decryptNoEc_eq hP hs pass detail type hty hash c1 c2 chk l1 l2 l3 _ rfl] at h
      have hkl := noEcKey_length hP (stretch P pass hash 64) c1 c2 (stretch_length hP _ _ _) l2 l3
      generalize noEcKey P (stretch P pass hash 64) c1 c2 = key at h hkl
      by_cases hr : be key = 0 ∨ be key ≥ n256k1
      · rw [if_pos hr] at h; rw [← Except.error.inj h]; simp
      rw [if_neg hr] at h
      by_cases h0 : key.head? = some 0
      · rw [if_pos h0] at h; rw [← Except.error.inj h]; simp
      rw [if_neg h0] at h
      obtain ⟨pk, hpk, _, hok⟩ := priv_ok key ⟨hkl, by omega, by omega⟩
      rw [hok] at h
      simp only at h
      split at h
      · simp at h
      · rw [← Except.error.inj h]; simp
    · by_cases hp2 : ([p0, p1, f] ++ rest).take 2 = [0x01, 0x43]
      · have hp : p0 = 0x01 ∧ p1 = 0x43 := by simpa using hp2
        obtain ⟨rfl, rfl⟩ := hp
        obtain ⟨hash, ent, h11, e2, chk, rfl, l1, l2, l3, l4, l5⟩ := split_ec rest h40
        rw [decrypt_ec hs e pass detail _ _ h40 he, decryptEc_eq hP hs pass detail f hash ent h11 e2 chk l1 l2 l3 l4 l5 _ rfl] at h
        have hpl := passFactor_length hP (decide (hasLot f)) pass ent
        generalize passFactor P (decide (hasLot f)) pass ent = pf at h hpl
        by_cases hr : be pf = 0 ∨ be pf ≥ n256k1
        · rw [if_pos hr] at h; rw [← Except.error.inj h]; simp
        rw [if_neg hr] at h
        obtain ⟨pp, hpp, _, hok⟩ := priv_ok pf ⟨hpl, by omega, by omega⟩
        rw [hok] at h
        simp only at h
        split at h
        · rw [← Except.error.inj h]; simp
        split at h
        · rw [← Except.error.inj h]; simp
        split at h
        · rw [← Except.error.inj h]; simp
        split at h
        · rename_i y hy
          have hcls : y.cls = .secp256k1Error := by
            by_cases hq : IsPrivateKey (toBE 32 (ecNum P pf (ecSeed P (ecDerive P pp.rawCompressed hash ent) h11 e2)))
            · obtain ⟨_, _, _, hq'⟩ := priv_ok _ hq
              rw [show PrivateKey.publicKey ⟨be pf, pp⟩ = pp from rfl, hq'] at hy
              simp at hy
            · rw [isPrivateKey_iff] at hq
              rw [show PrivateKey.publicKey ⟨be pf, pp⟩ = pp from rfl, privFromBytes_error _ hq] at hy
              rw [← Except.error.inj hy]
          rw [← Except.error.inj h]; simp [hcls]
        split at h
        · simp at h
        · rw [← Except.error.inj h]; simp
      · obtain ⟨y, hy, hyc⟩ := C23_prefix (P := P) hs e pass detail _ he hl hp1 hp2
        rw [hy] at h; rw [← Except.error.inj h, hyc]; simp

end Bip38.Props
