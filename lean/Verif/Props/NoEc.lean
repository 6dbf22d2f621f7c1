import Verif.Lemmas.Intermediate
import Verif.Spec.Toy
import Verif.Props.Encoding
/-!
# Properties C17, C18, C19, C41: `encrypt`, and `decrypt` of what it returns
-/
namespace Bip38.Props
open Bip38 Spec

variable {P : Prims} {obj obj' : BIP38} {network network' : Option String} {c c' : Coin} {n n' : String} {v v' : Net}

/-- Whatever `encrypt` accepts is the text of a valid private key. -/
theorem encrypt_reads (hs : Selects obj network c n v) (w pass e : Str) (h : obj.encrypt P w pass network = .ok e) :
    ∃ key type, wifToPrivateKey w c n = .ok (hex key) ∧ getWifType w c n = .ok type ∧ IsPrivateKey key ∧ IsWifType type := by
  cases hd : decodeWif w v.wifPrefix with
  | error x =>
    exfalso
    have ht : getWifType w obj.cryptocurrency n = .error x := by
      unfold getWifType; rw [hs.coin, lookupNet_ok hs.net, py_bind rfl, py_bind_err hd]
    unfold BIP38.encrypt at h
    rw [hs.select] at h
    simp only at h
    rw [py_bind (not_raise (not_not.mpr hs.mem)), py_bind_err ht] at h
    simp at h
  | ok r =>
    obtain ⟨key, type, chk⟩ := r
    have hiff := (C09_decode_wif_iff w v.wifPrefix key chk type).mp hd
    have ht : getWifType w c n = .ok type := by
      unfold getWifType; rw [lookupNet_ok hs.net, py_bind rfl, py_bind hd]
    have hk : wifToPrivateKey w c n = .ok (hex key) := by
      unfold wifToPrivateKey; rw [lookupNet_ok hs.net, py_bind rfl, py_bind hd]; exact bytesToString_bytes key
    have hty : IsWifType type := by rcases hiff.2.2 with h | h <;> [exact Or.inl h.1; exact Or.inr h.1]
    refine ⟨key, type, hk, ht, ?_, hty⟩
    by_contra hnp
    rw [isPrivateKey_iff] at hnp
    have hpriv := privFromBytes_error key hnp
    unfold BIP38.encrypt at h
    rw [hs.select] at h
    simp only at h
    rw [hs.coin, py_bind (not_raise (not_not.mpr hs.mem)), py_bind ht] at h
    rcases hty with rfl | rfl
    · rw [if_pos rfl, py_bind c_flagU, py_bind hk, py_bind (getBytes_hex key), py_bind_err hpriv] at h
      simp at h
    · rw [if_neg (by decide), py_bind c_flagC, py_bind hk, py_bind (getBytes_hex key), py_bind_err hpriv] at h
      simp at h

/-- The key bytes a `0x0142` record gives back. -/
theorem noEcKey_record (hP : P.Lawful) (dk key : Bytes) (hdk : dk.length = 64) (hk : key.length = 32) :
    noEcKey P dk (P.aesEncrypt (dk.drop 32) (noEcPlain1 dk key)) (P.aesEncrypt (dk.drop 32) (noEcPlain2 dk key)) = key := by
  have hkk : (dk.drop 32).length = 32 := by simp [hdk]
  have l1 : (key.take 16).length = (dk.take 16).length := by simp [hk, hdk]
  have l2 : (key.drop 16).length = ((dk.take 32).drop 16).length := by simp [hk, hdk]
  have p1 : (noEcPlain1 dk key).length = 16 := by simp [noEcPlain1, hk, hdk]
  have p2 : (noEcPlain2 dk key).length = 16 := by simp [noEcPlain2, hk, hdk]
  unfold noEcKey
  rw [hP.aesDecrypt_aesEncrypt _ _ hkk p1, hP.aesDecrypt_aesEncrypt _ _ hkk p2]
  have e : dk.take 32 = dk.take 16 ++ (dk.take 32).drop 16 := by
    conv_lhs => rw [← List.take_append_drop 16 (dk.take 32)]
    rw [List.take_take]; rfl
  rw [e, bxor_append _ _ _ _ (by rw [p1]; simp [hdk])]
  unfold noEcPlain1 noEcPlain2
  rw [bxor_bxor _ _ l1, bxor_bxor _ _ l2, List.take_append_drop]

/-- What `decrypt` does with the text of a `0x0142` record of a key, on any network and with any checksum bytes. -/
theorem decrypt_record (hP : P.Lawful) (hs : Selects obj network c n v) (e pass : Str) (detail : Bool) (type : String)
    (hty : IsWifType type) (key hash chk : Bytes) (hk : IsPrivateKey key) (hh : hash.length = 4) (hc : chk.length = 4)
    (pk : PublicKey) (hpk : IsPublicKeyOf pk key)
    (he : b58decode e = .ok (noEcRecord P type hash (stretch P pass hash 64) key ++ chk)) :
    obj.decrypt P e pass network detail =
      if key.head? = some 0 then .error ⟨.secp256k1Error, "Invalid private key bytes"⟩
      else if addressHash P v pk (pubType type) = hash then
        .ok (present detail (keyDetail P v key pk type none none))
      else .error ⟨.passphraseError, "Incorrect passphrase"⟩ := by
  have hdl : (stretch P pass hash 64).length = 64 := stretch_length hP _ _ _
  have hkk : ((stretch P pass hash 64).drop 32).length = 32 := by simp [hdl]
  have p1 : (noEcPlain1 (stretch P pass hash 64) key).length = 16 := by simp [noEcPlain1, hk.1, hdl]
  have p2 : (noEcPlain2 (stretch P pass hash 64) key).length = 16 := by simp [noEcPlain2, hk.1, hdl]
  have a1 := hP.aesEncrypt_length _ _ hkk p1
  have a2 := hP.aesEncrypt_length _ _ hkk p2
  have hkey := (noEcKey_record hP _ key hdl hk.1).symm
  unfold noEcRecord at he
  generalize P.aesEncrypt ((stretch P pass hash 64).drop 32) (noEcPlain1 (stretch P pass hash 64) key) = c1 at he a1 hkey
  generalize P.aesEncrypt ((stretch P pass hash 64).drop 32) (noEcPlain2 (stretch P pass hash 64) key) = c2 at he a2 hkey
  rw [show [0x01, 0x42, noEcFlag type] ++ hash ++ c1 ++ c2 ++ chk = [0x01, 0x42, noEcFlag type] ++ (hash ++ c1 ++ c2 ++ chk) by simp] at he
  rw [decrypt_noEc hs e pass detail _ _ (by simp [hh, a1, a2, hc]) he, decryptNoEc_eq hP hs pass detail type hty hash c1 c2 chk hh a1 a2 key hkey]
  obtain ⟨pk', hpk', _, hok⟩ := priv_ok key hk
  have hpe := isPublicKeyOf_unique hpk hpk'
  subst hpe
  have h2 := hk.2
  rw [if_neg (by omega), hok]
  rfl

/-- What `encrypt` returns, as bytes. -/
theorem encrypt_record (hP : P.Lawful) (hs : Selects obj network c n v) (w pass e : Str) (key : Bytes) (type : String)
    (hw : wifToPrivateKey w c n = .ok (hex key)) (ht : getWifType w c n = .ok type) (hk : IsPrivateKey key)
    (hty : IsWifType type) (pk : PublicKey) (hpk : IsPublicKeyOf pk key) (h : obj.encrypt P w pass network = .ok e) :
    b58decode e = .ok (noEcRecord P type (addressHash P v pk (pubType type)) (stretch P pass (addressHash P v pk (pubType type)) 64) key
      ++ checksum P (noEcRecord P type (addressHash P v pk (pubType type)) (stretch P pass (addressHash P v pk (pubType type)) 64) key)) := by
  rw [encrypt_eq hP hs w pass key type hw ht hk hty pk hpk] at h
  split at h
  · rw [← Except.ok.inj h, dec_enc]
  · simp at h

/-- C17 in full generality: if `encrypt` returns, the WIF was one of a valid private key `key` and of some type; then `decrypt`
of the result with the same passphrase and network returns the WIF of that key and type unless the key starts with a zero
byte, in which case it raises `Secp256k1Error`. -/
theorem C17_decrypt_encrypt (hP : P.Lawful) (hs : Selects obj network c n v) (w pass e : Str) (detail : Bool)
    (h : obj.encrypt P w pass network = .ok e) :
    ∃ key type pk, wifToPrivateKey w c n = .ok (hex key) ∧ getWifType w c n = .ok type ∧ IsPrivateKey key ∧ IsPublicKeyOf pk key ∧
      (key.head? ≠ some 0 → obj.decrypt P e pass network detail = .ok (present detail (keyDetail P v key pk type none none))) ∧
      (key.head? = some 0 → ∃ x, obj.decrypt P e pass network detail = .error x ∧ x.cls = .secp256k1Error) := by
  obtain ⟨key, type, hw, ht, hk, hty⟩ := encrypt_reads hs w pass e h
  obtain ⟨pk, hpk, _, _⟩ := priv_ok key hk
  have he := encrypt_record hP hs w pass e key type hw ht hk hty pk hpk h
  have hd := decrypt_record hP hs e pass detail type hty key _ _ hk (addressHash_length hP _ _ _) (checksum_length hP _) pk hpk he
  rw [if_pos rfl] at hd
  refine ⟨key, type, pk, hw, ht, hk, hpk, fun h0 => by rw [hd, if_neg h0], fun h0 => ⟨_, by rw [hd, if_pos h0], rfl⟩⟩

/-- C17, both directions, for the WIFs the library writes: `decrypt` gives the WIF back if and only if the private key does not
start with a zero byte (is at least `2 ^ 248`); otherwise it raises `Secp256k1Error`. -/
theorem C17_roundtrip_iff (hP : P.Lawful) (hs : Selects obj network c n v) (key : Bytes) (hk : IsPrivateKey key) (type : String)
    (hty : IsWifType type) (w pass e : Str) (hw : privateKeyToWif P (.bytes key) type c n = .ok w)
    (h : obj.encrypt P w pass network = .ok e) :
    (obj.decrypt P e pass network = .ok (.wif w) ↔ 2 ^ 248 ≤ be key) ∧
    (be key < 2 ^ 248 → ∃ x, obj.decrypt P e pass network = .error x ∧ x.cls = .secp256k1Error) := by
  have hh := head_iff_ge key 31 hk.1
  rw [show (256 : Nat) ^ 31 = 2 ^ 248 by norm_num] at hh
  obtain ⟨w', hw', hkey', hty', _⟩ := C07_wif_roundtrip P hP c n v hs.net key hk.1 type hty
  have : w' = w := Except.ok.inj (hw'.symm.trans hw)
  subst this
  obtain ⟨key2, type2, pk, hk2, ht2, _, hpk, hok, herr⟩ := C17_decrypt_encrypt hP hs w' pass e false h
  have e1 : key = key2 := hex_inj (Except.ok.inj (hkey'.symm.trans hk2))
  have e2 : type = type2 := Except.ok.inj (hty'.symm.trans ht2)
  subst e1 e2
  have hwt : w' = wifText P v key type := by
    have := C07_wif_text P c n v hs.net key hk.1 type hty
    exact Except.ok.inj (hw'.symm.trans this)
  refine ⟨⟨fun hd => hh.mp fun h0 => ?_, fun hge => ?_⟩, fun hlt => herr ?_⟩
  · obtain ⟨x, hx, _⟩ := herr h0
    rw [hx] at hd; simp at hd
  · rw [hok (hh.mpr hge), hwt]; rfl
  · by_contra h0
    have := hh.mp h0
    omega

/-! ## C18 -/

/-- C18, exact condition: for a WIF of the selected network with a valid private key, `encrypt` returns if and only if the
bytes 0 and 16 of the key differ from the bytes 0 and 16 derived from the passphrase; otherwise it raises `ValueError`. -/
theorem C18_encrypt_returns_iff (hP : P.Lawful) (hs : Selects obj network c n v) (w pass : Str) (key : Bytes) (type : String)
    (hw : wifToPrivateKey w c n = .ok (hex key)) (ht : getWifType w c n = .ok type) (hk : IsPrivateKey key)
    (hty : IsWifType type) (pk : PublicKey) (hpk : IsPublicKeyOf pk key) (dk : Bytes)
    (hdk : dk = stretch P pass (addressHash P v pk (pubType type)) 64) :
    ((∃ e, obj.encrypt P w pass network = .ok e) ↔ key.getD 0 0 ≠ dk.getD 0 0 ∧ key.getD 16 0 ≠ dk.getD 16 0) ∧
    (¬ (key.getD 0 0 ≠ dk.getD 0 0 ∧ key.getD 16 0 ≠ dk.getD 16 0) →
      obj.encrypt P w pass network = .error ⟨.valueError, "plaintext block must be 16 bytes"⟩) := by
  have hdl : dk.length = 64 := by rw [hdk]; exact stretch_length hP _ _ _
  have hkl := hk.1
  have hcond : ((noEcPlain1 dk key).head? ≠ some 0 ∧ (noEcPlain2 dk key).head? ≠ some 0) ↔
      key.getD 0 0 ≠ dk.getD 0 0 ∧ key.getD 16 0 ≠ dk.getD 16 0 := by
    have q1 : (noEcPlain1 dk key).head? = some 0 ↔ key.getD 0 0 = dk.getD 0 0 := by
      unfold noEcPlain1
      rw [head_bxor]
      cases key with
      | nil => simp at hkl
      | cons a t => cases dk with
        | nil => simp at hdl
        | cons b u => simp
    have q2 : (noEcPlain2 dk key).head? = some 0 ↔ key.getD 16 0 = dk.getD 16 0 := by
      unfold noEcPlain2
      rw [head_bxor]
      have n1 : key.drop 16 ≠ [] := by intro h; have := congrArg List.length h; simp [hkl] at this
      have n2 : (dk.take 32).drop 16 ≠ [] := by intro h; have := congrArg List.length h; simp [hdl] at this
      have g1 : (key.drop 16).head? = some (key.getD 16 0) := by
        rw [List.head?_drop, List.getD_eq_getElem?_getD, List.getElem?_eq_getElem (by omega)]; rfl
      have g2 : ((dk.take 32).drop 16).head? = some (dk.getD 16 0) := by
        rw [List.head?_drop, List.getElem?_take, if_pos (by norm_num), List.getD_eq_getElem?_getD,
          List.getElem?_eq_getElem (by omega)]; rfl
      rw [g1, g2]
      simp [n1, n2]
    rw [ne_eq, ne_eq, q1, q2]
  rw [encrypt_eq hP hs w pass key type hw ht hk hty pk hpk, ← hdk]
  simp only [hcond]
  refine ⟨⟨fun ⟨e, he⟩ => ?_, fun h => ⟨_, if_pos h⟩⟩, fun h => if_neg h⟩
  by_contra hn
  rw [if_neg hn] at he
  simp at he

/-! Concrete cases: with the toy primitives `encrypt` returns both for a key with and for a key without leading zero. -/

theorem toy_encrypts (key : Bytes) (hk : IsPrivateKey key) (h0 : key.getD 0 0 ≠ 0xff) (h16 : key.getD 16 0 ≠ 0xff) (w : Str)
    (hw : privateKeyToWif (toy 1 0xff) (.bytes key) "wif" Coins.Bitcoin "mainnet" = .ok w) :
    ∃ e, bitcoinObject.encrypt (toy 1 0xff) w [] none = .ok e := by
  have hs := bitcoin_selects
  obtain ⟨w', hw', hkey', hty', _⟩ := C07_wif_roundtrip (toy 1 0xff) (toy_lawful _ _) _ _ _ hs.net key hk.1 "wif" (Or.inl rfl)
  have : w' = w := Except.ok.inj (hw'.symm.trans hw)
  subst this
  obtain ⟨pk, hpk, _, _⟩ := priv_ok key hk
  exact (C18_encrypt_returns_iff (toy_lawful 1 0xff) hs w' [] key "wif" hkey' hty' hk (Or.inl rfl) pk hpk _ rfl).1.mpr ⟨h0, h16⟩

/-- The hypotheses of C17 are met by the key `01…01` (round trip) … -/
example : ∃ w e, privateKeyToWif (toy 1 0xff) (.bytes (List.replicate 32 1)) "wif" Coins.Bitcoin "mainnet" = .ok w
    ∧ bitcoinObject.encrypt (toy 1 0xff) w [] none = .ok e ∧ bitcoinObject.decrypt (toy 1 0xff) e [] none = .ok (.wif w) := by
  have hk : IsPrivateKey (List.replicate 32 1) := by decide +kernel
  obtain ⟨w, hw, _⟩ := C07_wif_roundtrip (toy 1 0xff) (toy_lawful _ _) _ _ _ bitcoin_selects.net _ hk.1 "wif" (Or.inl rfl)
  obtain ⟨e, he⟩ := toy_encrypts _ hk (by decide) (by decide) w hw
  exact ⟨w, e, hw, he, (C17_roundtrip_iff (toy_lawful _ _) bitcoin_selects _ hk _ (Or.inl rfl) w [] e hw he).1.mpr (by decide +kernel)⟩

/-- … and C17 as users expect it is false of the code: the key 1 is a counterexample. -/
theorem C17_refuted : ¬ ∀ (P : Prims), P.Lawful → ∀ (key : Bytes), IsPrivateKey key → ∀ w pass e : Str,
    privateKeyToWif P (.bytes key) "wif" Coins.Bitcoin "mainnet" = .ok w →
    bitcoinObject.encrypt P w pass none = .ok e → bitcoinObject.decrypt P e pass none = .ok (.wif w) := by
  intro hall
  have hk : IsPrivateKey (List.replicate 31 0 ++ [1]) := by decide +kernel
  obtain ⟨w, hw, _⟩ := C07_wif_roundtrip (toy 1 0xff) (toy_lawful _ _) _ _ _ bitcoin_selects.net _ hk.1 "wif" (Or.inl rfl)
  obtain ⟨e, he⟩ := toy_encrypts _ hk (by decide) (by decide) w hw
  have := (C17_roundtrip_iff (toy_lawful _ _) bitcoin_selects _ hk _ (Or.inl rfl) w [] e hw he).1.mp
    (hall _ (toy_lawful _ _) _ hk w [] e hw he)
  exact absurd this (by decide +kernel)

/-- C18 as users expect it is false of the code. -/
theorem C18_refuted : ¬ ∀ (P : Prims), P.Lawful → ∀ (key : Bytes), IsPrivateKey key → ∀ w pass : Str,
    privateKeyToWif P (.bytes key) "wif" Coins.Bitcoin "mainnet" = .ok w → ∃ e, bitcoinObject.encrypt P w pass none = .ok e := by
  intro hall
  have hs := bitcoin_selects
  have hk : IsPrivateKey (List.replicate 32 7) := by decide +kernel
  obtain ⟨w, hw, hkey, hty, _⟩ := C07_wif_roundtrip (toy 1 7) (toy_lawful _ _) _ _ _ hs.net _ hk.1 "wif" (Or.inl rfl)
  obtain ⟨pk, hpk, _, _⟩ := priv_ok _ hk
  have := ((C18_encrypt_returns_iff (toy_lawful 1 7) hs w [] _ "wif" hkey hty hk (Or.inl rfl) pk hpk _ rfl).1.mp
    (hall _ (toy_lawful _ _) _ hk w [] hw)).1
  exact this rfl

/-! ## C19 -/

/-- C19: the bytes of the record `encrypt` writes. -/
theorem C19_record (hP : P.Lawful) (hs : Selects obj network c n v) (w pass e : Str)
    (h : obj.encrypt P w pass network = .ok e) :
    ∃ key type pk hash dk c1 c2, wifToPrivateKey w c n = .ok (hex key) ∧ getWifType w c n = .ok type
      ∧ IsPublicKeyOf pk key
      ∧ hash = checksum P (utf8 (addressText P v pk (pubType type)))
      ∧ dk = P.scrypt (utf8 (P.nfc pass)) hash 16384 8 8 64
      ∧ c1.length = 16 ∧ c2.length = 16
      ∧ P.aesDecrypt (dk.drop 32) c1 = bxor (key.take 16) (dk.take 16)
      ∧ P.aesDecrypt (dk.drop 32) c2 = bxor (key.drop 16) ((dk.take 32).drop 16)
      ∧ b58decode e = .ok ([0x01, 0x42, if type = "wif" then 0xc0 else 0xe0] ++ hash ++ c1 ++ c2
          ++ checksum P ([0x01, 0x42, if type = "wif" then 0xc0 else 0xe0] ++ hash ++ c1 ++ c2))
      ∧ checkDecode P.sha256 e = .ok ([0x01, 0x42, if type = "wif" then 0xc0 else 0xe0] ++ hash ++ c1 ++ c2) := by
  obtain ⟨key, type, hw, ht, hk, hty⟩ := encrypt_reads hs w pass e h
  obtain ⟨pk, hpk, _, _⟩ := priv_ok key hk
  have he := encrypt_record hP hs w pass e key type hw ht hk hty pk hpk h
  have hhl := addressHash_length hP v pk (pubType type)
  set hash := addressHash P v pk (pubType type) with hhash
  set dk := stretch P pass hash 64 with hdk
  have hdl : dk.length = 64 := stretch_length hP _ _ _
  have hkk : (dk.drop 32).length = 32 := by simp [hdl]
  have p1 : (noEcPlain1 dk key).length = 16 := by simp [noEcPlain1, hk.1, hdl]
  have p2 : (noEcPlain2 dk key).length = 16 := by simp [noEcPlain2, hk.1, hdl]
  refine ⟨key, type, pk, hash, dk, _, _, hw, ht, hpk, rfl, rfl, hP.aesEncrypt_length _ _ hkk p1, hP.aesEncrypt_length _ _ hkk p2,
    hP.aesDecrypt_aesEncrypt _ _ hkk p1, hP.aesDecrypt_aesEncrypt _ _ hkk p2, he, ?_⟩
  exact (C03_check_decode_iff P.sha256 hP.sha256_length bitcoinAlphabet e _).mpr he

/-! ## C41 -/

/-- C41: decrypting on another network. `obj'`, `network'` may belong to another coin. -/
theorem C41_other_network (hP : P.Lawful) (hs : Selects obj network c n v) (hs' : Selects obj' network' c' n' v')
    (w pass e : Str) (detail : Bool) (key : Bytes) (type : String) (pk : PublicKey)
    (hw : wifToPrivateKey w c n = .ok (hex key)) (ht : getWifType w c n = .ok type) (hpk : IsPublicKeyOf pk key)
    (hdiff : addressHash P v pk (pubType type) ≠ addressHash P v' pk (pubType type))
    (h : obj.encrypt P w pass network = .ok e) :
    ∃ x, obj'.decrypt P e pass network' detail = .error x ∧
      x.cls = if key.head? = some 0 then .secp256k1Error else .passphraseError := by
  obtain ⟨key2, type2, hw2, ht2, hk, hty⟩ := encrypt_reads hs w pass e h
  have e1 : key = key2 := hex_inj (Except.ok.inj (hw.symm.trans hw2))
  have e2 : type = type2 := Except.ok.inj (ht.symm.trans ht2)
  subst e1 e2
  have he := encrypt_record hP hs w pass e key type hw ht hk hty pk hpk h
  have hd := decrypt_record hP hs' e pass detail type hty key _ _ hk (addressHash_length hP _ _ _) (checksum_length hP _) pk hpk he
  rw [hd]
  by_cases h0 : key.head? = some 0
  · rw [if_pos h0]; exact ⟨_, rfl, by rw [if_pos h0]⟩
  · rw [if_neg h0, if_neg (fun h => hdiff h.symm)]; exact ⟨_, rfl, by rw [if_neg h0]⟩

/-- A case of C41: the key `01…01` encrypted on mainnet is refused on testnet. -/
example : ∃ w e, privateKeyToWif (echo 0xff) (.bytes (List.replicate 32 1)) "wif" Coins.Bitcoin "mainnet" = .ok w
    ∧ bitcoinObject.encrypt (echo 0xff) w [] none = .ok e
    ∧ ∃ x, bitcoinObject.decrypt (echo 0xff) e [] (some "testnet") = .error x ∧ x.cls = .passphraseError := by
  have hs := bitcoin_selects
  have hk : IsPrivateKey (List.replicate 32 1) := by decide +kernel
  have hP := echo_lawful 0xff
  obtain ⟨w, hw, hkey, hty, _⟩ := C07_wif_roundtrip (echo 0xff) hP _ _ _ hs.net _ hk.1 "wif" (Or.inl rfl)
  obtain ⟨pk, hpk, _, _⟩ := priv_ok _ hk
  obtain ⟨e, he⟩ := (C18_encrypt_returns_iff hP hs w [] _ "wif" hkey hty hk (Or.inl rfl) pk hpk _ rfl).1.mpr
    ⟨by exact (by decide : (1 : UInt8) ≠ 0xff), by exact (by decide : (1 : UInt8) ≠ 0xff)⟩
  refine ⟨w, e, hw, he, ?_⟩
  have hd : addressHash (echo 0xff) ⟨0x80, 0x00⟩ pk (pubType "wif") ≠ addressHash (echo 0xff) ⟨0xef, 0x6f⟩ pk (pubType "wif") := by
    have key : ∀ k, h160 (echo 0xff) k = List.replicate 20 0 := fun k => rfl
    unfold addressHash addressText addressPayload
    simp only [key]
    decide +kernel
  obtain ⟨x, hx, hc⟩ := C41_other_network hP hs bitcoin_selects_testnet w [] e false _ "wif" pk hkey hty hpk hd he
  exact ⟨x, hx, by rw [hc]; decide⟩

end Bip38.Props
