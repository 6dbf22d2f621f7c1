import Verif.Props.Inject
import Verif.Props.WifMore
import Verif.Props.ConfirmExamples
import Verif.Props.AddressInj
import Verif.Props.Detail
/-!
# Properties C60 - C63: every outcome of `encrypt`; other networks; what an intermediate code and a confirmation code determine
-/
namespace Bip38.Props
open Bip38 Spec

variable {P : Prims} {obj obj' : BIP38} {network network' : Option String} {c c' : Coin} {n n' : String} {v v' : Net}

/-! ## C60 -/

/-- The text decodes to the prefix of the network, 32 key bytes, for the compressed type one more byte, and 4 bytes. -/
def WifLike (w : Str) (v : Net) (key : Bytes) (type : String) : Prop :=
  key.length = 32 ∧ ∃ chk : Bytes, chk.length = 4 ∧
    ((type = "wif" ∧ b58decode w = .ok (prefixBytes v.wifPrefix ++ key ++ chk)) ∨
     (type = "wif-compressed" ∧ ∃ marker, b58decode w = .ok (prefixBytes v.wifPrefix ++ key ++ [marker] ++ chk)))

theorem wifLike_iff (v : Net) (w : Str) (key : Bytes) (type : String) :
    WifLike w v key type ↔ ∃ chk, decodeWif w v.wifPrefix = .ok (key, type, chk) := by
  simp only [C09_decode_wif_iff w v.wifPrefix, WifLike]
  constructor
  · rintro ⟨h1, chk, h2, h3⟩; exact ⟨chk, h1, h2, h3⟩
  · rintro ⟨chk, h1, h2, h3⟩; exact ⟨h1, chk, h2, h3⟩

theorem wifLike_reads (hs : Selects obj network c n v) (w : Str) (key : Bytes) (type : String) (h : WifLike w v key type) :
    wifToPrivateKey w c n = .ok (hex key) ∧ getWifType w c n = .ok type ∧ IsWifType type := by
  obtain ⟨chk, hd⟩ := (wifLike_iff v w key type).mp h
  refine ⟨?_, ?_, ?_⟩
  · unfold wifToPrivateKey; rw [lookupNet_ok hs.net, py_bind rfl, py_bind hd]; exact bytesToString_bytes key
  · unfold getWifType; rw [lookupNet_ok hs.net, py_bind rfl, py_bind hd]
  · obtain ⟨_, chk, _, h | h⟩ := h
    · exact Or.inl h.1
    · exact Or.inr h.1

/-- C60: what `encrypt` does with any text whatsoever, on any network of the object.
* A character outside ASCII: `UnicodeEncodeError`.
* Text that is not WIF-like for the selected network: `WIFError`.
* WIF-like text of 32 bytes that are no private key: `Secp256k1Error`.
* WIF-like text of a private key: `ValueError` if byte 0 or byte 16 of the key equals the byte derived from the passphrase at that
  place (the finding of C18), and in all other cases an encrypted key. -/
theorem C60_encrypt (hP : P.Lawful) (hs : Selects obj network c n v) (w pass : Str) :
    ((∃ ch ∈ w, 128 ≤ ch.toNat) → ∃ x, obj.encrypt P w pass network = .error x ∧ x.cls = .unicodeEncodeError) ∧
    ((∀ ch ∈ w, ch.toNat < 128) → (∀ key type, ¬ WifLike w v key type) →
      obj.encrypt P w pass network = .error ⟨.wifError, "Invalid Wallet Import Format (WIF)"⟩) ∧
    (∀ key type, WifLike w v key type → ¬ IsPrivateKey key →
      obj.encrypt P w pass network = .error ⟨.secp256k1Error, "Invalid private key bytes"⟩) ∧
    (∀ key type pk dk, WifLike w v key type → IsPrivateKey key → IsPublicKeyOf pk key →
      dk = stretch P pass (addressHash P v pk (pubType type)) 64 →
      (key.getD 0 0 = dk.getD 0 0 ∨ key.getD 16 0 = dk.getD 16 0 →
        obj.encrypt P w pass network = .error ⟨.valueError, "plaintext block must be 16 bytes"⟩) ∧
      (key.getD 0 0 ≠ dk.getD 0 0 ∧ key.getD 16 0 ≠ dk.getD 16 0 → ∃ e, obj.encrypt P w pass network = .ok e)) := by
  have hbad : ∀ x, decodeWif w v.wifPrefix = .error x → obj.encrypt P w pass network = .error x := by
    intro x hd
    have ht : getWifType w c n = .error x := by
      unfold getWifType; rw [lookupNet_ok hs.net, py_bind rfl, py_bind_err hd]
    unfold BIP38.encrypt
    rw [hs.select]
    simp only
    rw [hs.coin, py_bind (not_raise (not_not.mpr hs.mem)), py_bind_err ht]
  refine ⟨?_, ?_, ?_, ?_⟩
  · rintro ⟨ch, hch, hge⟩
    cases hd : decodeWif w v.wifPrefix with
    | error x =>
      refine ⟨x, hbad x hd, ?_⟩
      rcases C49_decode_errors w v.wifPrefix x hd with h | h
      · exact h.2
      · exact absurd (h.1 ch hch) (by omega)
    | ok r =>
      obtain ⟨key, type, chk⟩ := r
      obtain ⟨e, he, _⟩ := C04_decode_nonascii bitcoinAlphabet w ⟨ch, hch, hge⟩
      obtain ⟨_, _, h | ⟨_, m, h⟩⟩ := (C09_decode_wif_iff w v.wifPrefix key chk type).mp hd
      · rw [he] at h; simp at h
      · rw [he] at h; simp at h
  · intro ha hno
    cases hd : decodeWif w v.wifPrefix with
    | error x =>
      rcases C49_decode_errors w v.wifPrefix x hd with ⟨⟨ch, hch, hge⟩, _⟩ | h
      · exact absurd (ha ch hch) (by omega)
      · rw [hbad x hd, h.2]
    | ok r =>
      obtain ⟨key, type, chk⟩ := r
      exact absurd ((wifLike_iff v w key type).mpr ⟨chk, hd⟩) (hno key type)
  · intro key type hw hnp
    obtain ⟨hk, ht, hty⟩ := wifLike_reads hs w key type hw
    rw [isPrivateKey_iff] at hnp
    have hpriv := privFromBytes_error key hnp
    unfold BIP38.encrypt
    rw [hs.select]
    simp only
    rw [hs.coin, py_bind (not_raise (not_not.mpr hs.mem)), py_bind ht]
    rcases hty with rfl | rfl
    · rw [if_pos rfl, py_bind c_flagU, py_bind hk, py_bind (getBytes_hex key), py_bind_err hpriv]
    · rw [if_neg (by decide), py_bind c_flagC, py_bind hk, py_bind (getBytes_hex key), py_bind_err hpriv]
  · intro key type pk dk hw hk hpk hdk
    obtain ⟨hkw, ht, hty⟩ := wifLike_reads hs w key type hw
    obtain ⟨h1, h2⟩ := C18_encrypt_returns_iff hP hs w pass key type hkw ht hk hty pk hpk dk hdk
    refine ⟨fun h => h2 (by rintro ⟨a, b⟩; rcases h with h | h <;> contradiction), fun h => h1.mpr h⟩

/-- Cases of C60: a letter outside ASCII, the empty text, 32 zero bytes, a usable key (twice: the first one collides with the derived
bytes 1, the second does not). -/
example : (∃ ch ∈ "é".toList, 128 ≤ ch.toNat)
    ∧ (∀ key type, ¬ WifLike [] ⟨0x80, 0⟩ key type)
    ∧ (WifLike (b58encode ([0x80] ++ List.replicate 32 0 ++ [0, 0, 0, 0])) ⟨0x80, 0⟩ (List.replicate 32 0) "wif" ∧ ¬ IsPrivateKey (List.replicate 32 0))
    ∧ (∀ b : UInt8, b = 1 ∨ b = 2 → WifLike (b58encode ([0x80] ++ List.replicate 32 b ++ [0, 0, 0, 0])) ⟨0x80, 0⟩ (List.replicate 32 b) "wif"
        ∧ IsPrivateKey (List.replicate 32 b) ∧ ∃ pk, IsPublicKeyOf pk (List.replicate 32 b)
        ∧ ((List.replicate 32 b).getD 0 0 = (stretch (toy 7 1) [] (addressHash (toy 7 1) ⟨0x80, 0⟩ pk (pubType "wif")) 64).getD 0 0 ↔ b = 1)) := by
  have hw : ∀ b, WifLike (b58encode ([0x80] ++ List.replicate 32 b ++ [0, 0, 0, 0])) ⟨0x80, 0⟩ (List.replicate 32 b) "wif" := fun b =>
    ⟨by simp, [0, 0, 0, 0], rfl, Or.inl ⟨rfl, by rw [prefixBytes_byte _ (by decide)]; exact C01_decode_encode_bitcoin _⟩⟩
  refine ⟨⟨'é', by decide, by decide⟩, ?_, ⟨hw 0, fun h => absurd h.2.1 (by decide)⟩, ?_⟩
  · rintro key type ⟨h1, chk, h2, ⟨_, h⟩ | ⟨_, m, h⟩⟩
    · have h := congrArg List.length (Except.ok.inj ((show b58decode [] = .ok [] by rfl).symm.trans h))
      simp [h1, h2] at h
    · have h := congrArg List.length (Except.ok.inj ((show b58decode [] = .ok [] by rfl).symm.trans h))
      simp [h1, h2] at h
  · intro b hb
    have hk : IsPrivateKey (List.replicate 32 b) := by
      rcases hb with rfl | rfl <;> exact ⟨by simp, by decide +kernel, by decide +kernel⟩
    obtain ⟨pk, hpk, _⟩ := priv_ok _ hk
    refine ⟨hw b, hk, pk, hpk, ?_⟩
    have : stretch (toy 7 1) [] (addressHash (toy 7 1) ⟨0x80, 0⟩ pk (pubType "wif")) 64 = List.replicate 64 1 := rfl
    rw [this]
    rcases hb with rfl | rfl <;> decide

/-! ## C61 -/

/-- C61: let `decrypt` return a key on one network. On any other network (of any cryptocurrency) with the same passphrase it either
finds the same private key and describes it for that network, if the address of the key there has the hash in the record, or raises
`PassphraseError`. -/
theorem C61_decrypt_elsewhere (hP : P.Lawful) (hs : Selects obj network c n v) (hs' : Selects obj' network' c' n' v')
    (e pass : Str) (d : DecryptDetail) (h : obj.decrypt P e pass network true = .ok (.detail d)) :
    ∃ key type pk, Describes P c n v key type d ∧ IsPublicKeyOf pk key ∧
      (checksum P (utf8 (addressText P v' pk d.publicKeyType)) = checksum P (utf8 d.address) →
        ∃ d', obj'.decrypt P e pass network' true = .ok (.detail d') ∧ obj'.decrypt P e pass network' false = .ok (.wif d'.wif)
          ∧ Describes P c' n' v' key type d' ∧ d'.seed = d.seed ∧ d'.lot = d.lot ∧ d'.sequence = d.sequence) ∧
      (checksum P (utf8 (addressText P v' pk d.publicKeyType)) ≠ checksum P (utf8 d.address) →
        ∀ detail, ∃ x, obj'.decrypt P e pass network' detail = .error x ∧ x.cls = .passphraseError) := by
  obtain ⟨rec, key, type, d0, hdec, hl, hform, hdes, hhash, hdd, _⟩ := C20_C21_returned_key hP hs e pass true _ h
  have hpres : ∀ {a b : DecryptDetail}, obj.decrypt P e pass network true = .ok (present true a) →
      obj.decrypt P e pass network true = .ok (.detail b) → b = a := by
    intro a b h1 h2
    have := Except.ok.inj (h2.symm.trans h1)
    simpa [present] using this
  obtain ⟨p, r, rfl, hp, hr⟩ := split_at' rec 3 40 (by omega)
  obtain ⟨a, b, f, rfl⟩ : ∃ a b f, p = [a, b, f] := by
    match p, hp with
    | [a, b, f], _ => exact ⟨a, b, f, rfl⟩
  rcases hform with ⟨hpre, _⟩ | ⟨hpre, _⟩
  · have hab : a = 0x01 ∧ b = 0x42 := by simpa using hpre
    obtain ⟨rfl, rfl⟩ := hab
    obtain ⟨hash, c1, c2, chk, rfl, g1, g2, g3, g4⟩ := split_noEc r hr
    obtain ⟨type, key, pk, hty, rfl, hkey, hk, h0, hpk, hah, hall⟩ := noEc_returns hP hs e pass true _ f hash c1 c2 chk g1 g2 g3 g4 hdec h
    have hd := hpres (hall true) h
    subst hd
    obtain ⟨pk2, hpk2, _, hok⟩ := priv_ok key hk
    have := isPublicKeyOf_unique hpk hpk2
    subst this
    have heq := fun detail => (decrypt_noEc hs' e pass detail _ _ hr hdec).trans
      (decryptNoEc_eq hP hs' pass detail type hty hash c1 c2 chk g1 g2 g3 key hkey)
    have hr1 : ¬ (be key = 0 ∨ be key ≥ n256k1) := by have := hk.2; omega
    simp only [hr1, if_false, h0, hok, PrivateKey.publicKey] at heq
    refine ⟨key, type, pk, describes_keyDetail hP hs key hk pk hpk type hty none none, hpk, ?_, ?_⟩
    · intro hsame
      have hsame : addressHash P v' pk (pubType type) = hash := hsame.trans hah
      simp only [hsame, if_true] at heq
      exact ⟨_, heq true, heq false, describes_keyDetail hP hs' key hk pk hpk type hty none none, rfl, rfl, rfl⟩
    · intro hdiff detail
      have hdiff : addressHash P v' pk (pubType type) ≠ hash := fun h => hdiff (h.trans hah.symm)
      simp only [hdiff, if_false] at heq
      exact ⟨_, heq detail, rfl⟩
  · have hab : a = 0x01 ∧ b = 0x43 := by simpa using hpre
    obtain ⟨rfl, rfl⟩ := hab
    obtain ⟨hash, ent, h11, e2, chk, rfl, g1, g2, g3, g4, g5⟩ := split_ec r hr
    obtain ⟨pf, pp, seed, key, pk, hpf, hpfk, hpp, htl, hseed, hsk, hkl, hkv, hk, h0, hpk, hah, hall⟩ :=
      ec_returns hP hs e pass true _ f hash ent h11 e2 chk g1 g2 g3 g4 g5 hdec h
    have hd := hpres (hall true) h
    subst hd
    obtain ⟨pk2, hpk2, _, hok⟩ := priv_ok key hk
    have := isPublicKeyOf_unique hpk hpk2
    subst this
    obtain ⟨pp2, hpp2, _, hokp⟩ := priv_ok pf hpfk
    have := isPublicKeyOf_unique hpp hpp2
    subst this
    have hty : IsWifType (ecType f) := by unfold ecType IsWifType; split <;> simp
    have heq := fun detail => (decrypt_ec hs' e pass detail _ _ hr hdec).trans
      (decryptEc_eq hP hs' pass detail f hash ent h11 e2 chk g1 g2 g3 g4 g5 pf hpf)
    have hr1 : ¬ (be pf = 0 ∨ be pf ≥ n256k1) := by have := hpfk.2; omega
    have hr2 : ¬ (be (dsha P seed) = 0 ∨ be (dsha P seed) ≥ n256k1) := by have := hsk.2; omega
    have hr3 : ¬ (ecTail P (ecDerive P pp.rawCompressed hash ent) e2).length < 8 := by omega
    have hke : toBE 32 (ecNum P pf seed) = key := by
      unfold ecNum
      rw [← hkv, be_eq, toBE_fromBE' key hkl]
    simp only [hr1, if_false, hokp, PrivateKey.publicKey, ← hseed, hr2, hr3, hke, h0, hok] at heq
    refine ⟨key, ecType f, pk, describes_keyDetail hP hs key hk pk hpk _ hty _ _, hpk, ?_, ?_⟩
    · intro hsame
      have hsame : addressHash P v' pk (pubType (ecType f)) = hash := hsame.trans hah
      simp only [hsame, if_true] at heq
      exact ⟨_, heq true, heq false, describes_keyDetail hP hs' key hk pk hpk _ hty _ _, rfl, rfl, rfl⟩
    · intro hdiff detail
      have hdiff : addressHash P v' pk (pubType (ecType f)) ≠ hash := fun h => hdiff (h.trans hah.symm)
      simp only [hdiff, if_false] at heq
      exact ⟨_, heq detail, rfl⟩

/-- C61: the same for `confirm_code`: on another network it reports the same public key, or raises `PassphraseError`. -/
theorem C61_confirm_elsewhere (hP : P.Lawful) (hs : Selects obj network c n v) (hs' : Selects obj' network' c' n' v')
    (pass code : Str) (d : ConfirmDetail) (h : obj.confirmCode P pass code network true = .ok (.detail d)) :
    ∃ pk : PublicKey, d.publicKey = hex (sec1 pk d.publicKeyType) ∧ d.address = addressText P v pk d.publicKeyType ∧
      (checksum P (utf8 (addressText P v' pk d.publicKeyType)) = checksum P (utf8 d.address) →
        obj'.confirmCode P pass code network' true = .ok (.detail { d with address := addressText P v' pk d.publicKeyType })) ∧
      (checksum P (utf8 (addressText P v' pk d.publicKeyType)) ≠ checksum P (utf8 d.address) →
        ∀ detail, ∃ x, obj'.confirmCode P pass code network' detail = .error x ∧ x.cls = .passphraseError) := by
  rcases confirm_total hP hs code with hbad | ⟨f, hash, ent, x, c1, c2, hcode, g1, g2, g3, g4⟩
  · obtain ⟨y, hy, _⟩ := hbad pass true
    rw [hy] at h; simp at h
  obtain ⟨hk, pp, q, pk, hpp, hden, hon, hpk, ha, hout⟩ := (C35_iff hP hs pass code true f hash ent x c1 c2 g1 g2 g3 g4 hcode _ rfl _).mp h
  have hd : d = confirmDict P v pk (ecType f) (lotSeq f ent) := by simpa [presentAddress] using hout
  subst hd
  refine ⟨pk, rfl, rfl, ?_, ?_⟩
  · intro hsame
    have hsame : addressHash P v' pk (pubType (ecType f)) = hash := hsame.trans ha
    exact (C35_iff hP hs' pass code true f hash ent x c1 c2 g1 g2 g3 g4 hcode _ rfl _).mpr
      ⟨hk, pp, q, pk, hpp, hden, hon, hpk, hsame, rfl⟩
  · intro hdiff detail
    have hdiff : addressHash P v' pk (pubType (ecType f)) ≠ hash := fun h => hdiff (h.trans ha.symm)
    rw [confirm_eq hP hs' pass code detail f hash ent x c1 c2 g1 g2 g3 g4 hcode _ rfl]
    obtain ⟨pf, hpf⟩ : ∃ pf, passFactor P (decide (hasLot f)) pass ent = pf := ⟨_, rfl⟩
    rw [hpf] at hk hpp hpk ⊢
    have hr1 : ¬ (be pf = 0 ∨ be pf ≥ n256k1) := by have := hk.2; omega
    obtain ⟨pp2, hpp2, _, hokp⟩ := priv_ok pf hk
    have := isPublicKeyOf_unique hpp hpp2
    subst this
    have hq := (fromBytes_iff _ _).mpr ⟨hden, hon⟩
    have hfp : PublicKey.fromPoint (q.point.mul (be pf)) = .ok pk := by
      obtain ⟨pk2, hpk2, hpv⟩ := exists_mul q hon (n := be pf) (by omega) (by rw [← n256k1_eq]; omega)
      have : pk = pk2 := point_injective (by
        refine Eq.trans hpk ?_
        rw [← mul_eq_times _ (valid_aff.mpr hon)]
        exact hpk2)
      subst this
      rw [hpk2]; exact fromPoint_point pk hpv
    simp only [hr1, if_false, hokp, PrivateKey.publicKey, rawCompressed_sec1, hq, hfp, hdiff]
    exact ⟨_, rfl, rfl⟩

/-- A case of C61: a key that is read on Bitcoin's main network, and on the test network since these hashes are constant (a case of the
second alternative is shown beside C41). -/
example : ∃ e d d', bitcoinObject.decrypt (toy 1 0xff) e [] none true = .ok (.detail d)
    ∧ bitcoinObject.decrypt (toy 1 0xff) e [] (some "testnet") true = .ok (.detail d') ∧ d'.privateKey = d.privateKey := by
  have hk : IsPrivateKey (List.replicate 32 1) := by decide +kernel
  have hP := toy_lawful 1 0xff
  obtain ⟨w, hw, _⟩ := C07_wif_roundtrip (toy 1 0xff) hP _ _ _ bitcoin_selects.net _ hk.1 "wif" (Or.inl rfl)
  obtain ⟨e, he⟩ := toy_encrypts _ hk (by decide) (by decide) w hw
  have hd := (C17_roundtrip_iff hP bitcoin_selects _ hk _ (Or.inl rfl) w [] e hw he).1.mpr (by decide +kernel)
  rcases C55_decrypt_detail (toy 1 0xff) bitcoinObject e [] none with ⟨d, h1, h2⟩ | ⟨x, h1, _⟩
  swap
  · exact absurd (hd.symm.trans h1) (by simp)
  obtain ⟨key, type, pk, hdes, _, h5, _⟩ := C61_decrypt_elsewhere hP bitcoin_selects bitcoin_selects_testnet _ _ d h2
  obtain ⟨d', h6, _, hdes', _⟩ := h5 rfl
  exact ⟨e, d, d', h2, h6, hdes'.private_key.trans hdes.private_key.symm⟩

/-! ## C62 -/

/-- C62: with a lot and a sequence number, only the first four bytes of the salt matter. -/
theorem C62_salt_prefix (pass : Str) (lot sequence : Int) (hl : lot ≠ 0) (hq : sequence ≠ 0) (s : Bytes) (hs : s.length = 8) (u u' : Bytes) :
    intermediateCode P pass (some lot) (some sequence) (.bytes s) u
      = intermediateCode P pass (some lot) (some sequence) (.bytes (s.take 4)) u' := by
  have hb : ∀ (t w : Bytes), t ≠ [] → bytesOrRandom (.bytes t) w = .ok t := by
    intro t w ht
    cases t with
    | nil => exact absurd rfl ht
    | cons a t => rfl
  have h4 : (s.take 4).length = 4 := by simp [hs]
  have hf : lotFactor P pass lot sequence (s.take 4) = lotFactor P pass lot sequence s := by
    unfold lotFactor; rw [List.take_take, Nat.min_self]
  have ht : truthyInt (some lot) = true ∧ truthyInt (some sequence) = true := by simp [truthyInt, hl, hq]
  unfold intermediateCode
  rw [py_bind (hb s u (by rintro rfl; simp at hs)), py_bind (hb (s.take 4) u' (by intro h; rw [h] at h4; simp at h4)),
    py_bind (not_raise (by simp [hs])), py_bind (not_raise (by simp [hs])), py_bind (not_raise (by simp)),
    py_bind (not_raise (by simp [h4])), py_bind (not_raise (by simp)), py_bind (not_raise (by simp))]
  simp only [ht, and_self, if_true, Option.getD_some, hf]

/-- C62: two calls of `intermediate_code` that return the same text used lot and sequence numbers both or neither; the numbers are
equal and so are the first 4 bytes of the salts, in the other case the whole salts; and the pass factors are equal. -/
theorem C62_determines (hP : P.Lawful) (pass pass' : Str) (lot sequence lot' sequence' : Option Int) (d d' : Data) (u u' salt salt' : Bytes)
    (hd : Supplies d u salt) (hd' : Supplies d' u' salt') (code : Str)
    (h : intermediateCode P pass lot sequence d u = .ok code) (h' : intermediateCode P pass' lot' sequence' d' u' = .ok code) :
    usesLot lot sequence = usesLot lot' sequence' ∧
    (usesLot lot sequence = true → lot = lot' ∧ sequence = sequence' ∧ salt.take 4 = salt'.take 4) ∧
    (usesLot lot sequence = false → salt = salt') ∧
    passFactor P (usesLot lot sequence) pass (ownerEntropy lot sequence salt)
      = passFactor P (usesLot lot' sequence') pass' (ownerEntropy lot' sequence' salt') := by
  obtain ⟨ha, hk⟩ := (C26_validation pass lot sequence d u salt hd).2.1.mp ⟨code, h⟩
  obtain ⟨ha', hk'⟩ := (C26_validation pass' lot' sequence' d' u' salt' hd').2.1.mp ⟨code, h'⟩
  obtain ⟨pp, hpp, hon, hok⟩ := priv_ok _ hk
  obtain ⟨pp', hpp', hon', hok'⟩ := priv_ok _ hk'
  have e1 := Except.ok.inj (h.symm.trans ((intermediate_eq pass lot sequence d u salt hd _ rfl).2.2 ha pp hk hpp))
  have e2 := Except.ok.inj (h'.symm.trans ((intermediate_eq pass' lot' sequence' d' u' salt' hd' _ rfl).2.2 ha' pp' hk' hpp'))
  have he := e1.symm.trans e2
  unfold checkText at he
  have he := C01_encode_injective _ bitcoinAlphabet_valid _ _ he
  obtain ⟨he, _⟩ := List.append_inj' he (by rw [checksum_length hP, checksum_length hP])
  unfold intermediateRecord at he
  obtain ⟨he, hpe⟩ := List.append_inj' he (by simp [sec1])
  obtain ⟨hm, hent⟩ := List.append_inj he (by cases usesLot lot sequence <;> cases usesLot lot' sequence' <;> rfl)
  have hu : usesLot lot sequence = usesLot lot' sequence' := by
    revert hm
    cases usesLot lot sequence <;> cases usesLot lot' sequence' <;> first | (intro; rfl) | (intro h; exact absurd h (by decide))
  refine ⟨hu, ?_, ?_, ?_⟩
  · intro hl
    obtain ⟨hsl, l, q, rfl, rfl, hlb, hqb⟩ := accepted_lot ha hl
    obtain ⟨hsl', l', q', rfl, rfl, hlb', hqb'⟩ := accepted_lot ha' (hu ▸ hl)
    unfold ownerEntropy lotEntropy at hent
    simp only [hl, ← hu, if_true, Option.getD_some, Int.toNat_natCast] at hent
    obtain ⟨h1, h2⟩ := List.append_inj' hent (by simp)
    have h3 := congrArg fromBE h2
    rw [fromBE_toBE _ _ (by omega), fromBE_toBE _ _ (by omega)] at h3
    have : l = l' ∧ q = q' := by omega
    exact ⟨by rw [this.1], by rw [this.2], h1⟩
  · intro hl
    unfold ownerEntropy at hent
    simpa [hl, ← hu] using hent
  · have hpp2 : pp = pp' := ((C54_serialisation_injective pp pp' hon hon' "compressed" "compressed").mp
      (by rw [raw_eq_sec1, raw_eq_sec1]; exact hpe)).1
    subst hpp2
    exact C16_injective _ _ _ _ hok hok' rfl

/-- Cases of C62: two salts with the same first four bytes, and one passphrase and salt without lot numbers. -/
example : intermediateCode (unit 1) [] (some 100001) (some 7) (.bytes [1, 2, 3, 4, 5, 6, 7, 8]) []
      = intermediateCode (unit 1) [] (some 100001) (some 7) (.bytes [1, 2, 3, 4, 9, 9, 9, 9]) []
    ∧ ∃ it, intermediateCode (unit 1) [] (some 100001) (some 7) (.bytes [1, 2, 3, 4, 5, 6, 7, 8]) [] = .ok it := by
  have h := fun s hs => C62_salt_prefix (P := unit 1) [] 100001 7 (by decide) (by decide) s hs [] []
  refine ⟨(h [1, 2, 3, 4, 5, 6, 7, 8] rfl).trans (h [1, 2, 3, 4, 9, 9, 9, 9] rfl).symm, ?_⟩
  obtain ⟨it, _, h1, _⟩ := unit_create [] (some 100001) (some 7) [1, 2, 3, 4, 5, 6, 7, 8] (List.replicate 24 9)
    (Or.inr ⟨Or.inr rfl, 100001, 7, rfl, rfl, by omega⟩) (by decide +kernel) (by decide) (by decide +kernel)
  exact ⟨it, h1⟩

/-! ## C63 -/

/-- C63: two encrypted keys created from one intermediate code, on whatever networks, whose confirmation codes are equal have the same
WIF type, the same double SHA-256 of the seed, the same public key and the same address hash: a confirmation code
confirms one key only. -/
theorem C63_confirmation_injective (hP : P.Lawful) (hs : Selects obj network c n v) (hs' : Selects obj' network' c' n' v') (it : Str)
    (type type' : String) (s s' : Data) (u u' : Bytes) (b b' : Bytes) (hb : Supplies s u b) (hb' : Supplies s' u' b') (r r' : Created)
    (h : obj.createNewEncryptedWif P it type s network u = .ok r)
    (h' : obj'.createNewEncryptedWif P it type' s' network' u' = .ok r')
    (he : r.confirmationCode = r'.confirmationCode) :
    type = type' ∧ dsha P b = dsha P b' ∧ r.publicKey = r'.publicKey ∧ r.publicKeyType = r'.publicKeyType
      ∧ checksum P (utf8 r.address) = checksum P (utf8 r'.address) := by
  obtain ⟨seedB, lot, ent, pp, q, pk, pb, hr, hm, hpb, _, rfl⟩ := C33_returns hP hs it type _ u r h
  obtain ⟨seedB', lot', ent', pp', q', pk', pb', hr', hm', hpb', _, rfl⟩ := C33_returns hP hs' it type' _ u' r' h'
  have h1 := Except.ok.inj (((supplies_iff _ _ _).mpr hr.seed).symm.trans ((supplies_iff _ _ _).mpr hb))
  have h2 := Except.ok.inj (((supplies_iff _ _ _).mpr hr'.seed).symm.trans ((supplies_iff _ _ _).mpr hb'))
  subst h1 h2
  obtain ⟨rfl, rfl, rfl⟩ := hr.code_unique hP hr'
  simp only [createdDict, checkText] at he
  have he := C01_encode_injective _ bitcoinAlphabet_valid _ _ he
  obtain ⟨he, _⟩ := List.append_inj' he (by rw [checksum_length hP, checksum_length hP])
  have hlen := addressHash_length hP v pk (pubType type)
  have hlen' := addressHash_length hP v' pk' (pubType type')
  obtain ⟨hash, hh⟩ : ∃ x, addressHash P v pk (pubType type) = x := ⟨_, rfl⟩
  obtain ⟨hash', hh'⟩ : ∃ x, addressHash P v' pk' (pubType type') = x := ⟨_, rfl⟩
  simp only [hh, hh'] at he hlen hlen'
  have hdl := ecDerive_length hP pp hash ent
  have hdl' := ecDerive_length hP pp hash' ent
  have hk1 : ∀ {d : Bytes}, d.length = 64 → (d.drop 32).length = 32 := fun h => by simp [h]
  unfold confirmRecord at he
  obtain ⟨he, e2⟩ := List.append_inj' he (by rw [hP.aesEncrypt_length _ _ (hk1 hdl) (mask_length _ _),
    hP.aesEncrypt_length _ _ (hk1 hdl') (mask_length _ _)])
  obtain ⟨he, e1⟩ := List.append_inj' he (by rw [hP.aesEncrypt_length _ _ (hk1 hdl) (mask_length _ _),
    hP.aesEncrypt_length _ _ (hk1 hdl') (mask_length _ _)])
  obtain ⟨he, e0⟩ := List.append_inj' he rfl
  obtain ⟨he, _⟩ := List.append_inj' he rfl
  obtain ⟨hf, hhash⟩ := List.append_inj' he (by rw [hlen, hlen'])
  subst hhash
  have hf' : ecFlag lot type = ecFlag lot type' := by simpa using hf
  have hty := (ecFlag_inj hr.type hr'.type hf').2
  subst hty
  obtain ⟨dk, hdk⟩ : ∃ x, ecDerive P pp hash ent = x := ⟨_, rfl⟩
  rw [hdk] at e0 e1 e2 hdl
  have t1 : (dk.take 16).length = 16 := by simp [hdl]
  have t2 : ((dk.take 32).drop 16).length = 16 := by simp [hdl]
  have hsl : ∀ k : PublicKey, (sec1 k "compressed").length = 33 := fun k => by simp [sec1]
  have m1 := mask_inj (by simp [hsl]) (by simp [hsl]) t1 (aes_inj hP (hk1 hdl) (mask_length _ _) (mask_length _ _) e1)
  have m2 := mask_inj (by simp [hsl]) (by simp [hsl]) t2 (aes_inj hP (hk1 hdl) (mask_length _ _) (mask_length _ _) e2)
  have m0 : (sec1 pb "compressed").headD 0 = (sec1 pb' "compressed").headD 0 := by
    have e0 := List.cons.inj e0 |>.1
    exact UInt8.xor_left_inj _ |>.mp e0
  have hsec : sec1 pb "compressed" = sec1 pb' "compressed" := by
    have split : ∀ k : PublicKey, sec1 k "compressed" = (sec1 k "compressed").headD 0 ::
        (((sec1 k "compressed").drop 1).take 16 ++ (sec1 k "compressed").drop 17) := by
      intro k
      have := hsl k
      obtain ⟨l, hl⟩ : ∃ l, sec1 k "compressed" = l := ⟨_, rfl⟩
      rw [hl] at this ⊢
      cases l with
      | nil => simp at this
      | cons a l => simp
    rw [split pb, split pb', m0, m1, m2]
  obtain ⟨x1, hx1, on1, ok1⟩ := priv_ok _ hr.factor
  obtain ⟨x2, hx2, on2, ok2⟩ := priv_ok _ hr'.factor
  have i1 := isPublicKeyOf_unique hpb hx1
  have i2 := isPublicKeyOf_unique hpb' hx2
  subst i1 i2
  have hpp2 : pb = pb' := ((C54_serialisation_injective pb pb' on1 on2 "compressed" "compressed").mp
    (by rw [raw_eq_sec1, raw_eq_sec1]; exact hsec)).1
  subst hpp2
  have hds := C16_injective _ _ _ _ ok1 ok2 rfl
  have hq : q = q' := Except.ok.inj (((fromBytes_iff _ _).mpr hr.point).symm.trans ((fromBytes_iff _ _).mpr hr'.point))
  subst hq
  have hpk : pk = pk' := point_injective (by
    refine Eq.trans hm ?_
    rw [hds]; exact hm'.symm)
  subst hpk
  exact ⟨rfl, hds, rfl, rfl, hh.trans hh'.symm⟩

/-- A case of C63: two different seeds (with these hashes their double hashes are equal) and one confirmation code. -/
example : ∃ it r r', bitcoinObject.createNewEncryptedWif (unit 1) it "wif" (.bytes (List.replicate 24 9)) none [] = .ok r
    ∧ bitcoinObject.createNewEncryptedWif (unit 1) it "wif" (.bytes (List.replicate 24 10)) none [] = .ok r'
    ∧ r.confirmationCode = r'.confirmationCode := by
  have hu : ∀ b : UInt8, Supplies (.bytes (List.replicate 24 b)) [] (List.replicate 24 b) := fun b => supplies rfl
  obtain ⟨it, r, h1, h2⟩ := unit_create [] none none (List.replicate 8 5) (List.replicate 24 9) noLot8 rfl (by decide) (by decide +kernel)
  obtain ⟨it', r', h1', h2'⟩ := unit_create [] none none (List.replicate 8 5) (List.replicate 24 10) noLot8 rfl (by decide) (by decide +kernel)
  have := Except.ok.inj (h1.symm.trans h1')
  subst this
  refine ⟨it, r, r', h2, h2', ?_⟩
  have hP := unit_lawful 1
  obtain ⟨seedB, lot, ent, pp, q, pk, pb, hr, hm, hpb, _, rfl⟩ := C33_returns hP bitcoin_selects it _ _ _ r h2
  obtain ⟨seedB', lot', ent', pp', q', pk', pb', hr', hm', hpb', _, rfl⟩ := C33_returns hP bitcoin_selects it _ _ _ r' h2'
  have e1 := Except.ok.inj (((supplies_iff _ _ _).mpr hr.seed).symm.trans ((supplies_iff _ _ _).mpr (hu 9)))
  have e2 := Except.ok.inj (((supplies_iff _ _ _).mpr hr'.seed).symm.trans ((supplies_iff _ _ _).mpr (hu 10)))
  subst e1 e2
  obtain ⟨rfl, rfl, rfl⟩ := hr.code_unique hP hr'
  have e3 := isPublicKeyOf_unique hpb (genKey_unit _ (by decide))
  have e4 := isPublicKeyOf_unique hpb' (genKey_unit _ (by decide))
  subst e3 e4
  have hq : q = q' := Except.ok.inj (((fromBytes_iff _ _).mpr hr.point).symm.trans ((fromBytes_iff _ _).mpr hr'.point))
  subst hq
  have hpk : pk = pk' := point_injective (by
    refine Eq.trans hm (Eq.trans ?_ hm'.symm)
    rw [unit_dsha _ (by decide), unit_dsha _ (by decide)])
  subst hpk
  rfl

end Bip38.Props
