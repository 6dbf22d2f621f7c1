import Verif.Props.Interop
import Verif.Props.Decrypt
import Verif.Lemmas.ReportBip38
/-!
# Properties C66 - C68: every outcome of `decrypt`, `confirm_code` and `create_new_encrypted_wif`

Exceptions are given with class and message.
-/
namespace Bip38.Props
open Bip38 Spec

variable {P : Prims} {obj : BIP38} {network : Option String} {c : Coin} {n : String} {v : Net}

theorem ne_priv {b : Bytes} (hl : b.length = 32) : ¬ IsPrivateKey b ↔ (be b = 0 ∨ be b ≥ n256k1) := by
  unfold IsPrivateKey
  constructor
  · intro h
    by_contra h'
    exact h ⟨hl, by omega, by omega⟩
  · rintro h ⟨_, h1, h2⟩
    omega

/-! ## C66 -/

/-- C66: `decrypt` of a text of any kind, before the passphrase is looked at. -/
theorem C66_malformed (hs : Selects obj network c n v) (e pass : Str) (detail : Bool) :
    ((∃ ch ∈ e, 128 ≤ ch.toNat) → ∃ x, obj.decrypt P e pass network detail = .error x ∧ x.cls = .unicodeEncodeError) ∧
    (∀ rec, b58decode e = .ok rec →
      (rec.length ≠ 43 → obj.decrypt P e pass network detail = .error ⟨.wifError, report "Invalid encrypted WIF length" "43" (toString rec.length)⟩) ∧
      (rec.length = 43 → rec.take 2 ≠ [0x01, 0x42] → rec.take 2 ≠ [0x01, 0x43] →
        obj.decrypt P e pass network detail = .error ⟨.error, report "Invalid prefix" "'0142', '0143'" (String.ofList (hex (rec.take 2)))⟩) ∧
      (rec.length = 43 → rec.take 2 = [0x01, 0x42] → rec.getD 2 0 ≠ 0xc0 → rec.getD 2 0 ≠ 0xe0 →
        obj.decrypt P e pass network detail = .error ⟨.error, report "Invalid flag" "'c0', 'e0'" (String.ofList (hex [rec.getD 2 0]))⟩)) := by
  have start : ∀ rec, b58decode e = .ok rec → rec.length = 43 → obj.decrypt P e pass network detail =
      if rec.take 2 = [0x01, 0x42] then obj.decryptNoEc P rec pass n detail
      else if rec.take 2 = [0x01, 0x43] then obj.decryptEc P rec pass n detail
      else .error ⟨.error, report "Invalid prefix" "'0142', '0143'" (String.ofList (hex (rec.take 2)))⟩ := by
    intro rec he hl
    have hp : "'" ++ String.ofList (hex [0x01, 0x42]) ++ "', '" ++ String.ofList (hex [0x01, 0x43]) ++ "'" = "'0142', '0143'" := by
      decide +kernel
    unfold BIP38.decrypt
    rw [hs.select]
    simp only
    rw [py_bind (not_raise (not_not.mpr hs.mem)), py_bind he, py_bind (not_raise (not_not.mpr hl)), py_bind c_noEc, py_bind c_ec, hexText_eq, hexText_eq,
      hexText_eq, errText_two, hp]
    rfl
  refine ⟨fun he => ?_, fun rec he => ⟨fun hl => ?_, fun hl h1 h2 => ?_, fun hl h1 h2 h3 => ?_⟩⟩
  · obtain ⟨x, hx, hc⟩ := C04_decode_nonascii bitcoinAlphabet e he
    refine ⟨x, ?_, hc⟩
    unfold BIP38.decrypt
    rw [hs.select]
    simp only
    rw [py_bind (not_raise (not_not.mpr hs.mem)), py_bind_err hx]
  · unfold BIP38.decrypt
    rw [hs.select]
    simp only
    rw [py_bind (not_raise (not_not.mpr hs.mem)), py_bind he, py_bind_err (do_raise hl), errText_one]
  · rw [start rec he hl, if_neg h1, if_neg h2]
  · rw [start rec he hl, if_pos h1]
    obtain ⟨p, r1, rfl, hp, hr1⟩ := split_at' rec 2 41 (by omega)
    obtain ⟨f, rest, rfl⟩ : ∃ f rest, r1 = f :: rest := by
      cases r1 with
      | nil => simp at hr1
      | cons a t => exact ⟨a, t, rfl⟩
    have hpe : p = [0x01, 0x42] := by rwa [List.take_left' hp] at h1
    subst hpe
    simp at h2 h3
    unfold BIP38.decryptNoEc
    simp only
    rw [py_bind c_flagU, py_bind c_flagC]
    have e1 : slice 2 3 ([0x01, 0x42] ++ f :: rest) = [f] := by simp [slice]
    simp only [e1]
    have n1 : ¬ ([f] = [0xc0]) := by simpa using h2
    have n2 : ¬ ([f] = [0xe0]) := by simpa using h3
    have hp : "'" ++ String.ofList (hex [0xc0]) ++ "', '" ++ String.ofList (hex [0xe0]) ++ "'" = "'c0', 'e0'" := by decide +kernel
    simp only [n1, n2, if_false]
    rw [hexText_eq, hexText_eq, hexText_eq, errText_two, hp]
    rfl

/-- C66: `decrypt` of a record without EC multiplication. The key found is the exclusive or of the decrypted blocks and the bytes derived
from the passphrase; it may be no private key, start with a zero byte, have another address, or be the right one. -/
theorem C66_noEc (hP : P.Lawful) (hs : Selects obj network c n v) (e pass : Str) (detail : Bool) (type : String)
    (hty : IsWifType type) (hash c1 c2 chk : Bytes) (hh : hash.length = 4) (h1 : c1.length = 16) (h2 : c2.length = 16)
    (hc : chk.length = 4) (he : b58decode e = .ok ([0x01, 0x42, if type = "wif" then 0xc0 else 0xe0] ++ (hash ++ c1 ++ c2 ++ chk)))
    (key : Bytes) (hkey : key = noEcKey P (stretch P pass hash 64) c1 c2) :
    (¬ IsPrivateKey key → obj.decrypt P e pass network detail
      = .error ⟨.error, "Invalid Non-EC encrypted WIF (Wallet Import Format)"⟩) ∧
    (IsPrivateKey key → key.getD 0 0 = 0 → obj.decrypt P e pass network detail = .error ⟨.secp256k1Error, "Invalid private key bytes"⟩) ∧
    (IsPrivateKey key → key.getD 0 0 ≠ 0 → ∀ pk, IsPublicKeyOf pk key →
      (addressHash P v pk (pubType type) ≠ hash →
        obj.decrypt P e pass network detail = .error ⟨.passphraseError, "Incorrect passphrase"⟩) ∧
      (addressHash P v pk (pubType type) = hash →
        obj.decrypt P e pass network detail = .ok (present detail (keyDetail P v key pk type none none)))) := by
  have hkl : key.length = 32 := by rw [hkey]; exact noEcKey_length hP _ _ _ (stretch_length hP _ _ _) h1 h2
  have hne : key ≠ [] := by intro h; rw [h] at hkl; simp at hkl
  have hg := head_getD key hne
  have hd := (decrypt_noEc hs e pass detail _ _ (by simp [hh, h1, h2, hc]) he).trans
    (decryptNoEc_eq hP hs pass detail type hty hash c1 c2 chk hh h1 h2 key hkey)
  rw [hd]
  refine ⟨fun h => if_pos ((ne_priv hkl).mp h), fun h h0 => ?_, fun h h0 pk hpk => ?_⟩
  · have n1 : ¬ (be key = 0 ∨ be key ≥ n256k1) := fun h' => (ne_priv hkl).mpr h' h
    have z : key.head? = some 0 := by by_contra h'; exact hg.mp h' h0
    simp only [n1, if_false, z, if_true]
  · have n1 : ¬ (be key = 0 ∨ be key ≥ n256k1) := fun h' => (ne_priv hkl).mpr h' h
    have z : ¬ key.head? = some 0 := hg.mpr h0
    obtain ⟨pk', hpk', _, hok⟩ := priv_ok key h
    have := isPublicKeyOf_unique hpk hpk'
    subst this
    simp only [n1, z, if_false, hok, PrivateKey.publicKey]
    exact ⟨fun h => if_neg h, fun h => if_pos h⟩

/-- C66: `decrypt` of a record with EC multiplication. The pass factor may be no private key, the seed may be unreadable or give no
factor, the product may start with a zero byte, have another address, or be the right one. -/
theorem C66_ec (hP : P.Lawful) (hs : Selects obj network c n v) (e pass : Str) (detail : Bool) (f : UInt8)
    (hash ent h11 e2 chk : Bytes) (hh : hash.length = 4) (hent : ent.length = 8) (h1 : h11.length = 8) (h2 : e2.length = 16)
    (hc : chk.length = 4) (he : b58decode e = .ok ([0x01, 0x43, f] ++ (hash ++ ent ++ h11 ++ e2 ++ chk)))
    (pf : Bytes) (hpf : pf = passFactor P (decide (hasLot f)) pass ent) :
    (¬ IsPrivateKey pf → obj.decrypt P e pass network detail = .error ⟨.error, "Invalid EC encrypted WIF (Wallet Import Format)"⟩) ∧
    (IsPrivateKey pf → ∀ pp dk seed, IsPublicKeyOf pp pf → dk = ecDerive P (sec1 pp "compressed") hash ent → seed = ecSeed P dk h11 e2 →
      ((ecTail P dk e2).length < 8 →
        obj.decrypt P e pass network detail = .error ⟨.valueError, "ciphertext block must be 16 bytes"⟩) ∧
      (8 ≤ (ecTail P dk e2).length →
        (¬ IsPrivateKey (dsha P seed) →
          obj.decrypt P e pass network detail = .error ⟨.error, "Invalid EC encrypted WIF (Wallet Import Format)"⟩) ∧
        (IsPrivateKey (dsha P seed) → ∀ key pk, key.length = 32 → be key = be pf * be (dsha P seed) % n256k1 → IsPublicKeyOf pk key →
          (key.getD 0 0 = 0 → obj.decrypt P e pass network detail = .error ⟨.secp256k1Error, "Invalid private key bytes"⟩) ∧
          (key.getD 0 0 ≠ 0 → addressHash P v pk (pubType (ecType f)) ≠ hash →
            obj.decrypt P e pass network detail = .error ⟨.passphraseError, "Incorrect passphrase"⟩) ∧
          (key.getD 0 0 ≠ 0 → addressHash P v pk (pubType (ecType f)) = hash →
            obj.decrypt P e pass network detail
              = .ok (present detail (keyDetail P v key pk (ecType f) (some seed) (lotSeq f ent))))))) := by
  have hpl : pf.length = 32 := by rw [hpf]; exact passFactor_length hP _ _ _
  have hd := (decrypt_ec hs e pass detail _ _ (by simp [hh, hent, h1, h2, hc]) he).trans
    (decryptEc_eq hP hs pass detail f hash ent h11 e2 chk hh hent h1 h2 hc pf hpf)
  rw [hd]
  refine ⟨fun h => if_pos ((ne_priv hpl).mp h), fun h pp dk seed hpp hdk hseed => ?_⟩
  have n1 : ¬ (be pf = 0 ∨ be pf ≥ n256k1) := fun h' => (ne_priv hpl).mpr h' h
  obtain ⟨pp', hpp', _, hok⟩ := priv_ok pf h
  have := isPublicKeyOf_unique hpp hpp'
  subst this
  simp only [n1, if_false, hok, PrivateKey.publicKey, rawCompressed_sec1, ← hdk, ← hseed]
  refine ⟨fun ht => if_pos ht, fun ht => ?_⟩
  have n2 : ¬ (ecTail P dk e2).length < 8 := by omega
  have hsl : (dsha P seed).length = 32 := hP.sha256_length _
  simp only [n2, if_false]
  refine ⟨fun hf => if_pos ((ne_priv hsl).mp hf), fun hf key pk hkl hkv hpk => ?_⟩
  have n3 : ¬ (be (dsha P seed) = 0 ∨ be (dsha P seed) ≥ n256k1) := fun h' => (ne_priv hsl).mpr h' hf
  have hkeq : toBE 32 (ecNum P pf seed) = key := by
    unfold ecNum; rw [← hkv, be_eq, toBE_fromBE' key hkl]
  have hne : key ≠ [] := by intro h; rw [h] at hkl; simp at hkl
  have hg := head_getD key hne
  have hkey : IsPrivateKey key := by
    have := mul_mod_ne h.2.1 h.2.2 hf.2.1 hf.2.2
    have hlt := ecNum_lt (P := P) pf seed
    unfold ecNum at hlt
    exact ⟨hkl, by omega, by omega⟩
  obtain ⟨pk', hpk', _, hok2⟩ := priv_ok key hkey
  have := isPublicKeyOf_unique hpk hpk'
  subst this
  simp only [n3, if_false, hkeq, hok2]
  refine ⟨fun h0 => if_pos (by by_contra h'; exact hg.mp h' h0), fun h0 ha => ?_, fun h0 ha => ?_⟩
  · have z : ¬ key.head? = some 0 := hg.mpr h0
    simp only [z, if_false]
    exact if_neg ha
  · have z : ¬ key.head? = some 0 := hg.mpr h0
    simp only [z, if_false]
    exact if_pos ha

/-! ## C67 -/

/-- C67: `confirm_code` of a text of any kind, before the passphrase is looked at. -/
theorem C67_malformed (hP : P.Lawful) (hs : Selects obj network c n v) (pass code : Str) (detail : Bool) :
    ((¬ ∃ raw, b58decode code = .ok (raw ++ checksum P raw)) →
      obj.confirmCode P pass code network detail = .error ⟨.error, "Invalid confirmation code"⟩) ∧
    (∀ raw, b58decode code = .ok (raw ++ checksum P raw) →
      (raw.length ≠ 51 → obj.confirmCode P pass code network detail = .error ⟨.error, report "Invalid confirmation code length" "102" (toString raw.length)⟩) ∧
      (raw.length = 51 → raw.take 5 ≠ [0x64, 0x3b, 0xf6, 0xa8, 0x9a] →
        obj.confirmCode P pass code network detail = .error ⟨.error, report "Invalid confirmation code prefix" "5" (String.ofList (bytesRepr (raw.take 5)))⟩)) := by
  refine ⟨fun h => ?_, fun raw h => ⟨fun hl => ?_, fun hl hp => ?_⟩⟩
  · cases hd : checkDecode P.sha256 code with
    | ok raw => exact absurd ⟨raw, (checkDecode_iff hP _ _ _).mp hd⟩ h
    | error x =>
      have hx := C03_check_decode_error P.sha256 _ bitcoinAlphabet_valid _ _ hd
      unfold BIP38.confirmCode
      rw [hs.select]
      simp only
      rw [py_bind (not_raise (not_not.mpr hs.mem)), py_bind_err (checkDecodeOr_error _ _ _ _ hd hx)]
  · have hd := (checkDecode_iff hP _ _ _).mpr h
    unfold BIP38.confirmCode
    rw [hs.select]
    simp only
    rw [py_bind (not_raise (not_not.mpr hs.mem)), py_bind (checkDecodeOr_ok _ _ _ _ hd), py_bind_err (do_raise hl),
      errText_one]
  · have hd := (checkDecode_iff hP _ _ _).mpr h
    unfold BIP38.confirmCode
    rw [hs.select]
    simp only
    rw [py_bind (not_raise (not_not.mpr hs.mem)), py_bind (checkDecodeOr_ok _ _ _ _ hd), py_bind (not_raise (not_not.mpr hl)),
      py_bind c_conf, py_bind_err (do_raise (by exact fun h => hp h.symm)), errText_one]
    rfl

/-- C67: `confirm_code` of a code of the right shape. -/
theorem C67_confirm (hP : P.Lawful) (hs : Selects obj network c n v) (pass code : Str) (detail : Bool) (f : UInt8)
    (hash ent : Bytes) (x : UInt8) (c1 c2 : Bytes) (hh : hash.length = 4) (hent : ent.length = 8) (h1 : c1.length = 16)
    (h2 : c2.length = 16)
    (hcode : checkDecode P.sha256 code = .ok ([0x64, 0x3b, 0xf6, 0xa8, 0x9a, f] ++ (hash ++ ent ++ [x] ++ c1 ++ c2)))
    (pf : Bytes) (hpf : pf = passFactor P (decide (hasLot f)) pass ent) :
    (¬ IsPrivateKey pf → obj.confirmCode P pass code network detail
      = .error ⟨.error, "Invalid EC encrypted WIF (Wallet Import Format)"⟩) ∧
    (IsPrivateKey pf → ∀ pp pt, IsPublicKeyOf pp pf → pt = confirmPoint P (ecDerive P (sec1 pp "compressed") hash ent) x c1 c2 →
      ((∀ qx qy, OnSecp256k1 qx qy → ¬ Denotes pt qx qy) →
        obj.confirmCode P pass code network detail = .error ⟨.passphraseError, "Incorrect passphrase"⟩) ∧
      (∀ q pk : PublicKey, OnSecp256k1 q.x q.y → Denotes pt q.x q.y → .aff pk.x pk.y = times (be pf) (.aff q.x q.y) →
        (addressHash P v pk (pubType (ecType f)) ≠ hash →
          obj.confirmCode P pass code network detail = .error ⟨.passphraseError, "Incorrect passphrase"⟩) ∧
        (addressHash P v pk (pubType (ecType f)) = hash →
          obj.confirmCode P pass code network detail
            = .ok (presentAddress detail (confirmDict P v pk (ecType f) (lotSeq f ent)))))) := by
  have hpl : pf.length = 32 := by rw [hpf]; exact passFactor_length hP _ _ _
  rw [confirm_eq hP hs pass code detail f hash ent x c1 c2 hh hent h1 h2 hcode pf hpf]
  refine ⟨fun h => if_pos ((ne_priv hpl).mp h), fun h pp pt hpp hpt => ?_⟩
  have n1 : ¬ (be pf = 0 ∨ be pf ≥ n256k1) := fun h' => (ne_priv hpl).mpr h' h
  obtain ⟨pp', hpp', _, hok⟩ := priv_ok pf h
  have := isPublicKeyOf_unique hpp hpp'
  subst this
  simp only [n1, if_false, hok, PrivateKey.publicKey, rawCompressed_sec1, ← hpt]
  refine ⟨fun hno => ?_, fun q pk hon hden hmul => ?_⟩
  · obtain ⟨msg, hm⟩ := C15_public_key_error pt hno
    rw [hm]
  · rw [(fromBytes_iff pt q).mpr ⟨hden, hon⟩]
    obtain ⟨r, hr, hron⟩ := exists_mul q hon h.2.1 (by rw [← n256k1_eq]; exact h.2.2)
    have hrp : r = pk := by
      have : r.point = .aff pk.x pk.y := by rw [← hr, hmul, ← mul_eq_times _ (valid_aff.mpr hon)]; rfl
      unfold PublicKey.point at this
      simp only [Pt.aff.injEq] at this
      cases r; cases pk
      simp only at this
      simp [this.1, this.2]
    subst hrp
    simp only [hr, fromPoint_point r hron]
    exact ⟨fun h => if_neg h, fun h => if_pos h⟩

/-! ## C68 -/

theorem maskable_bytes (a b : Bytes) (ha : a.length = 16) (hb : b.length = 16) : Maskable a b ↔ a.getD 0 0 ≠ b.getD 0 0 := by
  rw [maskable_iff a b ha hb, ne_eq, head_bxor]
  cases a with
  | nil => simp at ha
  | cons c t => cases b with
    | nil => simp at hb
    | cons d u => simp

theorem getD_take (l : Bytes) (i k : Nat) (h : i < k) : (l.take k).getD i 0 = l.getD i 0 := by
  rw [List.getD_eq_getElem?_getD, List.getD_eq_getElem?_getD, List.getElem?_take_of_lt h]

theorem getD_drop (l : Bytes) (i k : Nat) : (l.drop k).getD i 0 = l.getD (k + i) 0 := by
  rw [List.getD_eq_getElem?_getD, List.getD_eq_getElem?_getD, List.getElem?_drop]

/-- C68: `create_new_encrypted_wif` with usable arguments and a 24-byte seed. Four bytes decide: byte 0 of the seed, byte 8 of the first
encrypted block and the bytes 0 and 16 of the x coordinate of the seed point must differ from the bytes 0, 16, 0, 16 derived from the
pass point. Then the records of the standard are returned; otherwise `ValueError` is raised. -/
theorem C68_create (hP : P.Lawful) (hs : Selects obj network c n v) (it : Str) (type : String) (seed : Data) (u seedB : Bytes)
    (lot : Bool) (ent pp : Bytes) (q pk pb : PublicKey) (hr : Ready P it type seed u seedB lot ent pp q) (hl : seedB.length = 24)
    (hpk : .aff pk.x pk.y = times (be (dsha P seedB)) (.aff q.x q.y)) (hpb : IsPublicKeyOf pb (dsha P seedB)) (dk : Bytes)
    (hdk : dk = ecDerive P pp (addressHash P v pk (pubType type)) ent) :
    (seedB.getD 0 0 ≠ dk.getD 0 0 ∧ (standardBlock1 P dk seedB).getD 8 0 ≠ dk.getD 16 0
        ∧ (toBE 32 pb.x).getD 0 0 ≠ dk.getD 0 0 ∧ (toBE 32 pb.x).getD 16 0 ≠ dk.getD 16 0 →
      obj.createNewEncryptedWif P it type seed network u = .ok
        { encryptedWif := checkText P (standardEcRecord P (ecFlag lot type) (addressHash P v pk (pubType type)) ent dk seedB)
          confirmationCode := checkText P (standardConfirmRecord P (ecFlag lot type) (addressHash P v pk (pubType type)) ent dk pb)
          publicKey := hex (sec1 pk (pubType type))
          seed := hex seedB
          publicKeyType := pubType type
          address := addressText P v pk (pubType type) }) ∧
    (seedB.getD 0 0 = dk.getD 0 0 ∨ (standardBlock1 P dk seedB).getD 8 0 = dk.getD 16 0
        ∨ (toBE 32 pb.x).getD 0 0 = dk.getD 0 0 ∨ (toBE 32 pb.x).getD 16 0 = dk.getD 16 0 →
      obj.createNewEncryptedWif P it type seed network u = .error ⟨.valueError, "plaintext block must be 16 bytes"⟩) := by
  have hdl : dk.length = 64 := by rw [hdk]; exact ecDerive_length hP _ _ _
  obtain ⟨pk', pb', hpk', hpb', hcreate⟩ := create_ready hP hs hr
  have := isPublicKeyOf_unique hpb hpb'
  subst this
  have hpke : pk = pk' := by
    have : Pt.aff pk.x pk.y = .aff pk'.x pk'.y := hpk.trans hpk'.symm
    simp only [Pt.aff.injEq] at this
    cases pk; cases pk'
    simp only at this
    simp [this.1, this.2]
  subst hpke
  have l1 := ecBlock1_length hP hdl (seed := seedB)
  have hsec : sec1 pb "compressed" = (if pb.y % 2 = 0 then 2 else 3) :: toBE 32 pb.x := by simp [sec1]
  have hb : Blocks P dk seedB (sec1 pb "compressed") ↔ seedB.getD 0 0 ≠ dk.getD 0 0 ∧ (standardBlock1 P dk seedB).getD 8 0 ≠ dk.getD 16 0
        ∧ (toBE 32 pb.x).getD 0 0 ≠ dk.getD 0 0 ∧ (toBE 32 pb.x).getD 16 0 ≠ dk.getD 16 0 := by
    unfold Blocks
    rw [hsec]
    simp only [List.drop_succ_cons, List.drop_zero]
    rw [maskable_bytes _ _ (by simp [hl]) (by simp [hdl]), maskable_bytes _ _ (by simp [hl, l1]) (by simp [hdl]),
      maskable_bytes _ _ (by simp) (by simp [hdl]), maskable_bytes _ _ (by simp) (by simp [hdl])]
    have e1 : ((ecBlock1 P dk seedB).drop 8 ++ seedB.drop 16).getD 0 0 = (standardBlock1 P dk seedB).getD 8 0 := by
      rw [← standard_block1 dk seedB hdl hl, List.getD_eq_getElem?_getD, List.getD_eq_getElem?_getD,
        List.getElem?_append_left (by simp [l1]), List.getElem?_drop]
    rw [e1]
    simp only [getD_drop, getD_take _ 0 16 (by omega), getD_take _ (16 + 0) 32 (by omega)]
  refine ⟨fun h => ?_, fun h => ?_⟩
  · rw [hcreate dk hdk, if_pos (hb.mpr h)]
    unfold createdDict
    rw [standard_ecRecord hP _ _ _ _ _ hdl hl, standard_confirmRecord _ _ _ _ _ hdl]
  · rw [hcreate dk hdk, if_neg (fun h' => ?_)]
    obtain ⟨q1, q2, q3, q4⟩ := hb.mp h'
    rcases h with h | h | h | h
    · exact q1 h
    · exact q2 h
    · exact q3 h
    · exact q4 h

/-- C68: the refusals before that point, with their messages. -/
theorem C68_refused (hP : P.Lawful) (hs : Selects obj network c n v) (it : Str) (type : String) (seed : Data) (u seedB : Bytes)
    (hseed : Supplies seed u seedB) :
    ((¬ ∃ raw, b58decode it = .ok (raw ++ checksum P raw)) →
      obj.createNewEncryptedWif P it type seed network u = .error ⟨.passphraseError, "Invalid intermediate passphrase"⟩) ∧
    (∀ raw, b58decode it = .ok (raw ++ checksum P raw) →
      (raw.length ≠ 49 →
        obj.createNewEncryptedWif P it type seed network u = .error ⟨.passphraseError, report "Invalid intermediate passphrase length" "49" (toString raw.length)⟩) ∧
      (raw.length = 49 → ¬ IsWifType type →
        obj.createNewEncryptedWif P it type seed network u = .error ⟨.wifError, report "Invalid wif type" "'wif', 'wif-compressed'" type⟩) ∧
      (raw.length = 49 → IsWifType type → (∀ lot, raw.take 8 ≠ magicBytes lot) →
        obj.createNewEncryptedWif P it type seed network u = .error ⟨.error, report "Invalid magic" "'2ce9b3e1ff39e251', '2ce9b3e1ff39e253'" (String.ofList (hex (raw.take 8)))⟩)) := by
  have hb := (supplies_iff _ _ _).mpr hseed
  refine ⟨fun h => ?_, fun raw h => ?_⟩
  · cases hd : checkDecode P.sha256 it with
    | ok raw => exact absurd ⟨raw, (checkDecode_iff hP _ _ _).mp hd⟩ h
    | error x =>
      have hx := C03_check_decode_error P.sha256 _ bitcoinAlphabet_valid _ _ hd
      unfold BIP38.createNewEncryptedWif
      rw [hs.select]
      simp only
      rw [py_bind (not_raise (not_not.mpr hs.mem)), py_bind hb, py_bind_err (checkDecodeOr_error _ _ _ _ hd hx)]
  have hd := (checkDecode_iff hP _ _ _).mpr h
  refine ⟨fun hl => ?_, fun hl ht => ?_, fun hl ht hm => ?_⟩
  · unfold BIP38.createNewEncryptedWif
    rw [hs.select]
    simp only
    rw [py_bind (not_raise (not_not.mpr hs.mem)), py_bind hb, py_bind (checkDecodeOr_ok _ _ _ _ hd), py_bind_err (do_raise hl),
      errText_one]
  · unfold BIP38.createNewEncryptedWif
    rw [hs.select]
    simp only
    rw [py_bind (not_raise (not_not.mpr hs.mem)), py_bind hb, py_bind (checkDecodeOr_ok _ _ _ _ hd), py_bind (not_raise (not_not.mpr hl)),
      py_bind_err (publicKeyTypeOf_error type ht)]
  · unfold BIP38.createNewEncryptedWif
    rw [hs.select]
    simp only
    rw [py_bind (not_raise (not_not.mpr hs.mem)), py_bind hb, py_bind (checkDecodeOr_ok _ _ _ _ hd), py_bind (not_raise (not_not.mpr hl)),
      py_bind (publicKeyTypeOf_eq ht), py_bind_err (newFlag_error _ _ hm)]

/-- C68: a seed whose double hash is no private key, and a pass point that is no point of the curve. -/
theorem C68_refused_point (hP : P.Lawful) (hs : Selects obj network c n v) (it : Str) (type : String) (seed : Data) (u seedB : Bytes)
    (lot : Bool) (ent pp : Bytes) (hent : ent.length = 8) (hpp : pp.length = 33)
    (hseed : Supplies seed u seedB)
    (h : b58decode it = .ok (magicBytes lot ++ ent ++ pp ++ checksum P (magicBytes lot ++ ent ++ pp))) (ht : IsWifType type) :
    (¬ IsPrivateKey (dsha P seedB) → obj.createNewEncryptedWif P it type seed network u
      = .error ⟨.error, "Invalid EC encrypted WIF (Wallet Import Format)"⟩) ∧
    (IsPrivateKey (dsha P seedB) → (∀ x y, OnSecp256k1 x y → ¬ Denotes pp x y) →
      obj.createNewEncryptedWif P it type seed network u = .error ⟨.secp256k1Error, "Invalid public key bytes"⟩) := by
  have hml : (magicBytes lot).length = 8 := by cases lot <;> rfl
  have hlen : (magicBytes lot ++ ent ++ pp).length = 49 := by simp [hml, hent, hpp]
  have s1 : (magicBytes lot ++ ent ++ pp).take 8 = magicBytes lot := by
    rw [List.append_assoc, List.take_left' hml]
  have s3 : (magicBytes lot ++ ent ++ pp).drop 16 = pp := List.drop_left' (by simp [hml, hent])
  have hdec := (checkDecode_iff hP bitcoinAlphabet it _).mpr h
  constructor
  · intro hk
    have hbad : ¬ (0 < be (dsha P seedB) ∧ be (dsha P seedB) < N) := by
      intro hb; rw [← n256k1_eq] at hb; exact hk ⟨dsha_length hP _, hb.1, hb.2⟩
    unfold BIP38.createNewEncryptedWif
    rw [hs.select]
    simp only
    rw [py_bind (not_raise (not_not.mpr hs.mem)), py_bind hseed.ok, py_bind (checkDecodeOr_ok _ _ _ _ hdec),
      py_bind (not_raise (not_not.mpr hlen)), s1, py_bind (publicKeyTypeOf_eq ht), py_bind (newFlag_eq lot ht),
      py_bind (doubleSha256_bytes _), b2i_be, py_bind_err (do_raise hbad)]
  · intro hk hno
    have hq : PublicKey.fromBytes pp = .error ⟨.secp256k1Error, "Invalid public key bytes"⟩ := by
      cases hb : PublicKey.fromBytes pp with
      | ok k =>
        obtain ⟨h1, h2⟩ := (fromBytes_iff pp k).mp hb
        exact absurd h1 (hno _ _ h2)
      | error x =>
        unfold PublicKey.fromBytes raise at hb
        split at hb
        · split at hb
          · simp at hb
          · exact hb.symm
        · exact hb.symm
    have hgood : ¬ ¬ (0 < be (dsha P seedB) ∧ be (dsha P seedB) < N) := by
      rw [← n256k1_eq]; exact not_not.mpr ⟨hk.2.1, hk.2.2⟩
    unfold BIP38.createNewEncryptedWif
    rw [hs.select]
    simp only
    rw [py_bind (not_raise (not_not.mpr hs.mem)), py_bind hseed.ok, py_bind (checkDecodeOr_ok _ _ _ _ hdec),
      py_bind (not_raise (not_not.mpr hlen)), s1, s3, py_bind (publicKeyTypeOf_eq ht), py_bind (newFlag_eq lot ht),
      py_bind (doubleSha256_bytes _), b2i_be, py_bind (not_raise hgood), py_bind_err hq]

/-! ## Cases -/

/-- The record types of C66 for the toy primitives, in which scrypt gives zeros, AES is the identity and hashes are made of the byte 1. -/
def toyNoEc (hash key : Bytes) : Str := b58encode ([0x01, 0x42, 0xc0] ++ (hash ++ key.take 16 ++ key.drop 16 ++ [0, 0, 0, 0]))

/-- Cases of C66_noEc: the number 0, the number 1, a wrong address hash, a right one. -/
example : bitcoinObject.decrypt (toy 1 0) (toyNoEc [1, 1, 1, 1] (List.replicate 32 0)) []
      = .error ⟨.error, "Invalid Non-EC encrypted WIF (Wallet Import Format)"⟩
    ∧ bitcoinObject.decrypt (toy 1 0) (toyNoEc [1, 1, 1, 1] (toBE 32 1)) [] = .error ⟨.secp256k1Error, "Invalid private key bytes"⟩
    ∧ bitcoinObject.decrypt (toy 1 0) (toyNoEc [1, 1, 1, 2] (List.replicate 32 5)) [] = .error ⟨.passphraseError, "Incorrect passphrase"⟩
    ∧ ∃ o, bitcoinObject.decrypt (toy 1 0) (toyNoEc [1, 1, 1, 1] (List.replicate 32 5)) [] = .ok o := by
  have k5 : IsPrivateKey (List.replicate 32 5) := by decide +kernel
  obtain ⟨pk, hpk, _, _⟩ := priv_ok _ k5
  have h := fun hash key (hh : hash.length = 4) (hk : key.length = 32) (hx : key = noEcKey (toy 1 0) (stretch (toy 1 0) [] hash 64) (key.take 16) (key.drop 16)) =>
    C66_noEc (toy_lawful 1 0) bitcoin_selects (toyNoEc hash key) [] false "wif" (Or.inl rfl) hash (key.take 16) (key.drop 16) [0, 0, 0, 0]
      hh (by simp [hk]) (by simp [hk]) rfl (C01_decode_encode_bitcoin _) key hx
  refine ⟨(h _ _ rfl (by decide) (by decide +kernel)).1 (by decide +kernel), (h _ _ rfl (by decide) (by decide +kernel)).2.1 (by decide +kernel) (by decide +kernel),
    ((h _ _ rfl (by decide) (by decide +kernel)).2.2 k5 (by decide) pk hpk).1 ?_, _, ((h _ _ rfl (by decide) (by decide +kernel)).2.2 k5 (by decide) pk hpk).2 ?_⟩
  · exact (by decide : ([1, 1, 1, 1] : Bytes) ≠ [1, 1, 1, 2])
  · exact rfl

/-- Cases of C66_malformed. -/
example : bitcoinObject.decrypt (toy 1 0) (b58encode (List.replicate 42 1)) []
      = .error ⟨.wifError, "Invalid encrypted WIF length, (expected: 43 | got: '42')"⟩
    ∧ bitcoinObject.decrypt (toy 1 0) (b58encode (List.replicate 43 1)) []
      = .error ⟨.error, "Invalid prefix, (expected: '0142', '0143' | got: '0101')"⟩
    ∧ bitcoinObject.decrypt (toy 1 0) (b58encode ([0x01, 0x42, 0xc1] ++ List.replicate 40 1)) []
      = .error ⟨.error, "Invalid flag, (expected: 'c0', 'e0' | got: 'c1')"⟩ :=
  have h := fun b => (C66_malformed (P := toy 1 0) bitcoin_selects (b58encode b) [] false).2 b (C01_decode_encode_bitcoin b)
  ⟨(h (List.replicate 42 1)).1 (by decide), (h (List.replicate 43 1)).2.1 (by decide) (by decide) (by decide),
    (h ([0x01, 0x42, 0xc1] ++ List.replicate 40 1)).2.2 (by decide) (by decide) (by decide) (by decide)⟩

def toyEc (hash h11 e2 : Bytes) : Str := b58encode ([0x01, 0x43, 0x00] ++ (hash ++ List.replicate 8 5 ++ h11 ++ e2 ++ [0, 0, 0, 0]))

/-- Cases of C66_ec: a pass factor 0; an unreadable second block; a seed with double hash 0; a wrong address hash; a right one. -/
example : bitcoinObject.decrypt (toy 1 0) (toyEc [1, 1, 1, 1] (List.replicate 8 0) (List.replicate 16 0)) []
      = .error ⟨.error, "Invalid EC encrypted WIF (Wallet Import Format)"⟩
    ∧ bitcoinObject.decrypt (toy 1 1) (toyEc [1, 1, 1, 1] (List.replicate 8 0) (List.replicate 16 1)) []
      = .error ⟨.valueError, "ciphertext block must be 16 bytes"⟩
    ∧ bitcoinObject.decrypt (toy 0 1) (toyEc [1, 1, 1, 1] (List.replicate 8 0) (List.replicate 16 0)) []
      = .error ⟨.error, "Invalid EC encrypted WIF (Wallet Import Format)"⟩
    ∧ bitcoinObject.decrypt (toy 1 1) (toyEc [1, 1, 1, 2] (List.replicate 8 0) (List.replicate 16 0)) []
      = .error ⟨.passphraseError, "Incorrect passphrase"⟩
    ∧ ∃ o, bitcoinObject.decrypt (toy 1 1) (toyEc [1, 1, 1, 1] (List.replicate 8 0) (List.replicate 16 0)) [] = .ok o := by
  have k1 : IsPrivateKey (List.replicate 32 1) := by decide +kernel
  have kk : IsPrivateKey (toBE 32 (be (List.replicate 32 1) * be (List.replicate 32 1) % n256k1)) := by decide +kernel
  obtain ⟨pp, hpp, _, _⟩ := priv_ok _ k1
  obtain ⟨pk, hpk, _, _⟩ := priv_ok _ kk
  have h := fun x y hash h11 e2 (hh : hash.length = 4) (h1 : h11.length = 8) (h2 : e2.length = 16) =>
    C66_ec (toy_lawful x y) bitcoin_selects (toyEc hash h11 e2) [] false 0 hash (List.replicate 8 5) h11 e2 [0, 0, 0, 0]
      hh rfl h1 h2 rfl (C01_decode_encode_bitcoin _) (List.replicate 32 y) rfl
  refine ⟨(h 1 0 _ _ _ rfl (by decide) (by decide)).1 (by decide +kernel),
    ((h 1 1 _ _ _ rfl (by decide) (by decide)).2 k1 pp _ _ hpp rfl rfl).1 ?_,
    (((h 0 1 _ _ _ rfl (by decide) (by decide)).2 k1 pp _ _ hpp rfl rfl).2 ?_).1 ?_,
    ((((h 1 1 _ _ _ rfl (by decide) (by decide)).2 k1 pp _ _ hpp rfl rfl).2 ?_).2 k1 _ pk (by decide +kernel) ?_ hpk).2.1 ?_ ?_,
    _, ((((h 1 1 _ _ _ rfl (by decide) (by decide)).2 k1 pp _ _ hpp rfl rfl).2 ?_).2 k1 _ pk (by decide +kernel) ?_ hpk).2.2 ?_ ?_⟩
  · exact (by decide : (ecTail (toy 1 1) (List.replicate 64 1) (List.replicate 16 1)).length < 8)
  · exact (by decide : 8 ≤ (ecTail (toy 0 1) (List.replicate 64 1) (List.replicate 16 0)).length)
  · exact (by decide +kernel : ¬ IsPrivateKey (List.replicate 32 0))
  · exact (by decide : 8 ≤ (ecTail (toy 1 1) (List.replicate 64 1) (List.replicate 16 0)).length)
  · exact (by decide +kernel : be (toBE 32 (be (List.replicate 32 1) * be (List.replicate 32 1) % n256k1))
      = be (List.replicate 32 1) * be (List.replicate 32 1) % n256k1)
  · decide +kernel
  · exact (by decide : ([1, 1, 1, 1] : Bytes) ≠ [1, 1, 1, 2])
  · exact (by decide : 8 ≤ (ecTail (toy 1 1) (List.replicate 64 1) (List.replicate 16 0)).length)
  · exact (by decide +kernel : be (toBE 32 (be (List.replicate 32 1) * be (List.replicate 32 1) % n256k1))
      = be (List.replicate 32 1) * be (List.replicate 32 1) % n256k1)
  · decide +kernel
  · exact (rfl : ([1, 1, 1, 1] : Bytes) = [1, 1, 1, 1])

/-- Cases of C67: a wrong checksum; a payload of 50 bytes; an unknown prefix; a point with x coordinate 5 (there is none); a wrong address
hash; a right one. -/
example : bitcoinObject.confirmCode (toy 1 1) [] (b58encode (List.replicate 55 2)) = .error ⟨.error, "Invalid confirmation code"⟩
    ∧ bitcoinObject.confirmCode (toy 1 1) [] (b58encode (List.replicate 50 2 ++ [1, 1, 1, 1])) = .error ⟨.error, "Invalid confirmation code length, (expected: 102 | got: '50')"⟩
    ∧ bitcoinObject.confirmCode (toy 1 1) [] (b58encode (List.replicate 51 2 ++ [1, 1, 1, 1])) = .error ⟨.error, "Invalid confirmation code prefix, (expected: 5 | got: 'b'\\x02\\x02\\x02\\x02\\x02'')"⟩
    ∧ bitcoinObject.confirmCode (toy 1 1) [] (b58encode ([0x64, 0x3b, 0xf6, 0xa8, 0x9a, 0x00] ++ ([1, 1, 1, 1] ++ List.replicate 8 5 ++ [3]
        ++ List.replicate 16 1 ++ List.replicate 16 1) ++ [1, 1, 1, 1])) = .error ⟨.passphraseError, "Incorrect passphrase"⟩
    ∧ (∀ hash : Bytes, hash.length = 4 → hash ≠ [1, 1, 1, 1] →
      bitcoinObject.confirmCode (toy 1 1) [] (b58encode ([0x64, 0x3b, 0xf6, 0xa8, 0x9a, 0x00] ++ (hash ++ List.replicate 8 5 ++ [3]
        ++ bxor ((toBE 32 genKey.x).take 16) (List.replicate 16 1) ++ bxor ((toBE 32 genKey.x).drop 16) (List.replicate 16 1)) ++ [1, 1, 1, 1]))
      = .error ⟨.passphraseError, "Incorrect passphrase"⟩)
    ∧ ∃ o, bitcoinObject.confirmCode (toy 1 1) [] (b58encode ([0x64, 0x3b, 0xf6, 0xa8, 0x9a, 0x00] ++ ([1, 1, 1, 1] ++ List.replicate 8 5 ++ [3]
        ++ bxor ((toBE 32 genKey.x).take 16) (List.replicate 16 1) ++ bxor ((toBE 32 genKey.x).drop 16) (List.replicate 16 1)) ++ [1, 1, 1, 1]))
      = .ok o := by
  have hP := toy_lawful 1 1
  have k1 : IsPrivateKey (List.replicate 32 1) := by decide +kernel
  obtain ⟨pp, hpp, _, _⟩ := priv_ok _ k1
  have hm := fun code => C67_malformed hP bitcoin_selects [] code false
  have hc := fun hash c1 c2 (hh : hash.length = 4) (h1 : c1.length = 16) (h2 : c2.length = 16) =>
    (C67_confirm hP bitcoin_selects [] (b58encode ([0x64, 0x3b, 0xf6, 0xa8, 0x9a, 0x00] ++ (hash ++ List.replicate 8 5 ++ [3] ++ c1 ++ c2) ++ [1, 1, 1, 1]))
      false 0 hash (List.replicate 8 5) 3 c1 c2 hh rfl h1 h2 ((checkDecode_iff hP _ _ _).mpr (C01_decode_encode_bitcoin _))
      (List.replicate 32 1) rfl).2 k1 pp _ hpp rfl
  have hpt : PublicKey.fromBytes (confirmPoint (toy 1 1) (List.replicate 64 1) 3 (bxor ((toBE 32 genKey.x).take 16) (List.replicate 16 1))
      (bxor ((toBE 32 genKey.x).drop 16) (List.replicate 16 1))) = .ok genKey := by decide +kernel
  have hpt' := (fromBytes_iff _ _).mp hpt
  have hmul : .aff pp.x pp.y = times (be (List.replicate 32 1)) (.aff genKey.x genKey.y) := hpp
  refine ⟨(hm _).1 ?_, ((hm _).2 _ (C01_decode_encode_bitcoin (List.replicate 50 2 ++ [1, 1, 1, 1]))).1 (by decide),
    ((hm _).2 _ (C01_decode_encode_bitcoin (List.replicate 51 2 ++ [1, 1, 1, 1]))).2 (by decide) (by decide),
    (hc _ _ _ rfl rfl rfl).1 ?_, fun hash hh hne => ((hc hash _ _ hh (by decide +kernel) (by decide +kernel)).2 _ pp hpt'.2 hpt'.1 hmul).1 (fun h => hne h.symm),
    _, ((hc _ _ _ rfl (by decide +kernel) (by decide +kernel)).2 _ pp hpt'.2 hpt'.1 hmul).2 rfl⟩
  · rintro ⟨raw, h⟩
    have h := Except.ok.inj ((C01_decode_encode_bitcoin _).symm.trans h)
    have hcs : checksum (toy 1 1) raw = [1, 1, 1, 1] := rfl
    rw [hcs] at h
    have := congrArg List.getLast? h
    rw [List.getLast?_append] at this
    simp at this
  · intro x y hon hden
    have hq := (fromBytes_iff _ ⟨x, y⟩).mpr ⟨hden, hon⟩
    have : PublicKey.fromBytes (confirmPoint (toy 1 1) (List.replicate 64 1) 3 (List.replicate 16 1) (List.replicate 16 1))
      = .error ⟨.secp256k1Error, "Invalid public key bytes"⟩ := by decide +kernel
    exact absurd (hq.symm.trans this) (by simp)

/-- Cases of C68: 24 bytes 9 are encrypted, a seed that starts with the byte derived from the pass point is not. -/
example : ∃ it : Str, (∃ r, bitcoinObject.createNewEncryptedWif (unit 1) it "wif" (.bytes (List.replicate 24 9)) none [] = .ok r)
    ∧ bitcoinObject.createNewEncryptedWif (unit 1) it "wif" (.bytes (1 :: List.replicate 23 9)) none []
      = .error ⟨.valueError, "plaintext block must be 16 bytes"⟩ := by
  have k1 : IsPrivateKey (List.replicate 32 1) := by decide +kernel
  obtain ⟨pp, hpp, hon, _⟩ := priv_ok _ k1
  have hr : ∀ seedB : Bytes, seedB.length = 24 → Ready (unit 1) (checkText (unit 1) (magicBytes false ++ List.replicate 8 5 ++ sec1 pp "compressed")) "wif"
      (.bytes seedB) [] seedB false (List.replicate 8 5) (sec1 pp "compressed") pp := fun seedB hl =>
    { seed := by
        cases seedB with
        | nil => simp at hl
        | cons a t => exact supplies rfl
      code := dec_enc _
      ent_length := rfl
      point_length := by simp [sec1]
      type := Or.inl rfl
      factor := by rw [unit_dsha _ (by omega)]; decide +kernel
      point := (fromBytes_iff _ _).mp (by rw [← raw_eq_sec1]; exact (C15_public_key_roundtrip pp hon "compressed").1) }
  have h := fun seedB (hl : seedB.length = 24) => C68_create (unit_lawful 1) bitcoin_selects _ "wif" _ [] seedB false _ _ pp pp genKey (hr seedB hl) hl
    (by
      rw [unit_dsha _ (by omega), show be (toBE 32 1) = 1 by decide +kernel]
      rfl)
    (genKey_unit _ (by omega)) (List.replicate 64 1) rfl
  exact ⟨_, ⟨_, (h _ (by decide)).1 (by decide +kernel)⟩, (h _ (by decide)).2 (by decide +kernel)⟩

end Bip38.Props
