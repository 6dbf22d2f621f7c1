import Verif.Lemmas.EcRound
/-!
# Properties C29, C31, C32: `decrypt` of what `create_new_encrypted_wif` returns
-/
namespace Bip38.Props
open Bip38 Spec

variable {P : Prims} {obj : BIP38} {network : Option String} {c : Coin} {n : String} {v : Net}

/-- The values behind a result `r` of `create_new_encrypted_wif`, for an intermediate code made from the passphrase `pass`:
pass factor `pf` and pass point `pp`, seed bytes, the point `pb` of the double hash of the seed, private key, public key, and the
64 bytes derived from the pass point. -/
structure Made (P : Prims) (v : Net) (pass : Str) (lot : Bool) (ent : Bytes) (type : String) (r : Created)
    (seedB pf : Bytes) (pp pb : PublicKey) (key : Bytes) (pk : PublicKey) (dk : Bytes) : Prop where
  ent_length : ent.length = 8
  pass_factor : pf = passFactor P lot pass ent
  pass_factor_ok : IsPrivateKey pf
  pass_point : IsPublicKeyOf pp pf
  type_ok : IsWifType type
  factor_ok : IsPrivateKey (dsha P seedB)
  point_b : IsPublicKeyOf pb (dsha P seedB)
  key_value : be key = be pf * be (dsha P seedB) % n256k1
  key_ok : IsPrivateKey key
  public_key : IsPublicKeyOf pk key
  derived : dk = ecDerive P (sec1 pp "compressed") (addressHash P v pk (pubType type)) ent
  blocks : Blocks P dk seedB (sec1 pb "compressed")
  result : r = createdDict P v lot type ent dk seedB (sec1 pb "compressed") pk

/-- `create_new_encrypted_wif` of a code of `intermediate_code`. -/
theorem made (hP : P.Lawful) (hs : Selects obj network c n v) (pass : Str) (lot sequence : Option Int) (salt : Data) (u : Bytes) (it : Str)
    (hi : intermediateCode P pass lot sequence salt u = .ok it) (type : String) (seed : Data) (u' : Bytes) (r : Created)
    (hc : obj.createNewEncryptedWif P it type seed network u' = .ok r) :
    ∃ saltB seedB pf pp pb key pk dk, Supplies salt u saltB ∧ Accepted lot sequence saltB.length
      ∧ Supplies seed u' seedB
      ∧ Made P v pass (usesLot lot sequence) (ownerEntropy lot sequence saltB) type r seedB pf pp pb key pk dk := by
  cases hd : bytesOrRandom salt u with
  | error x =>
    unfold intermediateCode at hi
    rw [py_bind_err hd] at hi
    simp at hi
  | ok saltB =>
  obtain ⟨ha, hk⟩ := (C26_validation pass lot sequence salt u saltB (supplies hd)).2.1.mp ⟨it, hi⟩
  obtain ⟨pp, hpp, hppon, _⟩ := priv_ok _ hk
  have heq := (intermediate_eq pass lot sequence salt u saltB (supplies hd) _ rfl).2.2 ha pp hk hpp
  have hit := Except.ok.inj (hi.symm.trans heq)
  obtain ⟨seedB, lot', ent, pp', q, pk, pb, hr, hpk, hpb, hb, hres⟩ := C33_returns hP hs it type seed u' r hc
  have hcode := hr.code
  rw [hit, checkText, dec_enc] at hcode
  have hcode := Except.ok.inj hcode
  have hraw := (List.append_inj' hcode (by rw [checksum_length hP, checksum_length hP])).1
  unfold intermediateRecord at hraw
  have hml : ∀ b, (magicBytes b).length = 8 := fun b => by cases b <;> rfl
  have hsl : (sec1 pp "compressed").length = 33 := by simp [sec1]
  obtain ⟨hl, hpe⟩ := List.append_inj' hraw (by rw [hsl, hr.point_length])
  obtain ⟨hm, hent⟩ := List.append_inj hl (by rw [hml, hml])
  have hlot : usesLot lot sequence = lot' := by
    revert hm
    cases usesLot lot sequence <;> cases lot' <;> decide
  subst hent hpe hlot
  have hq : q = pp := by
    have h1 := (fromBytes_iff _ _).mpr hr.point
    rw [← raw_eq_sec1, (C15_public_key_roundtrip pp hppon "compressed").1] at h1
    exact (Except.ok.inj h1).symm
  subst hq
  have hnum : .aff pk.x pk.y = times (be (passFactor P (usesLot lot sequence) pass (ownerEntropy lot sequence saltB))
      * be (dsha P seedB) % n256k1) gen := by
    rw [← C16_scalar_mul, hpk, ← hpp, mul_eq_times _ (valid_aff.mpr hppon)]
  have hlt := ecNum_lt (P := P) (passFactor P (usesLot lot sequence) pass (ownerEntropy lot sequence saltB)) seedB
  have hne := mul_mod_ne hk.2.1 hk.2.2 hr.factor.2.1 hr.factor.2.2
  have hbe := be_toBE 32 _ (hlt.trans n256k1_lt)
  have hkey : IsPrivateKey (toBE 32 (ecNum P (passFactor P (usesLot lot sequence) pass (ownerEntropy lot sequence saltB)) seedB)) :=
    toBE_num_priv (by unfold ecNum; omega) hlt
  exact ⟨saltB, seedB, _, q, pb, _, pk, _, supplies hd, ha, hr.seed,
    { ent_length := hr.ent_length, pass_factor := rfl, pass_factor_ok := hk, pass_point := hpp, type_ok := hr.type, factor_ok := hr.factor
      point_b := hpb, key_value := hbe, key_ok := hkey, public_key := by unfold IsPublicKeyOf; rw [hbe]; exact hnum
      derived := rfl, blocks := hb, result := hres }⟩

/-- The seed and the key can be read back: byte 8 of the first encrypted block is not 0, the first 16 bytes of the seed are the shortest
form of their number, and the private key does not start with a zero byte. -/
def Recoverable (P : Prims) (dk seedB key : Bytes) : Prop :=
  (ecBlock1 P dk seedB).getD 8 0 ≠ 0 ∧ strip (seedB.take 16) = seedB.take 16 ∧ 2 ^ 248 ≤ be key

/-- `decrypt` of a record with EC multiplication, with the passphrase of the pass point. -/
theorem decrypt_written (hP : P.Lawful) (hs : Selects obj network c n v) {pass : Str} {lot : Bool} {ent : Bytes} {type : String} {e : Str}
    {seedB pf : Bytes} {pp : PublicKey} {key : Bytes} {pk : PublicKey} {dk : Bytes}
    (hent : ent.length = 8) (hpf : pf = passFactor P lot pass ent) (hpk1 : IsPrivateKey pf) (hpp : IsPublicKeyOf pp pf)
    (hty : IsWifType type) (hfac : IsPrivateKey (dsha P seedB)) (hkv : be key = be pf * be (dsha P seedB) % n256k1)
    (hkey : IsPrivateKey key) (hpk : IsPublicKeyOf pk key)
    (hdk : dk = ecDerive P (sec1 pp "compressed") (addressHash P v pk (pubType type)) ent)
    (fit1 : Fits16 (seedB.take 16) (dk.take 16)) (fit2 : Fits16 ((ecBlock1 P dk seedB).drop 8 ++ seedB.drop 16) ((dk.take 32).drop 16))
    (hr : e = checkText P (ecRecord P (ecFlag lot type) (addressHash P v pk (pubType type)) ent dk seedB)) :
    (Recoverable P dk seedB key → ∀ detail, obj.decrypt P e pass network detail
      = .ok (present detail (keyDetail P v key pk type (some seedB)
          (if lot then some (be (ent.drop 4) / 4096, be (ent.drop 4) % 4096) else none)))) ∧
    (¬ Recoverable P dk seedB key → ∀ d, obj.decrypt P e pass network true = .ok (.detail d) → d.seed ≠ some (hex seedB)) ∧
    (∀ d, obj.decrypt P e pass network true = .ok (.detail d) →
      d.lot = (if lot then some ((be (ent.drop 4) / 4096 : Nat) : Int) else none) ∧
      d.sequence = (if lot then some ((be (ent.drop 4) % 4096 : Nat) : Int) else none) ∧ d.wifType = type) := by
  have hdl : dk.length = 64 := by rw [hdk]; exact ecDerive_length hP _ _ _
  have hhl := addressHash_length hP v pk (pubType type)
  set hash := addressHash P v pk (pubType type) with hhash
  have l1 := ecBlock1_length hP hdl (seed := seedB)
  have l2 := ecBlock2_length hP hdl (seed := seedB)
  have l8 : ((ecBlock1 P dk seedB).take 8).length = 8 := by simp [l1]
  set chk := checksum P (ecRecord P (ecFlag lot type) hash ent dk seedB) with hchk
  have hcl : chk.length = 4 := checksum_length hP _
  have hdec : b58decode e = .ok ([0x01, 0x43, ecFlag lot type]
      ++ (hash ++ ent ++ (ecBlock1 P dk seedB).take 8 ++ ecBlock2 P dk seedB ++ chk)) := by
    rw [hr]
    simp only [checkText]
    rw [dec_enc, ← hchk]
    simp [ecRecord]
  have hlot : decide (hasLot (ecFlag lot type)) = lot := by
    have := hasLot_ecFlag lot type
    cases lot
    · exact decide_eq_false (fun h => by simpa using this.mp h)
    · exact decide_eq_true (this.mpr rfl)
  have hlist := lotSeq_ecFlag lot type ent
  obtain ⟨pp', hpp', _, hok⟩ := priv_ok pf hpk1
  have hppe := isPublicKeyOf_unique hpp hpp'
  subst hppe
  have hdk' : ecDerive P pp.rawCompressed hash ent = dk := by rw [hdk, rawCompressed_sec1]
  have q1 := hpk1.2
  have n1 : ¬ (be pf = 0 ∨ be pf ≥ n256k1) := by omega
  have hcall : ∀ detail, obj.decrypt P e pass network detail = _ := fun detail =>
    (decrypt_ec hs _ pass detail _ _ (by simp [hhl, hent, l8, l2, hcl]) hdec).trans
      (decryptEc_eq hP hs pass detail (ecFlag lot type) hash ent _ _ chk hhl hent l8 l2 hcl pf (by rw [hlot]; exact hpf))
  simp only [n1, if_false, hok, PrivateKey.publicKey, hdk', ecType_ecFlag lot hty, hlist] at hcall
  refine ⟨fun ⟨h8, hst, hge⟩ detail => ?_, fun hnr d hd hseed => ?_, fun d hd => ?_⟩
  · obtain ⟨ht8, hseed⟩ := ecSeed_good hP hdl fit1 fit2 h8
    rw [hst, List.take_append_drop] at hseed
    have hkeq : toBE 32 (ecNum P pf seedB) = key := by
      unfold ecNum; rw [← hkv, be_eq, toBE_fromBE' key hkey.1]
    have h0 : ¬ key.head? = some 0 := (head_iff_ge key 31 hkey.1).mpr (by rw [show (256 : Nat) ^ 31 = 2 ^ 248 by norm_num]; exact hge)
    obtain ⟨pk', hpk', _, hok2⟩ := priv_ok key hkey
    have := isPublicKeyOf_unique hpk hpk'
    subst this
    have q2 := hfac.2
    have n2 : ¬ (be (dsha P seedB) = 0 ∨ be (dsha P seedB) ≥ n256k1) := by omega
    have n3 : ¬ (ecTail P dk (ecBlock2 P dk seedB)).length < 8 := by omega
    rw [hcall]
    simp only [hseed, n2, n3, if_false, hkeq, h0, hok2]
    rw [if_pos rfl]
  · rw [hcall] at hd
    split at hd
    · simp at hd
    rename_i ht8
    split at hd
    · simp at hd
    split at hd
    · simp at hd
    rename_i h0
    split at hd
    · simp at hd
    split at hd
    swap
    · simp at hd
    have hd := Except.ok.inj hd
    simp only [present, if_true, DecryptOut.detail.injEq] at hd
    rw [← hd] at hseed
    simp only [keyDetail, Option.map_some, Option.some.injEq] at hseed
    have hseed := hex_inj hseed
    apply hnr
    by_cases h8 : (ecBlock1 P dk seedB).getD 8 0 = 0
    · rcases ecSeed_bad hP hdl fit2 h8 _ l8 with h | h
      · exact absurd h ht8
      · rw [hseed] at h; omega
    refine ⟨h8, ?_, ?_⟩
    · obtain ⟨_, hg⟩ := ecSeed_good hP hdl fit1 fit2 h8
      rw [hseed] at hg
      conv at hg => lhs; rw [← List.take_append_drop 16 seedB]
      exact (List.append_inj_left' hg rfl).symm
    · rw [hseed] at h0
      have := (head_iff_ge _ 31 (toBE_length 32 (ecNum P pf seedB))).mp h0
      unfold ecNum at this
      rw [← hkv, be_toBE 32 _ (by rw [← hkey.1]; exact be_lt key)] at this
      rwa [show (256 : Nat) ^ 31 = 2 ^ 248 by norm_num] at this
  · rw [hcall] at hd
    split at hd
    · simp at hd
    split at hd
    · simp at hd
    split at hd
    · simp at hd
    split at hd
    · simp at hd
    split at hd
    swap
    · simp at hd
    have hd := Except.ok.inj hd
    simp only [present, if_true, DecryptOut.detail.injEq] at hd
    rw [← hd]
    cases lot <;> simp [keyDetail]

/-- The same for a private key that starts with a zero byte. -/
theorem decrypt_written_zero (hP : P.Lawful) (hs : Selects obj network c n v) {pass : Str} {lot : Bool} {ent : Bytes} {type : String} {e : Str}
    {seedB pf : Bytes} {pp : PublicKey} {key : Bytes} {pk : PublicKey} {dk : Bytes}
    (hent : ent.length = 8) (hpf : pf = passFactor P lot pass ent) (hpk1 : IsPrivateKey pf) (hpp : IsPublicKeyOf pp pf)
    (hty : IsWifType type) (hfac : IsPrivateKey (dsha P seedB)) (hkv : be key = be pf * be (dsha P seedB) % n256k1)
    (hkey : IsPrivateKey key)
    (hdk : dk = ecDerive P (sec1 pp "compressed") (addressHash P v pk (pubType type)) ent)
    (fit1 : Fits16 (seedB.take 16) (dk.take 16)) (fit2 : Fits16 ((ecBlock1 P dk seedB).drop 8 ++ seedB.drop 16) ((dk.take 32).drop 16))
    (hr : e = checkText P (ecRecord P (ecFlag lot type) (addressHash P v pk (pubType type)) ent dk seedB))
    (h8 : (ecBlock1 P dk seedB).getD 8 0 ≠ 0) (hst : strip (seedB.take 16) = seedB.take 16) (hz : key.getD 0 0 = 0) (detail : Bool) :
    ∃ x, obj.decrypt P e pass network detail = .error x ∧ x.cls = .secp256k1Error := by
  have hdl : dk.length = 64 := by rw [hdk]; exact ecDerive_length hP _ _ _
  have hhl := addressHash_length hP v pk (pubType type)
  set hash := addressHash P v pk (pubType type) with hhash
  have l1 := ecBlock1_length hP hdl (seed := seedB)
  have l2 := ecBlock2_length hP hdl (seed := seedB)
  have l8 : ((ecBlock1 P dk seedB).take 8).length = 8 := by simp [l1]
  set chk := checksum P (ecRecord P (ecFlag lot type) hash ent dk seedB) with hchk
  have hcl : chk.length = 4 := checksum_length hP _
  have hdec : b58decode e = .ok ([0x01, 0x43, ecFlag lot type]
      ++ (hash ++ ent ++ (ecBlock1 P dk seedB).take 8 ++ ecBlock2 P dk seedB ++ chk)) := by
    rw [hr]
    simp only [checkText]
    rw [dec_enc, ← hchk]
    simp [ecRecord]
  have hlot : decide (hasLot (ecFlag lot type)) = lot := by
    have := hasLot_ecFlag lot type
    cases lot
    · exact decide_eq_false (fun h => by simpa using this.mp h)
    · exact decide_eq_true (this.mpr rfl)
  have hlist := lotSeq_ecFlag lot type ent
  obtain ⟨pp', hpp', _, hok⟩ := priv_ok pf hpk1
  have hppe := isPublicKeyOf_unique hpp hpp'
  subst hppe
  have hdk' : ecDerive P pp.rawCompressed hash ent = dk := by rw [hdk, rawCompressed_sec1]
  have q1 := hpk1.2
  have n1 : ¬ (be pf = 0 ∨ be pf ≥ n256k1) := by omega
  have hcall : ∀ detail, obj.decrypt P e pass network detail = _ := fun detail =>
    (decrypt_ec hs _ pass detail _ _ (by simp [hhl, hent, l8, l2, hcl]) hdec).trans
      (decryptEc_eq hP hs pass detail (ecFlag lot type) hash ent _ _ chk hhl hent l8 l2 hcl pf (by rw [hlot]; exact hpf))
  simp only [n1, if_false, hok, PrivateKey.publicKey, hdk', ecType_ecFlag lot hty, hlist] at hcall
  obtain ⟨ht8, hseed⟩ := ecSeed_good hP hdl fit1 fit2 h8
  rw [hst, List.take_append_drop] at hseed
  have hkeq : toBE 32 (ecNum P pf seedB) = key := by
    unfold ecNum; rw [← hkv, be_eq, toBE_fromBE' key hkey.1]
  have h0 : key.head? = some 0 := by
    cases key with
    | nil => have := hkey.1; simp at this
    | cons a t => simpa using hz
  have q2 := hfac.2
  have n2 : ¬ (be (dsha P seedB) = 0 ∨ be (dsha P seedB) ≥ n256k1) := by omega
  have n3 : ¬ (ecTail P dk (ecBlock2 P dk seedB)).length < 8 := by omega
  rw [hcall]
  simp only [hseed, n2, n3, if_false, hkeq]
  exact ⟨_, if_pos h0, rfl⟩

/-- `decrypt` of a created record, with the passphrase of the intermediate code. -/
theorem decrypt_made (hP : P.Lawful) (hs : Selects obj network c n v) {pass : Str} {lot : Bool} {ent : Bytes} {type : String} {r : Created}
    {seedB pf : Bytes} {pp pb : PublicKey} {key : Bytes} {pk : PublicKey} {dk : Bytes}
    (m : Made P v pass lot ent type r seedB pf pp pb key pk dk) :
    (Recoverable P dk seedB key → ∀ detail, obj.decrypt P r.encryptedWif pass network detail
      = .ok (present detail (keyDetail P v key pk type (some seedB)
          (if lot then some (be (ent.drop 4) / 4096, be (ent.drop 4) % 4096) else none)))) ∧
    (¬ Recoverable P dk seedB key → ∀ d, obj.decrypt P r.encryptedWif pass network true = .ok (.detail d) → d.seed ≠ some (hex seedB)) ∧
    (∀ d, obj.decrypt P r.encryptedWif pass network true = .ok (.detail d) →
      d.lot = (if lot then some ((be (ent.drop 4) / 4096 : Nat) : Int) else none) ∧
      d.sequence = (if lot then some ((be (ent.drop 4) % 4096 : Nat) : Int) else none) ∧ d.wifType = type) :=
  decrypt_written hP hs m.ent_length m.pass_factor m.pass_factor_ok m.pass_point m.type_ok m.factor_ok m.key_value m.key_ok
    m.public_key m.derived m.blocks.1.2 m.blocks.2.1.2 (by rw [m.result]; rfl)

/-! ## C29 -/

/-- C29: let `create_new_encrypted_wif` return `r` for a code made from `pass`, and let `dk` be the bytes derived from the pass point.
There is one private key, whose public key and address are the announced ones, such that
* if the seed, the key and the first encrypted block are `Recoverable`, `decrypt` with `pass` returns that key with the announced
  public key, address and seed;
* if not, `decrypt` does not report that seed (it raises, unless another seed happens to have the same 4-byte address hash). -/
theorem C29_decrypt_create (hP : P.Lawful) (hs : Selects obj network c n v) (pass : Str) (lot sequence : Option Int) (salt : Data)
    (u : Bytes) (it : Str) (hi : intermediateCode P pass lot sequence salt u = .ok it) (type : String) (seed : Data) (u' : Bytes)
    (r : Created) (hc : obj.createNewEncryptedWif P it type seed network u' = .ok r) :
    ∃ saltB seedB pp key pk dk, Supplies salt u saltB ∧ Supplies seed u' seedB
      ∧ IsPublicKeyOf pp (passFactor P (usesLot lot sequence) pass (ownerEntropy lot sequence saltB))
      ∧ dk = ecDerive P (sec1 pp "compressed") (addressHash P v pk (pubType type)) (ownerEntropy lot sequence saltB)
      ∧ be key = be (passFactor P (usesLot lot sequence) pass (ownerEntropy lot sequence saltB)) * be (dsha P seedB) % n256k1
      ∧ IsPrivateKey key ∧ IsPublicKeyOf pk key
      ∧ r.publicKey = hex (sec1 pk (pubType type)) ∧ r.address = addressText P v pk (pubType type) ∧ r.seed = hex seedB
      ∧ (Recoverable P dk seedB key →
          (∃ d, obj.decrypt P r.encryptedWif pass network true = .ok (.detail d) ∧ d.wif = wifText P v key type
            ∧ d.privateKey = hex key ∧ d.wifType = type ∧ d.publicKey = r.publicKey ∧ d.publicKeyType = r.publicKeyType
            ∧ d.address = r.address ∧ d.seed = some r.seed)
          ∧ obj.decrypt P r.encryptedWif pass network false = .ok (.wif (wifText P v key type)))
      ∧ (¬ Recoverable P dk seedB key → ∀ d, obj.decrypt P r.encryptedWif pass network true = .ok (.detail d) → d.seed ≠ some r.seed) := by
  obtain ⟨saltB, seedB, pf, pp, pb, key, pk, dk, h1, _, h2, m⟩ := made hP hs pass lot sequence salt u it hi type seed u' r hc
  obtain ⟨g1, g2, _⟩ := decrypt_made hP hs m
  have e1 : r.publicKey = hex (sec1 pk (pubType type)) := by rw [m.result]; rfl
  have e2 : r.address = addressText P v pk (pubType type) := by rw [m.result]; rfl
  have e3 : r.seed = hex seedB := by rw [m.result]; rfl
  have e4 : r.publicKeyType = pubType type := by rw [m.result]; rfl
  refine ⟨saltB, seedB, pp, key, pk, dk, h1, h2, m.pass_factor ▸ m.pass_point, m.derived, m.pass_factor ▸ m.key_value, m.key_ok,
    m.public_key, e1, e2, e3, fun hr => ⟨⟨_, g1 hr true, rfl, rfl, rfl, e1.symm, e4.symm, e2.symm, ?_⟩, g1 hr false⟩, fun hr d hd => ?_⟩
  · rw [e3]; rfl
  · rw [e3]; exact g2 hr d hd

theorem head_getD (l : Bytes) (h : l ≠ []) : l.head? ≠ some 0 ↔ l.getD 0 0 ≠ 0 := by
  cases l with
  | nil => exact absurd rfl h
  | cons a t => simp

/-- C29: for a 24-byte seed, the one BIP38 asks for, three bytes decide: byte 8 of the first encrypted block, the first byte of the
seed, and the first byte of the private key. -/
theorem C29_condition (dk seedB key : Bytes) (hl : seedB.length = 24) (hk : key.length = 32) :
    Recoverable P dk seedB key ↔ (ecBlock1 P dk seedB).getD 8 0 ≠ 0 ∧ seedB.getD 0 0 ≠ 0 ∧ key.getD 0 0 ≠ 0 := by
  unfold Recoverable
  have h1 : strip (seedB.take 16) = seedB.take 16 ↔ seedB.getD 0 0 ≠ 0 := by
    have ha := strip_length_eq_iff (seedB.take 16) (by simp [hl])
    have hne : seedB.take 16 ≠ [] := by intro h; have := congrArg List.length h; simp [hl] at this
    have hg : (seedB.take 16).getD 0 0 = seedB.getD 0 0 := by
      cases seedB with
      | nil => rfl
      | cons a t => rfl
    rw [head_getD _ hne, hg] at ha
    rw [← ha]
    constructor
    · intro h; rw [h]
    · intro h
      refine strip_of_head _ hne ?_
      rw [head_getD _ hne, hg]; exact ha.mp h
  have h2 : 2 ^ 248 ≤ be key ↔ key.getD 0 0 ≠ 0 := by
    rw [show (2 : Nat) ^ 248 = 256 ^ 31 by norm_num, ← head_iff_ge key 31 hk]
    exact head_getD _ (by intro h; rw [h] at hk; simp at hk)
  rw [h1, h2]

/-! ## C31 -/

/-- The number in the last four bytes of the owner entropy. -/
theorem lotEntropy_number (salt : Bytes) (hs : 4 ≤ salt.length) (l s : Nat) (hl : l ≤ 999999) (h : s ≤ 4095) :
    be ((lotEntropy salt l s).drop 4) = l * 4096 + s := by
  unfold lotEntropy
  rw [List.drop_left' (by simp [hs]), be_toBE]
  norm_num; omega

/-- C31: if `intermediate_code` was given a lot and a sequence, none of them 0, `decrypt` reports these two numbers for every key
created from the code; if it was given none (or one of them 0), `decrypt` reports none. -/
theorem C31_lot_sequence (hP : P.Lawful) (hs : Selects obj network c n v) (pass : Str) (lot sequence : Option Int) (salt : Data)
    (u : Bytes) (it : Str) (hi : intermediateCode P pass lot sequence salt u = .ok it) (type : String) (seed : Data) (u' : Bytes)
    (r : Created) (hc : obj.createNewEncryptedWif P it type seed network u' = .ok r) (d : DecryptDetail)
    (hd : obj.decrypt P r.encryptedWif pass network true = .ok (.detail d)) :
    (usesLot lot sequence = true → d.lot = lot ∧ d.sequence = sequence) ∧
    (usesLot lot sequence = false → d.lot = none ∧ d.sequence = none) := by
  obtain ⟨saltB, seedB, pf, pp, pb, key, pk, dk, h1, ha, h2, m⟩ := made hP hs pass lot sequence salt u it hi type seed u' r hc
  obtain ⟨g1, g2, _⟩ := (decrypt_made hP hs m).2.2 d hd
  refine ⟨fun hu => ?_, fun hu => ?_⟩
  · obtain ⟨hlen, l, s, rfl, rfl, hl, hs⟩ := accepted_lot ha hu
    have he : ownerEntropy (some (l : Int)) (some (s : Int)) saltB = lotEntropy saltB l s := by
      simp [ownerEntropy, hu]
    rw [hu, he, lotEntropy_number saltB (by omega) l s (by omega) (by omega)] at g1 g2
    rw [g1, g2, if_pos rfl, if_pos rfl]
    constructor <;> congr 2 <;> omega
  · rw [hu] at g1 g2
    exact ⟨g1, g2⟩

/-- C31: whenever `decrypt` reports a lot and a sequence, they are the only pair with a sequence below 4096 that encodes the four stored
bytes, and they are reported exactly when the flag says so. -/
theorem C31_reported_pair (hP : P.Lawful) (hs : Selects obj network c n v) (e pass : Str) (f : UInt8)
    (hash ent h11 e2 chk : Bytes) (hh : hash.length = 4) (hent : ent.length = 8) (h1 : h11.length = 8) (h2 : e2.length = 16)
    (hc : chk.length = 4) (he : b58decode e = .ok ([0x01, 0x43, f] ++ (hash ++ ent ++ h11 ++ e2 ++ chk))) (d : DecryptDetail)
    (hd : obj.decrypt P e pass network true = .ok (.detail d)) :
    (hasLot f → ∃ l s : Nat, d.lot = some (l : Int) ∧ d.sequence = some (s : Int) ∧ s < 4096 ∧ l < 2 ^ 20
        ∧ ent.drop 4 = toBE 4 (l * 4096 + s)
        ∧ ∀ l' s' : Nat, s' < 4096 → l' < 2 ^ 20 → ent.drop 4 = toBE 4 (l' * 4096 + s') → l' = l ∧ s' = s) ∧
    (¬ hasLot f → d.lot = none ∧ d.sequence = none) := by
  obtain ⟨pf, pp, seed, key, pk, _, _, _, _, _, _, _, _, _, _, _, _, hall⟩ := ec_returns hP hs e pass true _ f hash ent h11 e2 chk hh hent h1 h2 hc he hd
  rw [hall true] at hd
  have hd := Except.ok.inj hd
  simp only [present, if_true, DecryptOut.detail.injEq] at hd
  have hlt : be (ent.drop 4) < 256 ^ 4 := by
    have := be_lt (ent.drop 4); rwa [List.length_drop, hent] at this
  refine ⟨fun hf => ?_, fun hf => ?_⟩
  · refine ⟨be (ent.drop 4) / 4096, be (ent.drop 4) % 4096, ?_, ?_, by omega, by omega, ?_, ?_⟩
    · rw [← hd]; simp [keyDetail, lotSeq, hf]
    · rw [← hd]; simp [keyDetail, lotSeq, hf]
    · rw [show be (ent.drop 4) / 4096 * 4096 + be (ent.drop 4) % 4096 = be (ent.drop 4) by omega, be_eq, toBE_fromBE' _ (by simp [hent])]
    · intro l' s' h h' heq
      have : be (ent.drop 4) = l' * 4096 + s' := by rw [heq, be_toBE]; norm_num; omega
      omega
  · rw [← hd]; simp [keyDetail, lotSeq, hf]

/-! ## C32 -/

/-- C32: a seed of more than 24 bytes is never recoverable. -/
theorem C32_long_seed (hP : P.Lawful) {dk seedB pointB key : Bytes} (hdk : dk.length = 64) (hb : Blocks P dk seedB pointB)
    (hl : 24 < seedB.length) : ¬ Recoverable P dk seedB key := by
  intro hr
  apply hr.1
  by_contra h8
  obtain ⟨_, h2, _, _⟩ := hb
  have l1 := ecBlock1_length hP hdk (seed := seedB)
  have hlen : ((ecBlock1 P dk seedB).drop 8 ++ seedB.drop 16).length = (seedB.length - 9) + 1 := by simp [l1]; omega
  have hne : (ecBlock1 P dk seedB).drop 8 ≠ [] := by intro h; have := congrArg List.length h; simp [l1] at this
  have hge := (head_iff_ge _ _ hlen).mp (by
    rw [head_getD _ (by simp [hne])]
    have : ((ecBlock1 P dk seedB).drop 8 ++ seedB.drop 16).getD 0 0 = (ecBlock1 P dk seedB).getD 8 0 := by
      rw [List.getD_eq_getElem?_getD, List.getD_eq_getElem?_getD, List.getElem?_append_left (by simp [l1]), List.getElem?_drop]
    rw [this]; exact h8)
  have hpow : 256 ^ 16 ≤ 256 ^ (seedB.length - 9) := Nat.pow_le_pow_right (by omega) (by omega)
  have hm : be ((dk.take 32).drop 16) < 2 ^ 128 := by
    have := be_lt ((dk.take 32).drop 16)
    simpa [hdk] using this
  have hx := h2.2
  rw [show (256 : Nat) ^ 16 = 2 ^ 128 by norm_num] at hx hpow
  have := Nat.xor_lt_two_pow hx hm
  rw [Nat.xor_assoc, Nat.xor_self, Nat.xor_zero] at this
  omega

/-- C32: if a record is produced from a seed of more than 24 bytes, `decrypt` with the right passphrase never reports that seed. -/
theorem C32_long_seed_lost (hP : P.Lawful) (hs : Selects obj network c n v) (pass : Str) (lot sequence : Option Int) (salt : Data)
    (u : Bytes) (it : Str) (hi : intermediateCode P pass lot sequence salt u = .ok it) (type : String) (seed : Data) (u' seedB : Bytes)
    (hseed : Supplies seed u' seedB) (hl : 24 < seedB.length)
    (r : Created) (hc : obj.createNewEncryptedWif P it type seed network u' = .ok r) (d : DecryptDetail)
    (hd : obj.decrypt P r.encryptedWif pass network true = .ok (.detail d)) : d.seed ≠ some (hex seedB) := by
  obtain ⟨saltB, seedB', pf, pp, pb, key, pk, dk, h1, ha, h2, m⟩ := made hP hs pass lot sequence salt u it hi type seed u' r hc
  have := Except.ok.inj (hseed.ok.symm.trans h2.ok)
  subst this
  exact (decrypt_made hP hs m).2.1 (C32_long_seed hP (by rw [m.derived]; exact ecDerive_length hP _ _ _) m.blocks hl) d hd

end Bip38.Props
