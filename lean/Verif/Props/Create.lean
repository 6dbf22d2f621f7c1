import Verif.Lemmas.ReportBip38
import Verif.Props.Intermediate
import Verif.Props.Curve
/-!
# Property C33: what `create_new_encrypted_wif` accepts
-/
namespace Bip38.Props
open Bip38 Spec

variable {P : Prims} {obj : BIP38} {network : Option String} {c : Coin} {n : String} {v : Net}

/-- A multiple of a curve point other than infinity by a number that is not a multiple of the order. -/
theorem exists_multiple (q : PublicKey) (hq : OnSecp256k1 q.x q.y) (k : Nat) (h1 : 1 ≤ k) (h2 : k < n256k1) :
    ∃ pk : PublicKey, q.point.mul k = pk.point := by
  obtain ⟨b, s, hs, rfl⟩ := C16_surjective q hq
  obtain ⟨_, hb1, hb2, _, hg⟩ := (privFromBytes_iff b s).mp hs
  have hne := mul_mod_ne (a := fromBE b) (b := k) hb1 (by rw [n256k1_eq]; exact hb2) h1 h2
  rw [n256k1_eq] at hne
  obtain ⟨pk, hpk⟩ := exists_pub (n := fromBE b * k % N) (by omega) (Nat.mod_lt _ N_prime.pos)
  refine ⟨pk, ?_⟩
  rw [← hpk, ← gen_mul_mul, hg]
  rfl

/-- The conditions under which a call of `create_new_encrypted_wif` gets as far as the encryption: the seed is readable, the intermediate
code is Base58Check text of magic, 8 bytes and the encoding of a curve point, the WIF type exists, and the double hash of the seed is a
private key. -/
structure Ready (P : Prims) (it : Str) (type : String) (seed : Data) (u : Bytes) (seedB : Bytes) (lot : Bool) (ent pp : Bytes)
    (q : PublicKey) : Prop where
  seed : Supplies seed u seedB
  code : b58decode it = .ok (magicBytes lot ++ ent ++ pp ++ checksum P (magicBytes lot ++ ent ++ pp))
  ent_length : ent.length = 8
  point_length : pp.length = 33
  type : IsWifType type
  factor : IsPrivateKey (dsha P seedB)
  point : Denotes pp q.x q.y ∧ OnSecp256k1 q.x q.y

/-- The four 16-byte blocks to be encrypted have a non-zero first byte. -/
def Blocks (P : Prims) (dk seedB pointB : Bytes) : Prop :=
  Maskable (seedB.take 16) (dk.take 16)
    ∧ Maskable ((ecBlock1 P dk seedB).drop 8 ++ seedB.drop 16) ((dk.take 32).drop 16)
    ∧ Maskable ((pointB.drop 1).take 16) (dk.take 16)
    ∧ Maskable (pointB.drop 17) ((dk.take 32).drop 16)

instance (P : Prims) (dk seedB pointB : Bytes) : Decidable (Blocks P dk seedB pointB) := inferInstanceAs (Decidable (_ ∧ _ ∧ _ ∧ _))

theorem rawCompressed_sec1 (k : PublicKey) : k.rawCompressed = sec1 k "compressed" := by
  rw [← raw_eq_sec1]; rfl

/-- Everything a call with usable arguments does. -/
theorem create_ready (hP : P.Lawful) (hs : Selects obj network c n v) {it : Str} {type : String} {seed : Data} {u seedB : Bytes} {lot : Bool}
    {ent pp : Bytes} {q : PublicKey} (hr : Ready P it type seed u seedB lot ent pp q) :
    ∃ pk pb : PublicKey, .aff pk.x pk.y = times (be (dsha P seedB)) (.aff q.x q.y) ∧ IsPublicKeyOf pb (dsha P seedB) ∧
      ∀ dk, dk = ecDerive P pp (addressHash P v pk (pubType type)) ent →
        obj.createNewEncryptedWif P it type seed network u =
          if Blocks P dk seedB (sec1 pb "compressed") then .ok (createdDict P v lot type ent dk seedB (sec1 pb "compressed") pk)
          else .error ⟨.valueError, "plaintext block must be 16 bytes"⟩ := by
  obtain ⟨pk, hpk⟩ := exists_multiple q hr.point.2 _ hr.factor.2.1 hr.factor.2.2
  obtain ⟨pb, hpb, _, _⟩ := priv_ok _ hr.factor
  refine ⟨pk, pb, ?_, hpb, fun dk hdk => ?_⟩
  · rw [← mul_eq_times _ (valid_aff.mpr hr.point.2)]; exact hpk.symm
  · rw [← rawCompressed_sec1]
    exact create_eq hP hs it type hr.type seed u seedB hr.seed.ok lot ent pp hr.ent_length hr.point_length
      ((checkDecode_iff hP _ _ _).mpr hr.code) hr.factor.2.1 hr.factor.2.2 q ((fromBytes_iff _ _).mpr hr.point) pk hpk pb hpb dk hdk

/-! The refusals, in the order in which the code makes them. -/

/-- C33: a seed that is neither bytes nor hexadecimal text raises `ValueError` or `TypeError`. -/
theorem C33_seed (hs : Selects obj network c n v) (it : Str) (type : String) (seed : Data) (u : Bytes)
    (h : ¬ ∃ b, Supplies seed u b) :
    ∃ x, obj.createNewEncryptedWif P it type seed network u = .error x ∧
      ((∃ s, seed = .str s ∧ (¬ ∃ b, HexText s b) ∧ x.cls = .valueError) ∨ seed = .other ∧ x.cls = .typeError) := by
  obtain ⟨x, hx, hc⟩ := unreadable seed u h
  refine ⟨x, ?_, hc⟩
  unfold BIP38.createNewEncryptedWif
  rw [hs.select]
  simp only
  rw [py_bind (not_raise (not_not.mpr hs.mem)), py_bind_err hx]

/-- C33: text that is not Base58Check text (wrong checksum, too short, non-ASCII characters) raises `PassphraseError`. -/
theorem C33_checksum (hP : P.Lawful) (hs : Selects obj network c n v) (it : Str) (type : String) (seed : Data) (u seedB : Bytes)
    (hseed : Supplies seed u seedB) (h : ¬ ∃ raw, b58decode it = .ok (raw ++ checksum P raw)) :
    ∃ x, obj.createNewEncryptedWif P it type seed network u = .error x ∧ x.cls = .passphraseError := by
  have hc : ∃ y, checkDecode P.sha256 it = .error y := by
    cases hd : checkDecode P.sha256 it with
    | error y => exact ⟨y, rfl⟩
    | ok raw => exact absurd ⟨raw, (checkDecode_iff hP _ _ _).mp hd⟩ h
  obtain ⟨y, hy⟩ := hc
  have hv := C03_check_decode_error P.sha256 bitcoinAlphabet bitcoinAlphabet_valid it y hy
  unfold BIP38.createNewEncryptedWif
  rw [hs.select]
  simp only
  rw [py_bind (not_raise (not_not.mpr hs.mem)), py_bind hseed.ok, py_bind_err (checkDecodeOr_error _ _ _ y hy hv)]
  exact ⟨_, rfl, rfl⟩

/-- C33: a payload that has not 49 bytes raises `PassphraseError`. -/
theorem C33_length (hP : P.Lawful) (hs : Selects obj network c n v) (it : Str) (type : String) (seed : Data) (u seedB raw : Bytes)
    (hseed : Supplies seed u seedB) (h : b58decode it = .ok (raw ++ checksum P raw)) (hl : raw.length ≠ 49) :
    ∃ x, obj.createNewEncryptedWif P it type seed network u = .error x ∧ x.cls = .passphraseError := by
  unfold BIP38.createNewEncryptedWif
  rw [hs.select]
  simp only
  rw [py_bind (not_raise (not_not.mpr hs.mem)), py_bind hseed.ok, py_bind (checkDecodeOr_ok _ _ _ _ ((checkDecode_iff hP _ _ _).mpr h)),
    py_bind_err (do_raise hl)]
  exact ⟨_, rfl, rfl⟩

/-- C33: an unknown WIF type raises `WIFError`. -/
theorem C33_type (hP : P.Lawful) (hs : Selects obj network c n v) (it : Str) (type : String) (seed : Data) (u seedB raw : Bytes)
    (hseed : Supplies seed u seedB) (h : b58decode it = .ok (raw ++ checksum P raw)) (hl : raw.length = 49)
    (ht : ¬ IsWifType type) :
    ∃ x, obj.createNewEncryptedWif P it type seed network u = .error x ∧ x.cls = .wifError := by
  have hpt := publicKeyTypeOf_error type ht
  unfold BIP38.createNewEncryptedWif
  rw [hs.select]
  simp only
  rw [py_bind (not_raise (not_not.mpr hs.mem)), py_bind hseed.ok, py_bind (checkDecodeOr_ok _ _ _ _ ((checkDecode_iff hP _ _ _).mpr h)),
    py_bind (not_raise (not_not.mpr hl)), py_bind_err hpt]
  exact ⟨_, rfl, rfl⟩

/-- C33: an unknown magic raises `Error`. -/
theorem C33_magic (hP : P.Lawful) (hs : Selects obj network c n v) (it : Str) (type : String) (seed : Data) (u seedB raw : Bytes)
    (hseed : Supplies seed u seedB) (h : b58decode it = .ok (raw ++ checksum P raw)) (hl : raw.length = 49)
    (ht : IsWifType type) (hm : ∀ lot, raw.take 8 ≠ magicBytes lot) :
    ∃ x, obj.createNewEncryptedWif P it type seed network u = .error x ∧ x.cls = .error := by
  have hf := newFlag_error (raw.take 8) (pubType type) hm
  unfold BIP38.createNewEncryptedWif
  rw [hs.select]
  simp only
  rw [py_bind (not_raise (not_not.mpr hs.mem)), py_bind hseed.ok, py_bind (checkDecodeOr_ok _ _ _ _ ((checkDecode_iff hP _ _ _).mpr h)),
    py_bind (not_raise (not_not.mpr hl)), py_bind (publicKeyTypeOf_eq ht), py_bind_err hf]
  exact ⟨_, rfl, rfl⟩

/-- C33: a seed whose double hash is not a private key raises `Error`; a pass point that is not on the curve raises `Secp256k1Error`. -/
theorem C33_factor_point (hP : P.Lawful) (hs : Selects obj network c n v) (it : Str) (type : String) (seed : Data) (u seedB : Bytes)
    (lot : Bool) (ent pp : Bytes) (hent : ent.length = 8) (hpp : pp.length = 33)
    (hseed : Supplies seed u seedB)
    (h : b58decode it = .ok (magicBytes lot ++ ent ++ pp ++ checksum P (magicBytes lot ++ ent ++ pp))) (ht : IsWifType type) :
    (¬ IsPrivateKey (dsha P seedB) → ∃ x, obj.createNewEncryptedWif P it type seed network u = .error x ∧ x.cls = .error) ∧
    (IsPrivateKey (dsha P seedB) → (∀ x y, OnSecp256k1 x y → ¬ Denotes pp x y) →
      ∃ x, obj.createNewEncryptedWif P it type seed network u = .error x ∧ x.cls = .secp256k1Error) := by
  have hml : (magicBytes lot).length = 8 := by cases lot <;> rfl
  have hlen : (magicBytes lot ++ ent ++ pp).length = 49 := by simp [hml, hent, hpp]
  have s1 : (magicBytes lot ++ ent ++ pp).take 8 = magicBytes lot := by
    rw [List.append_assoc, List.take_left' hml]
  have s3 : (magicBytes lot ++ ent ++ pp).drop 16 = pp := List.drop_left' (by simp [hml, hent])
  have hdec := (checkDecode_iff hP bitcoinAlphabet it _).mpr h
  constructor
  · intro hk
    have hbad : ¬ (0 < be (dsha P seedB) ∧ be (dsha P seedB) < N) := by
      intro hb; rw [← n256k1_eq] at hb; exact hk ⟨dsha_length hP _, hb.1, hb.2⟩
    unfold BIP38.createNewEncryptedWif
    rw [hs.select]
    simp only
    rw [py_bind (not_raise (not_not.mpr hs.mem)), py_bind hseed.ok, py_bind (checkDecodeOr_ok _ _ _ _ hdec),
      py_bind (not_raise (not_not.mpr hlen)), s1, py_bind (publicKeyTypeOf_eq ht), py_bind (newFlag_eq lot ht),
      py_bind (doubleSha256_bytes _), b2i_be, py_bind_err (do_raise hbad)]
    exact ⟨_, rfl, rfl⟩
  · intro hk hno
    obtain ⟨msg, hq⟩ := C15_public_key_error pp hno
    have hgood : ¬ ¬ (0 < be (dsha P seedB) ∧ be (dsha P seedB) < N) := by
      rw [← n256k1_eq]; exact not_not.mpr ⟨hk.2.1, hk.2.2⟩
    unfold BIP38.createNewEncryptedWif
    rw [hs.select]
    simp only
    rw [py_bind (not_raise (not_not.mpr hs.mem)), py_bind hseed.ok, py_bind (checkDecodeOr_ok _ _ _ _ hdec),
      py_bind (not_raise (not_not.mpr hlen)), s1, s3, py_bind (publicKeyTypeOf_eq ht), py_bind (newFlag_eq lot ht),
      py_bind (doubleSha256_bytes _), b2i_be, py_bind (not_raise hgood), py_bind_err hq]
    exact ⟨_, rfl, rfl⟩

/-- Either the arguments are usable, or the call raises one of the exceptions of the API. -/
theorem create_total (hP : P.Lawful) (hs : Selects obj network c n v) (it : Str) (type : String) (seed : Data) (u : Bytes) :
    (∃ seedB lot ent pp q, Ready P it type seed u seedB lot ent pp q) ∨
    ∃ x, obj.createNewEncryptedWif P it type seed network u = .error x ∧
      x.cls ∈ [.passphraseError, .wifError, .error, .secp256k1Error, .valueError, .typeError] := by
  by_cases hsd : ∃ b, Supplies seed u b
  swap
  · obtain ⟨x, hx, hc⟩ := C33_seed (P := P) hs it type seed u hsd
    refine Or.inr ⟨x, hx, ?_⟩
    rcases hc with ⟨_, _, _, hc⟩ | ⟨_, hc⟩ <;> rw [hc] <;> simp
  obtain ⟨seedB, hseed⟩ := hsd
  by_cases hc : ∃ raw, b58decode it = .ok (raw ++ checksum P raw)
  swap
  · obtain ⟨x, hx, hcl⟩ := C33_checksum hP hs it type seed u seedB hseed hc
    exact Or.inr ⟨x, hx, by rw [hcl]; simp⟩
  obtain ⟨raw, hraw⟩ := hc
  by_cases hl : raw.length = 49
  swap
  · obtain ⟨x, hx, hcl⟩ := C33_length hP hs it type seed u seedB raw hseed hraw hl
    exact Or.inr ⟨x, hx, by rw [hcl]; simp⟩
  by_cases ht : IsWifType type
  swap
  · obtain ⟨x, hx, hcl⟩ := C33_type hP hs it type seed u seedB raw hseed hraw hl ht
    exact Or.inr ⟨x, hx, by rw [hcl]; simp⟩
  by_cases hm : ∀ lot, raw.take 8 ≠ magicBytes lot
  · obtain ⟨x, hx, hcl⟩ := C33_magic hP hs it type seed u seedB raw hseed hraw hl ht hm
    exact Or.inr ⟨x, hx, by rw [hcl]; simp⟩
  push Not at hm
  obtain ⟨lot, hlot⟩ := hm
  obtain ⟨m, r1, rfl, hml, hr1⟩ := split_at' raw 8 41 hl
  obtain ⟨ent, pp, rfl, hent, hpp⟩ := split_at' r1 8 33 hr1
  rw [List.take_left' hml] at hlot
  subst hlot
  rw [← List.append_assoc] at hraw
  have hfp := C33_factor_point hP hs it type seed u seedB lot ent pp hent hpp hseed hraw ht
  by_cases hk : IsPrivateKey (dsha P seedB)
  swap
  · obtain ⟨x, hx, hcl⟩ := hfp.1 hk
    exact Or.inr ⟨x, hx, by rw [hcl]; simp⟩
  by_cases hp : ∀ x y, OnSecp256k1 x y → ¬ Denotes pp x y
  · obtain ⟨x, hx, hcl⟩ := hfp.2 hk hp
    exact Or.inr ⟨x, hx, by rw [hcl]; simp⟩
  push Not at hp
  obtain ⟨x, y, hon, hden⟩ := hp
  exact Or.inl ⟨seedB, lot, ent, pp, ⟨x, y⟩, hseed, hraw, hent, hpp, ht, hk, hden, hon⟩

/-- C33: every exception `create_new_encrypted_wif` can raise on a known network. -/
theorem C33_errors (hP : P.Lawful) (hs : Selects obj network c n v) (it : Str) (type : String) (seed : Data) (u : Bytes) (x : Exc)
    (h : obj.createNewEncryptedWif P it type seed network u = .error x) :
    x.cls ∈ [.passphraseError, .wifError, .error, .secp256k1Error, .valueError, .typeError] := by
  rcases create_total (P := P) hP hs it type seed u with ⟨seedB, lot, ent, pp, q, hr⟩ | ⟨y, hy, hc⟩
  · obtain ⟨pk, pb, _, _, hall⟩ := create_ready hP hs hr
    rw [hall _ rfl] at h
    split at h
    · simp at h
    · rw [← Except.error.inj h]; simp
  · rw [hy] at h
    rw [← Except.error.inj h]; exact hc

/-- C33: a record is produced only from usable arguments, and is then the one of `createdDict`. -/
theorem C33_returns (hP : P.Lawful) (hs : Selects obj network c n v) (it : Str) (type : String) (seed : Data) (u : Bytes) (r : Created)
    (h : obj.createNewEncryptedWif P it type seed network u = .ok r) :
    ∃ seedB lot ent pp q pk pb, Ready P it type seed u seedB lot ent pp q
      ∧ .aff pk.x pk.y = times (be (dsha P seedB)) (.aff q.x q.y) ∧ IsPublicKeyOf pb (dsha P seedB)
      ∧ Blocks P (ecDerive P pp (addressHash P v pk (pubType type)) ent) seedB (sec1 pb "compressed")
      ∧ r = createdDict P v lot type ent (ecDerive P pp (addressHash P v pk (pubType type)) ent) seedB (sec1 pb "compressed") pk := by
  rcases create_total (P := P) hP hs it type seed u with ⟨seedB, lot, ent, pp, q, hr⟩ | ⟨y, hy, hc⟩
  · obtain ⟨pk, pb, hpk, hpb, hall⟩ := create_ready hP hs hr
    rw [hall _ rfl] at h
    by_cases hb : Blocks P (ecDerive P pp (addressHash P v pk (pubType type)) ent) seedB (sec1 pb "compressed")
    · rw [if_pos hb] at h
      exact ⟨seedB, lot, ent, pp, q, pk, pb, hr, hpk, hpb, hb, (Except.ok.inj h).symm⟩
    · rw [if_neg hb] at h; simp at h
  · rw [hy] at h; simp at h

end Bip38.Props
