import Verif.Props.Outcome
import Verif.Props.Outcome2
import Verif.Lemmas.Counting
/-!
# Property C90: how often encryption fails

`encrypt` and `create_new_encrypted_wif` raise `ValueError` for some outputs of the key derivation (finding of C18 and C68). The
theorems count these outputs among all 256^64 sequences of 64 bytes scrypt could give.
-/
namespace Bip38.Props
open Bip38 Spec

variable {P : Prims} {obj : BIP38} {network : Option String} {c : Coin} {n : String} {v : Net}

theorem derived_stretch (dk : Fin 64 → UInt8) (pass : Str) (salt : Bytes) : stretch (withDerived P dk) pass salt 64 = List.ofFn dk := by
  show ((List.ofFn dk ++ List.replicate 64 0).take 64 : Bytes) = _
  rw [List.take_append_of_le_length (by rw [List.length_ofFn]), List.take_of_length_le (by rw [List.length_ofFn])]

theorem derived_ec (dk : Fin 64 → UInt8) (pp hash ent : Bytes) : ecDerive (withDerived P dk) pp hash ent = List.ofFn dk :=
  derived_stretch (P := P) dk [] []

theorem ofFn_getD (dk : Fin 64 → UInt8) (i : Fin 64) : (List.ofFn dk).getD i 0 = dk i := by
  rw [List.getD_eq_getElem?_getD, List.getElem?_ofFn]
  simp [i.2]

/-- The values other than the one at 16, with 0 there. -/
def fill (g : {j : Fin 64 // j ≠ 16} → UInt8) (j : Fin 64) : UInt8 := if h : j ≠ 16 then g ⟨j, h⟩ else 0

def blank (dk : Fin 64 → UInt8) : Fin 64 → UInt8 := fill fun j => dk j

theorem blank_of_ne (dk : Fin 64 → UInt8) (i : Fin 64) (h : i ≠ 16) : blank dk i = dk i := by
  unfold blank fill
  rw [dif_pos h]

theorem blank_take (dk : Fin 64 → UInt8) : (List.ofFn dk).take 16 = (List.ofFn (blank dk)).take 16 := by
  apply List.ext_getElem
  · rw [List.length_take, List.length_take, List.length_ofFn, List.length_ofFn]
  · intro i h1 h2
    rw [List.getElem_take, List.getElem_take, List.getElem_ofFn, List.getElem_ofFn, blank_of_ne]
    rw [List.length_take] at h1
    intro h
    have := congrArg Fin.val h
    have h16 : ((16 : Fin 64) : Nat) = 16 := rfl
    rw [h16] at this
    simp only at this
    omega

theorem blank_drop (dk : Fin 64 → UInt8) : (List.ofFn dk).drop 32 = (List.ofFn (blank dk)).drop 32 := by
  apply List.ext_getElem
  · rw [List.length_drop, List.length_drop, List.length_ofFn, List.length_ofFn]
  · intro i h1 h2
    rw [List.getElem_drop, List.getElem_drop, List.getElem_ofFn, List.getElem_ofFn, blank_of_ne]
    intro h
    have := congrArg Fin.val h
    have h16 : ((16 : Fin 64) : Nat) = 16 := rfl
    rw [h16] at this
    simp only at this
    omega

theorem ncard_all : (Set.univ : Set (Fin 64 → UInt8)).ncard = 256 ^ 64 := by
  rw [Set.ncard_univ, Nat.card_eq_fintype_card, Fintype.card_fun, card_byte, Fintype.card_fin]

/-- C90: of the 256^64 outputs scrypt could give for a WIF of a private key and a passphrase, `encrypt` returns a text for exactly
255^2 * 256^62 and raises `ValueError` for exactly the other 511 * 256^62, that is for 511 of 65536 (0.78 percent). -/
theorem C90_encrypt (hP : P.Lawful) (hs : Selects obj network c n v) (w pass : Str) (key : Bytes) (type : String)
    (hw : WifLike w v key type) (hk : IsPrivateKey key) :
    (Set.univ : Set (Fin 64 → UInt8)).ncard = 256 ^ 64 ∧
    {dk : Fin 64 → UInt8 | ∃ e, obj.encrypt (withDerived P dk) w pass network = .ok e}.ncard = 255 ^ 2 * 256 ^ 62 ∧
    {dk : Fin 64 → UInt8 | ∃ x, obj.encrypt (withDerived P dk) w pass network = .error x ∧ x.cls = .valueError}.ncard
      = 511 * 256 ^ 62 := by
  obtain ⟨pk, hpk, _⟩ := priv_ok _ hk
  have hout := fun dk => (C60_encrypt (withDerived_lawful hP dk) hs w pass).2.2.2 key type pk _ hw hk hpk rfl
  simp only [derived_stretch] at hout
  have h0 : ∀ dk : Fin 64 → UInt8, (List.ofFn dk).getD 0 0 = dk 0 := fun dk => ofFn_getD dk 0
  have h16 : ∀ dk : Fin 64 → UInt8, (List.ofFn dk).getD 16 0 = dk 16 := fun dk => ofFn_getD dk 16
  have hok : ∀ dk, (∃ e, obj.encrypt (withDerived P dk) w pass network = .ok e)
      ↔ dk 0 ∉ ({key.getD 0 0} : Finset UInt8) ∧ dk 16 ∉ ({key.getD 16 0} : Finset UInt8) := by
    intro dk
    have := hout dk
    rw [h0, h16] at this
    simp only [Finset.mem_singleton]
    constructor
    · rintro ⟨e, he⟩
      by_contra hcon
      rw [this.1 ((not_and_or.mp hcon).imp (fun h => (not_not.mp h).symm) fun h => (not_not.mp h).symm)] at he
      cases he
    · intro hg
      exact this.2 ⟨fun h => hg.1 h.symm, fun h => hg.2 h.symm⟩
  have hbad : ∀ dk, (∃ x, obj.encrypt (withDerived P dk) w pass network = .error x ∧ x.cls = .valueError)
      ↔ ¬ ∃ e, obj.encrypt (withDerived P dk) w pass network = .ok e := by
    intro dk
    constructor
    · rintro ⟨x, hx, _⟩ ⟨e, he⟩
      rw [hx] at he
      cases he
    · intro h
      rw [hok] at h
      simp only [Finset.mem_singleton] at h
      have := (hout dk).1
      rw [h0, h16] at this
      exact ⟨_, this ((not_and_or.mp h).imp (fun h => (not_not.mp h).symm) fun h => (not_not.mp h).symm), rfl⟩
  have hcount : {dk : Fin 64 → UInt8 | ∃ e, obj.encrypt (withDerived P dk) w pass network = .ok e}.ncard = 255 ^ 2 * 256 ^ 62 := by
    simp only [hok]
    have := count_two {key.getD 0 0} (fun _ => {key.getD 16 0}) 1 1 (fun _ => by simp) (fun _ => by simp)
    rw [Finset.card_singleton] at this
    refine le_antisymm ?_ ?_
    · exact this.2.trans (by norm_num)
    · exact le_trans (by norm_num) this.1
  refine ⟨ncard_all, hcount, ?_⟩
  simp only [hbad]
  rw [ncard_not, hcount, Fintype.card_fun, card_byte, Fintype.card_fin]
  norm_num

/-- C90: of the 256^64 outputs scrypt could give for a usable intermediate code and 24-byte seed, `create_new_encrypted_wif` returns a
key for at least 254^2 * 256^62 and at most 255^2 * 256^62, and raises `ValueError` for all others. -/
theorem C90_create (hP : P.Lawful) (hs : Selects obj network c n v) (it : Str) (type : String) (seed : Data) (u seedB : Bytes)
    (lot : Bool) (ent pp : Bytes) (q : PublicKey) (hr : Ready P it type seed u seedB lot ent pp q) (hl : seedB.length = 24) :
    254 ^ 2 * 256 ^ 62
      ≤ {dk : Fin 64 → UInt8 | ∃ r, obj.createNewEncryptedWif (withDerived P dk) it type seed network u = .ok r}.ncard ∧
    {dk : Fin 64 → UInt8 | ∃ r, obj.createNewEncryptedWif (withDerived P dk) it type seed network u = .ok r}.ncard
      ≤ 255 ^ 2 * 256 ^ 62 ∧
    ∀ dk, (¬ ∃ r, obj.createNewEncryptedWif (withDerived P dk) it type seed network u = .ok r) →
      ∃ x, obj.createNewEncryptedWif (withDerived P dk) it type seed network u = .error x ∧ x.cls = .valueError := by
  obtain ⟨pk, pb, hpk, hpb, _⟩ := create_ready hP hs hr
  have hr' : ∀ dk, Ready (withDerived P dk) it type seed u seedB lot ent pp q := fun dk =>
    ⟨hr.seed, hr.code, hr.ent_length, hr.point_length, hr.type, hr.factor, hr.point⟩
  have hout := fun dk => C68_create (withDerived_lawful hP dk) hs it type seed u seedB lot ent pp q pk pb (hr' dk) hl hpk hpb _ rfl
  simp only [derived_ec] at hout
  have h0 : ∀ dk : Fin 64 → UInt8, (List.ofFn dk).getD 0 0 = dk 0 := fun dk => ofFn_getD dk 0
  have h16 : ∀ dk : Fin 64 → UInt8, (List.ofFn dk).getD 16 0 = dk 16 := fun dk => ofFn_getD dk 16
  have hblock : ∀ dk, standardBlock1 (withDerived P dk) (List.ofFn dk) seedB = standardBlock1 P (List.ofFn (blank dk)) seedB := by
    intro dk
    unfold standardBlock1
    rw [blank_take, blank_drop]
    rfl
  have hok : ∀ dk, (∃ r, obj.createNewEncryptedWif (withDerived P dk) it type seed network u = .ok r)
      ↔ dk 0 ∉ ({seedB.getD 0 0, (toBE 32 pb.x).getD 0 0} : Finset UInt8)
        ∧ dk 16 ∉ ({(standardBlock1 P (List.ofFn (fill fun j => dk j)) seedB).getD 8 0, (toBE 32 pb.x).getD 16 0} : Finset UInt8) := by
    intro dk
    have := hout dk
    rw [h0, h16, hblock] at this
    simp only [Finset.mem_insert, Finset.mem_singleton, not_or]
    constructor
    · rintro ⟨r, hr⟩
      refine ⟨⟨fun h => ?_, fun h => ?_⟩, fun h => ?_, fun h => ?_⟩
      · rw [this.2 (Or.inl h.symm)] at hr; cases hr
      · rw [this.2 (Or.inr (Or.inr (Or.inl h.symm)))] at hr; cases hr
      · rw [this.2 (Or.inr (Or.inl h.symm))] at hr; cases hr
      · rw [this.2 (Or.inr (Or.inr (Or.inr h.symm)))] at hr; cases hr
    · rintro ⟨⟨a1, a2⟩, a3, a4⟩
      exact ⟨_, this.1 ⟨fun h => a1 h.symm, fun h => a3 h.symm, fun h => a2 h.symm, fun h => a4 h.symm⟩⟩
  have hA1 : 1 ≤ ({seedB.getD 0 0, (toBE 32 pb.x).getD 0 0} : Finset UInt8).card :=
    Finset.card_pos.mpr ⟨_, Finset.mem_insert_self _ _⟩
  have hA2 : ({seedB.getD 0 0, (toBE 32 pb.x).getD 0 0} : Finset UInt8).card ≤ 2 := Finset.card_le_two
  have hcount := count_two {seedB.getD 0 0, (toBE 32 pb.x).getD 0 0}
    (fun g => {(standardBlock1 P (List.ofFn (fill g)) seedB).getD 8 0, (toBE 32 pb.x).getD 16 0}) 1 2
    (fun _ => Finset.card_pos.mpr ⟨_, Finset.mem_insert_self _ _⟩) (fun _ => Finset.card_le_two)
  refine ⟨?_, ?_, fun dk h => ?_⟩
  · simp only [hok]
    refine le_trans ?_ hcount.1
    refine Nat.mul_le_mul_right _ (le_trans ?_ (Nat.mul_le_mul_right _ (Nat.sub_le_sub_left hA2 256)))
    norm_num
  · simp only [hok]
    refine hcount.2.trans ?_
    refine Nat.mul_le_mul_right _ ((Nat.mul_le_mul_right _ (Nat.sub_le_sub_left hA1 256)).trans ?_)
    norm_num
  · have hd := hout dk
    by_cases hg : seedB.getD 0 0 = (List.ofFn dk).getD 0 0 ∨ (standardBlock1 (withDerived P dk) (List.ofFn dk) seedB).getD 8 0 = (List.ofFn dk).getD 16 0
        ∨ (toBE 32 pb.x).getD 0 0 = (List.ofFn dk).getD 0 0 ∨ (toBE 32 pb.x).getD 16 0 = (List.ofFn dk).getD 16 0
    · exact ⟨_, hd.2 hg, rfl⟩
    · simp only [not_or] at hg
      exact absurd ⟨_, hd.1 hg⟩ h

/-- C90: writing a private key as WIF, encrypting it and decrypting it with the same passphrase gives the WIF back for exactly
255^2 * 256^62 of the 256^64 outputs scrypt could give if the key is at least 2^248, and for none of them if it is smaller (finding
of C17). -/
theorem C90_roundtrip (hP : P.Lawful) (hs : Selects obj network c n v) (key : Bytes) (hk : IsPrivateKey key) (type : String)
    (hty : IsWifType type) (w pass : Str) (hw : privateKeyToWif P (.bytes key) type c n = .ok w) :
    {dk : Fin 64 → UInt8 | ∃ e, obj.encrypt (withDerived P dk) w pass network = .ok e
        ∧ obj.decrypt (withDerived P dk) e pass network = .ok (.wif w)}.ncard
      = if 2 ^ 248 ≤ be key then 255 ^ 2 * 256 ^ 62 else 0 := by
  have hw' : ∀ dk, privateKeyToWif (withDerived P dk) (.bytes key) type c n = .ok w := fun dk => hw
  have hlike : WifLike w v key type := by
    have hwt := Except.ok.inj (hw.symm.trans (C07_wif_text P c n v hs.net key hk.1 type hty))
    subst hwt
    refine ⟨hk.1, checksum P (wifPayload v.wifPrefix key type), checksum_length hP _, ?_⟩
    rcases hty with rfl | rfl
    · exact Or.inl ⟨rfl, by rw [C01_decode_encode_bitcoin]; simp [wifPayload]⟩
    · exact Or.inr ⟨rfl, 1, by rw [C01_decode_encode_bitcoin]; simp [wifPayload]⟩
  split
  next hbig =>
    rw [← (C90_encrypt hP hs w pass key type hlike hk).2.1]
    congr 1
    ext dk
    constructor
    · rintro ⟨e, he, _⟩
      exact ⟨e, he⟩
    · rintro ⟨e, he⟩
      exact ⟨e, he, (C17_roundtrip_iff (withDerived_lawful hP dk) hs key hk type hty w pass e (hw' dk) he).1.mpr hbig⟩
  next hsmall =>
    have : {dk : Fin 64 → UInt8 | ∃ e, obj.encrypt (withDerived P dk) w pass network = .ok e
        ∧ obj.decrypt (withDerived P dk) e pass network = .ok (.wif w)} = ∅ := by
      ext dk
      simp only [Set.mem_ofPred_eq, Set.mem_empty_iff_false, iff_false]
      rintro ⟨e, he, hd⟩
      exact hsmall ((C17_roundtrip_iff (withDerived_lawful hP dk) hs key hk type hty w pass e (hw' dk) he).1.mp hd)
    rw [this, Set.ncard_empty]

/-! ## The hypotheses are met -/

/-- The key 02...02 on Bitcoin's mainnet: `encrypt` raises for 511 * 256^62 outputs of scrypt. -/
example : ∃ w, privateKeyToWif (toy 1 0xff) (.bytes (List.replicate 32 2)) "wif" Coins.Bitcoin "mainnet" = .ok w ∧
    {dk : Fin 64 → UInt8 | ∃ e, bitcoinObject.encrypt (withDerived (toy 1 0xff) dk) w "p".toList = .ok e
        ∧ bitcoinObject.decrypt (withDerived (toy 1 0xff) dk) e "p".toList = .ok (.wif w)}.ncard = 255 ^ 2 * 256 ^ 62 := by
  have hk : IsPrivateKey (List.replicate 32 2) := by decide +kernel
  obtain ⟨w, hw, _⟩ := C07_wif_roundtrip (toy 1 0xff) (toy_lawful 1 0xff) Coins.Bitcoin "mainnet" _ bitcoin_selects.net
    (List.replicate 32 2) (by simp) "wif" (Or.inl rfl)
  refine ⟨w, hw, ?_⟩
  rw [C90_roundtrip (toy_lawful 1 0xff) bitcoin_selects _ hk "wif" (Or.inl rfl) w _ hw, if_pos (by decide +kernel)]

/-- A usable intermediate code with a seed of 24 bytes 9. -/
example : ∃ it : Str, 254 ^ 2 * 256 ^ 62 ≤ {dk : Fin 64 → UInt8 | ∃ r,
    bitcoinObject.createNewEncryptedWif (withDerived (unit 1) dk) it "wif" (.bytes (List.replicate 24 9)) none [] = .ok r}.ncard := by
  have k1 : IsPrivateKey (List.replicate 32 1) := by decide +kernel
  obtain ⟨pp, hpp, hon, _⟩ := priv_ok _ k1
  have hr : Ready (unit 1) (checkText (unit 1) (magicBytes false ++ List.replicate 8 5 ++ sec1 pp "compressed")) "wif"
      (.bytes (List.replicate 24 9)) [] (List.replicate 24 9) false (List.replicate 8 5) (sec1 pp "compressed") pp :=
    { seed := supplies rfl
      code := dec_enc _
      ent_length := rfl
      point_length := by simp [sec1]
      type := Or.inl rfl
      factor := by rw [unit_dsha _ (by simp)]; decide +kernel
      point := (fromBytes_iff _ _).mp (by rw [← raw_eq_sec1]; exact (C15_public_key_roundtrip pp hon "compressed").1) }
  exact ⟨_, (C90_create (unit_lawful 1) bitcoin_selects _ "wif" _ [] _ false _ _ pp hr rfl).1⟩

end Bip38.Props
