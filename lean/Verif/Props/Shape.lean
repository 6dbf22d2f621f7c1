import Verif.Lemmas.Shape
import Verif.Props.EcExamples
/-!
# Property C11: recognisable text shape of every produced code
-/
namespace Bip38.Props
open Bip38 Spec

variable {P : Prims} {obj : BIP38} {network : Option String} {c : Coin} {n : String} {v : Net}

/-- The text has the given length and starts with the given characters. -/
def Looks (s : Str) (start : String) (length : Nat) : Prop := s.length = length ∧ start.toList <+: s

theorem looks (pre rest : Bytes) (m : Nat) (hm : rest.length = m) (T k : Nat) (h0 : pre.head? ≠ some 0) (hne : pre ≠ []) (hT : 0 < T)
    (h1 : T * 58 ^ k ≤ fromBE pre * 256 ^ m) (h2 : (fromBE pre + 1) * 256 ^ m ≤ (T + 1) * 58 ^ k)
    (start : String) (hs : (beDigits 58 T).map (bitcoinAlphabet.getD · '?') = start.toList) (len : Nat) (hl : len = start.toList.length + k) :
    Looks (b58encode (pre ++ rest)) start len := by
  obtain ⟨tail, ht, he⟩ := shape pre rest m hm T k h0 hne hT h1 h2 _ hs
  rw [he]
  exact ⟨by rw [List.length_append, ht, hl], ⟨tail, rfl⟩⟩

/-- C11: every string returned by `encrypt` has 58 characters and starts with `6PR` (uncompressed) or `6PY` (compressed). -/
theorem C11_encrypt (hP : P.Lawful) (hs : Selects obj network c n v) (w pass e : Str) (h : obj.encrypt P w pass network = .ok e) :
    (getWifType w c n = .ok "wif" ∧ Looks e "6PR" 58) ∨ (getWifType w c n = .ok "wif-compressed" ∧ Looks e "6PY" 58) := by
  obtain ⟨key, type, hw, ht, hk, hty⟩ := encrypt_reads hs w pass e h
  obtain ⟨pk, hpk, _, _⟩ := priv_ok key hk
  rw [encrypt_eq hP hs w pass key type hw ht hk hty pk hpk] at h
  split at h
  swap
  · simp at h
  have he := (Except.ok.inj h).symm
  have hhl := addressHash_length hP v pk (pubType type)
  obtain ⟨hash, hhash⟩ : ∃ x, addressHash P v pk (pubType type) = x := ⟨_, rfl⟩
  rw [hhash] at hhl
  have hdl : (stretch P pass hash 64).length = 64 := stretch_length hP _ _ _
  obtain ⟨dk, hdk⟩ : ∃ x, stretch P pass hash 64 = x := ⟨_, rfl⟩
  rw [hdk] at hdl
  simp only [hhash, hdk] at he
  have hkk : (dk.drop 32).length = 32 := by simp [hdl]
  have l1 := hP.aesEncrypt_length _ _ hkk (show (noEcPlain1 dk key).length = 16 by simp [noEcPlain1, hk.1, hdl])
  have l2 := hP.aesEncrypt_length _ _ hkk (show (noEcPlain2 dk key).length = 16 by simp [noEcPlain2, hk.1, hdl])
  have hcl := checksum_length hP (noEcRecord P type hash dk key)
  obtain ⟨chk, hchk⟩ : ∃ x, checksum P (noEcRecord P type hash dk key) = x := ⟨_, rfl⟩
  rw [hchk] at he hcl
  have hform : noEcRecord P type hash dk key ++ chk = [0x01, 0x42, noEcFlag type] ++ (hash ++ P.aesEncrypt (dk.drop 32) (noEcPlain1 dk key)
    ++ P.aesEncrypt (dk.drop 32) (noEcPlain2 dk key) ++ chk) := by simp [noEcRecord]
  rw [hform] at he
  have hm : (hash ++ P.aesEncrypt (dk.drop 32) (noEcPlain1 dk key) ++ P.aesEncrypt (dk.drop 32) (noEcPlain2 dk key) ++ chk).length = 40 := by
    simp [hhl, l1, l2, hcl]
  rw [he]
  rcases hty with rfl | rfl
  · exact Or.inl ⟨ht, looks _ _ 40 hm 18120 55 (by decide) (by simp) (by decide) (by decide +kernel) (by decide +kernel) "6PR" (by decide +kernel) 58 (by decide)⟩
  · exact Or.inr ⟨ht, looks _ _ 40 hm 18127 55 (by decide) (by simp) (by decide) (by decide +kernel) (by decide +kernel) "6PY" (by decide +kernel) 58 (by decide)⟩

/-- The first three characters of an EC encrypted key. -/
def ecStart (lot : Bool) (type : String) : String :=
  match lot, decide (type = "wif") with
  | false, true => "6Pf"
  | true, true => "6Pg"
  | false, false => "6Pn"
  | true, false => "6Po"

/-- C11: whenever `create_new_encrypted_wif` returns, the encrypted key has 58 characters and starts with `6Pf`, `6Pg`, `6Pn` or `6Po`
according to compression and lot/sequence (which the intermediate code tells by its magic), and the confirmation code has 75
characters and starts with `cfrm38V`. -/
theorem C11_create (hP : P.Lawful) (hs : Selects obj network c n v) (it : Str) (type : String) (seed : Data) (u : Bytes) (r : Created)
    (h : obj.createNewEncryptedWif P it type seed network u = .ok r) :
    ∃ lot raw, checkDecode P.sha256 it = .ok (magicBytes lot ++ raw) ∧
      Looks r.encryptedWif (ecStart lot type) 58 ∧ Looks r.confirmationCode "cfrm38V" 75 := by
  obtain ⟨seedB, lot, ent, pp, q, pk, pb, hr, _, _, hb, hres⟩ := C33_returns hP hs it type seed u r h
  refine ⟨lot, ent ++ pp, ?_, ?_⟩
  · rw [(checkDecode_iff hP _ _ _).mpr hr.code]; simp
  have hhl := addressHash_length hP v pk (pubType type)
  obtain ⟨hash, hhash⟩ : ∃ x, addressHash P v pk (pubType type) = x := ⟨_, rfl⟩
  rw [hhash] at hhl
  have hdl := ecDerive_length hP pp hash ent
  obtain ⟨dk, hdk⟩ : ∃ x, ecDerive P pp hash ent = x := ⟨_, rfl⟩
  rw [hdk] at hdl
  simp only [createdDict, hhash, hdk] at hres
  have l1 := ecBlock1_length hP hdl (seed := seedB)
  have l2 := ecBlock2_length hP hdl (seed := seedB)
  have hkk : (dk.drop 32).length = 32 := by simp [hdl]
  have lc1 := hP.aesEncrypt_length (dk.drop 32) (mask (((sec1 pb "compressed").drop 1).take 16) (dk.take 16)) hkk (mask_length _ _)
  have lc2 := hP.aesEncrypt_length (dk.drop 32) (mask ((sec1 pb "compressed").drop 17) ((dk.take 32).drop 16)) hkk (mask_length _ _)
  have hent := hr.ent_length
  have hc1 := checksum_length hP (ecRecord P (ecFlag lot type) hash ent dk seedB)
  have hc2 := checksum_length hP (confirmRecord P (ecFlag lot type) hash ent dk (sec1 pb "compressed"))
  rw [hres]
  simp only [checkText]
  constructor
  · generalize checksum P (ecRecord P (ecFlag lot type) hash ent dk seedB) = chk at hc1
    have hform : ecRecord P (ecFlag lot type) hash ent dk seedB ++ chk = [0x01, 0x43, ecFlag lot type] ++
      (hash ++ ent ++ (ecBlock1 P dk seedB).take 8 ++ ecBlock2 P dk seedB ++ chk) := by simp [ecRecord]
    have hm : (hash ++ ent ++ (ecBlock1 P dk seedB).take 8 ++ ecBlock2 P dk seedB ++ chk).length = 40 := by
      simp [hhl, hent, l1, l2, hc1]
    rw [hform]
    rcases hr.type with ht | ht <;> subst ht <;> cases lot
    · exact looks _ _ 40 hm 18134 55 (by decide) (by simp) (by decide) (by decide +kernel) (by decide +kernel) _ (by decide +kernel) 58 (by decide)
    · exact looks _ _ 40 hm 18135 55 (by decide) (by simp) (by decide) (by decide +kernel) (by decide +kernel) _ (by decide +kernel) 58 (by decide)
    · exact looks _ _ 40 hm 18141 55 (by decide) (by simp) (by decide) (by decide +kernel) (by decide +kernel) _ (by decide +kernel) 58 (by decide)
    · exact looks _ _ 40 hm 18142 55 (by decide) (by simp) (by decide) (by decide +kernel) (by decide +kernel) _ (by decide +kernel) 58 (by decide)
  · generalize checksum P (confirmRecord P (ecFlag lot type) hash ent dk (sec1 pb "compressed")) = chk at hc2
    generalize hC1 : P.aesEncrypt (dk.drop 32) (mask (((sec1 pb "compressed").drop 1).take 16) (dk.take 16)) = C1 at lc1
    generalize hC2 : P.aesEncrypt (dk.drop 32) (mask ((sec1 pb "compressed").drop 17) ((dk.take 32).drop 16)) = C2 at lc2
    have hform : confirmRecord P (ecFlag lot type) hash ent dk (sec1 pb "compressed") ++ chk = [0x64, 0x3b, 0xf6, 0xa8, 0x9a, ecFlag lot type] ++
      (hash ++ ent ++ [(sec1 pb "compressed").headD 0 ^^^ (dk.getD 63 0 &&& 1)] ++ C1 ++ C2 ++ chk) := by
      unfold confirmRecord; rw [hC1, hC2]; simp
    have hm : (hash ++ ent ++ [(sec1 pb "compressed").headD 0 ^^^ (dk.getD 63 0 &&& 1)] ++ C1 ++ C2 ++ chk).length = 49 := by
      simp [hhl, hent, lc1, lc2, hc2]
    rw [hform]
    rcases hr.type with ht | ht <;> subst ht <;> cases lot
    all_goals
      exact looks _ _ 49 hm 1357908896618 68 (by decide) (by simp) (by decide) (by decide +kernel) (by decide +kernel) _ (by decide +kernel) 75 (by decide)

/-- C11: every code of `intermediate_code` with an owner entropy of 8 bytes (that is, unless the salt has 4 bytes and the lot or the
sequence is 0) has 72 characters and starts with `passphrase`. -/
theorem C11_intermediate (hP : P.Lawful) (pass : Str) (lot sequence : Option Int) (d : Data) (u salt : Bytes) (code : Str)
    (hd : Supplies d u salt) (h : intermediateCode P pass lot sequence d u = .ok code)
    (h8 : salt.length = 8 ∨ usesLot lot sequence = true) : Looks code "passphrase" 72 := by
  obtain ⟨ha, hk⟩ := (C26_validation pass lot sequence d u salt hd).2.1.mp ⟨code, h⟩
  obtain ⟨pp, hpp, _, _⟩ := priv_ok _ hk
  have hcode := Except.ok.inj (h.symm.trans ((intermediate_eq pass lot sequence d u salt hd _ rfl).2.2 ha pp hk hpp))
  have hent : (ownerEntropy lot sequence salt).length = 8 := by
    unfold ownerEntropy
    split
    · rename_i hu
      obtain ⟨hl, _⟩ := accepted_lot ha hu
      simp [lotEntropy]; omega
    · rename_i hu
      exact h8.resolve_right hu
  rw [hcode, checkText]
  have hcl := checksum_length hP (intermediateRecord (usesLot lot sequence) (ownerEntropy lot sequence salt) pp)
  generalize checksum P (intermediateRecord (usesLot lot sequence) (ownerEntropy lot sequence salt) pp) = chk at hcl
  unfold intermediateRecord
  rw [List.append_assoc, List.append_assoc]
  have hm : (ownerEntropy lot sequence salt ++ (sec1 pp "compressed" ++ chk)).length = 45 := by simp [hent, hcl, sec1]
  cases usesLot lot sequence
  all_goals
    exact looks _ _ 45 hm 353438376414113317 62 (by decide) (by simp [magicBytes]) (by decide) (by decide +kernel) (by decide +kernel) _ (by decide +kernel) 72 (by decide)

/-- C11: on networks with the WIF prefix `80` (Bitcoin's main network) a WIF has 51 characters and starts with `5`; a compressed WIF
has 52 characters and starts with `K` or `L`. -/
theorem C11_wif (hP : P.Lawful) (c : Coin) (n : String) (v : Net) (hn : c.net? n = some v) (hv : v.wifPrefix = 0x80)
    (key : Bytes) (hk : key.length = 32) (w : Str) :
    (privateKeyToWif P (.bytes key) "wif" c n = .ok w → Looks w "5" 51) ∧
    (privateKeyToWif P (.bytes key) "wif-compressed" c n = .ok w → Looks w "K" 52 ∨ Looks w "L" 52) := by
  constructor
  · intro h
    rw [C07_wif_text P c n v hn key hk "wif" (Or.inl rfl)] at h
    rw [← Except.ok.inj h]
    have hcl := checksum_length hP (wifPayload v.wifPrefix key "wif")
    generalize checksum P (wifPayload v.wifPrefix key "wif") = chk at hcl
    rw [hv, wifPayload, prefixBytes_byte 0x80 (by omega), List.append_assoc, List.append_assoc]
    exact looks _ _ 36 (by simp [hk, hcl]) 4 50 (by decide) (by simp) (by decide) (by decide +kernel) (by decide +kernel) _ (by decide +kernel) 51 (by decide)
  · intro h
    rw [C07_wif_text P c n v hn key hk "wif-compressed" (Or.inr rfl)] at h
    rw [← Except.ok.inj h]
    have hcl := checksum_length hP (wifPayload v.wifPrefix key "wif-compressed")
    generalize checksum P (wifPayload v.wifPrefix key "wif-compressed") = chk at hcl
    rw [hv, wifPayload, prefixBytes_byte 0x80 (by omega), List.append_assoc, List.append_assoc]
    have hm : (key ++ ((if "wif-compressed" = "wif-compressed" then [1] else []) ++ chk)).length = 37 := by simp [hk, hcl]
    generalize (key ++ ((if "wif-compressed" = "wif-compressed" then [1] else []) ++ chk)) = rest at hm
    have hlt := fromBE_lt rest
    rw [hm] at hlt
    have hv : fromBE ([UInt8.ofNat 0x80] ++ rest) = 128 * 256 ^ 37 + fromBE rest := by
      rw [fromBE_append, hm]; congr 1
    have hrange : fromBE ([UInt8.ofNat 0x80] ++ rest) / 58 ^ 51 = 18 ∨ fromBE ([UInt8.ofNat 0x80] ++ rest) / 58 ^ 51 = 19 := by
      rw [hv]; norm_num at hlt ⊢; omega
    rcases hrange with hr | hr
    · left
      obtain ⟨tail, ht, he⟩ := shape_div _ 18 51 (by simp) (by simp) (by decide) hr
      rw [he]
      exact ⟨by rw [List.length_append, ht]; decide +kernel, ⟨tail, by congr 1⟩⟩
    · right
      obtain ⟨tail, ht, he⟩ := shape_div _ 19 51 (by simp) (by simp) (by decide) hr
      rw [he]
      exact ⟨by rw [List.length_append, ht]; decide +kernel, ⟨tail, by congr 1⟩⟩

/-- C11: on networks with the address prefix 0 (Bitcoin's main network) every address starts with `1`. -/
theorem C11_address (v : Net) (hv : v.addressPrefix = 0) (pk : PublicKey) (type : String) : "1".toList <+: addressText P v pk type := by
  unfold addressText addressPayload
  rw [hv, prefixBytes_byte 0 (by omega)]
  rw [b58encode_eq bitcoinAlphabet (by decide)]
  have : leadingZeros ([UInt8.ofNat 0] ++ h160 P (sec1 pk type) ++ checksum P ([UInt8.ofNat 0] ++ h160 P (sec1 pk type))) =
      (((h160 P (sec1 pk type) ++ checksum P ([UInt8.ofNat 0] ++ h160 P (sec1 pk type))).takeWhile (· == 0)).length) + 1 := by
    rw [leadingZeros_eq]; simp
  rw [this, List.replicate_succ]
  exact ⟨_, rfl⟩

/-- A case of C11: the codes of one creation. -/
example : ∃ it r, Looks it "passphrase" 72 ∧ Looks r.encryptedWif "6Pg" 58 ∧ Looks r.confirmationCode "cfrm38V" 75 ∧
    intermediateCode (unit 1) [] (some 100001) (some 7) (.bytes (List.replicate 4 5)) [] = .ok it ∧
    bitcoinObject.createNewEncryptedWif (unit 1) it "wif" (.bytes (List.replicate 24 9)) none [] = .ok r := by
  obtain ⟨it, r, h1, h2⟩ := unit_create [] (some 100001) (some 7) (List.replicate 4 5) (List.replicate 24 9)
    (Or.inr ⟨Or.inl rfl, 100001, 7, rfl, rfl, by omega⟩) (by decide +kernel) (by decide) (by decide +kernel)
  obtain ⟨lot, raw, h3, h4, h5⟩ := C11_create (unit_lawful 1) bitcoin_selects it "wif" _ _ r h2
  obtain ⟨salt, ent, pf, pp, _, _, _, _, _, h6⟩ := C28_layout (unit_lawful 1) _ _ _ _ _ it h1
  have hl : lot = true := by
    have := Except.ok.inj (h3.symm.trans h6)
    rw [List.append_assoc] at this
    have := (List.append_inj this (by cases lot <;> rfl)).1
    revert this
    cases lot <;> decide +kernel
  subst hl
  exact ⟨it, r, C11_intermediate (unit_lawful 1) [] _ _ _ [] _ it (supplies rfl) h1 (Or.inr (by decide +kernel)), h4, h5, h1, h2⟩

end Bip38.Props
