import Verif.Props.ConfirmExamples
/-!
# Property C34: the flag byte
-/
namespace Bip38.Props
open Bip38 Spec

variable {P : Prims} {obj : BIP38} {network : Option String} {c : Coin} {n : String} {v : Net}

/-- C34: the five tables of flags, for every byte.  Bits `0x80` and `0x40` both clear with bits `0x02`, `0x01` clear: EC multiplied;
both set: not EC multiplied (with bit `0x04` clear) or illegal (with bit `0x04` set).  Among the EC flags bit `0x20` says
compressed and bit `0x04` lot and sequence; among the others bit `0x20` says compressed. -/
theorem C34_tables (f : UInt8) :
    (f.toNat ∈ FLAGS_ec ↔ f &&& 0xc3 = 0) ∧
    (f.toNat ∈ FLAGS_non_ec ↔ f &&& 0xc7 = 0xc0) ∧
    (f.toNat ∈ FLAGS_illegal ↔ f &&& 0xc7 = 0xc4) ∧
    (f.toNat ∈ FLAGS_compression ↔ (f.toNat ∈ FLAGS_ec ∨ f.toNat ∈ FLAGS_non_ec) ∧ f &&& 0x20 ≠ 0) ∧
    (f.toNat ∈ FLAGS_lot_and_sequence ↔ f.toNat ∈ FLAGS_ec ∧ f &&& 0x04 ≠ 0) := by
  revert f
  exact forall_byte (by decide +kernel)

/-- C34: no flag is in two of the classes EC, not EC, illegal. -/
theorem C34_classes_disjoint (f : UInt8) :
    ¬ (f.toNat ∈ FLAGS_ec ∧ f.toNat ∈ FLAGS_non_ec) ∧ ¬ (f.toNat ∈ FLAGS_ec ∧ f.toNat ∈ FLAGS_illegal) ∧
    ¬ (f.toNat ∈ FLAGS_non_ec ∧ f.toNat ∈ FLAGS_illegal) := by
  revert f
  exact forall_byte (by decide +kernel)

theorem readings {f g : UInt8} (hl : f.toNat ∈ FLAGS_lot_and_sequence ↔ g.toNat ∈ FLAGS_lot_and_sequence)
    (hc : f.toNat ∈ FLAGS_compression ↔ g.toNat ∈ FLAGS_compression) :
    decide (hasLot f) = decide (hasLot g) ∧ ecType f = ecType g ∧ ∀ ent, lotSeq f ent = lotSeq g ent := by
  rw [lot_iff, lot_iff] at hl
  rw [compr_iff, compr_iff] at hc
  refine ⟨by simp [hl], by unfold ecType; simp only [hc], fun ent => by unfold lotSeq; simp only [hl]⟩

/-- C34, EC records: `decrypt` uses nothing of the flag but its membership in the two tables. -/
theorem C34_decrypt_flag (hP : P.Lawful) (hs : Selects obj network c n v) (e e' pass : Str) (detail : Bool) (f g : UInt8) (rest : Bytes)
    (hr : rest.length = 40) (he : b58decode e = .ok ([0x01, 0x43, f] ++ rest)) (he' : b58decode e' = .ok ([0x01, 0x43, g] ++ rest))
    (hl : f.toNat ∈ FLAGS_lot_and_sequence ↔ g.toNat ∈ FLAGS_lot_and_sequence)
    (hc : f.toNat ∈ FLAGS_compression ↔ g.toNat ∈ FLAGS_compression) :
    obj.decrypt P e pass network detail = obj.decrypt P e' pass network detail := by
  obtain ⟨h1, h2, h3⟩ := readings hl hc
  obtain ⟨hash, ent, h11, e2, chk, rfl, l1, l2, l3, l4, l5⟩ := split_ec rest hr
  rw [decrypt_ec hs e pass detail f _ hr he, decrypt_ec hs e' pass detail g _ hr he',
    decryptEc_eq hP hs pass detail f hash ent h11 e2 chk l1 l2 l3 l4 l5 _ rfl,
    decryptEc_eq hP hs pass detail g hash ent h11 e2 chk l1 l2 l3 l4 l5 _ rfl, h1, h2, h3]

/-- C34, confirmation codes: the same for `confirm_code`. -/
theorem C34_confirm_flag (hP : P.Lawful) (hs : Selects obj network c n v) (code code' pass : Str) (detail : Bool) (f g : UInt8) (rest : Bytes)
    (he : checkDecode P.sha256 code = .ok ([0x64, 0x3b, 0xf6, 0xa8, 0x9a, f] ++ rest))
    (he' : checkDecode P.sha256 code' = .ok ([0x64, 0x3b, 0xf6, 0xa8, 0x9a, g] ++ rest))
    (hl : f.toNat ∈ FLAGS_lot_and_sequence ↔ g.toNat ∈ FLAGS_lot_and_sequence)
    (hc : f.toNat ∈ FLAGS_compression ↔ g.toNat ∈ FLAGS_compression) :
    obj.confirmCode P pass code network detail = obj.confirmCode P pass code' network detail := by
  by_cases hr : rest.length = 45
  swap
  · have d1 := (checkDecode_iff hP _ _ _).mp he
    have d2 := (checkDecode_iff hP _ _ _).mp he'
    have aux : ∀ (t : Str) (k : UInt8), checkDecode P.sha256 t = .ok ([0x64, 0x3b, 0xf6, 0xa8, 0x9a, k] ++ rest) →
        obj.confirmCode P pass t network detail
          = .error ⟨.error, errText "Invalid confirmation code length" (.one true "102".toList) (toString (rest.length + 6))⟩ := by
      intro t k hk
      have hlen : ([0x64, 0x3b, 0xf6, 0xa8, 0x9a, k] ++ rest).length = rest.length + 6 := by simp
      unfold BIP38.confirmCode
      rw [hs.select]
      simp only
      rw [py_bind (not_raise (not_not.mpr hs.mem)), py_bind (show checkDecodeOr P t .error "Invalid confirmation code" = .ok _ by
        unfold checkDecodeOr; rw [hk]), hlen, py_bind_err (do_raise (by simp; omega))]
    rw [aux _ _ he, aux _ _ he']
  obtain ⟨h1, h2, h3⟩ := readings hl hc
  obtain ⟨hash, ent, x, c1, c2, rfl, l1, l2, l3, l4⟩ := split_confirm rest hr
  rw [confirm_eq hP hs pass code detail f hash ent x c1 c2 l1 l2 l3 l4 he _ rfl,
    confirm_eq hP hs pass code' detail g hash ent x c1 c2 l1 l2 l3 l4 he' _ rfl, h1, h2, h3]

/-- C34: how `decrypt` reads the flag of an EC record: the reported public key type is `compressed` exactly for the flags listed under
compression, and a lot and a sequence are reported exactly for those listed under lot and sequence. -/
theorem C34_decrypt_reading (hP : P.Lawful) (hs : Selects obj network c n v) (e pass : Str) (f : UInt8) (rest : Bytes)
    (hr : rest.length = 40) (he : b58decode e = .ok ([0x01, 0x43, f] ++ rest)) (d : DecryptDetail)
    (hd : obj.decrypt P e pass network true = .ok (.detail d)) :
    (d.publicKeyType = if f.toNat ∈ FLAGS_compression then "compressed" else "uncompressed") ∧
    (d.wifType = if f.toNat ∈ FLAGS_compression then "wif-compressed" else "wif") ∧
    (d.lot ≠ none ↔ f.toNat ∈ FLAGS_lot_and_sequence) ∧ (d.sequence ≠ none ↔ f.toNat ∈ FLAGS_lot_and_sequence) := by
  obtain ⟨hash, ent, h11, e2, chk, rfl, l1, l2, l3, l4, l5⟩ := split_ec rest hr
  obtain ⟨pf, pp, seed, key, pk, _, _, _, _, _, _, _, _, _, _, _, _, hall⟩ := ec_returns hP hs e pass true _ f hash ent h11 e2 chk l1 l2 l3 l4 l5 he hd
  rw [hall true] at hd
  have hd := Except.ok.inj hd
  simp only [present, if_true, DecryptOut.detail.injEq] at hd
  subst hd
  simp only [keyDetail, compr_iff, lot_iff, lotSeq, ecType]
  refine ⟨?_, trivial, ?_, ?_⟩
  · by_cases h : isCompressed f <;> simp [h, pubType]
  · by_cases h : hasLot f <;> simp [h]
  · by_cases h : hasLot f <;> simp [h]

/-- C34: the same for `confirm_code`. -/
theorem C34_confirm_reading (hP : P.Lawful) (hs : Selects obj network c n v) (code pass : Str) (f : UInt8) (rest : Bytes)
    (hr : rest.length = 45) (he : checkDecode P.sha256 code = .ok ([0x64, 0x3b, 0xf6, 0xa8, 0x9a, f] ++ rest)) (d : ConfirmDetail)
    (hd : obj.confirmCode P pass code network true = .ok (.detail d)) :
    (d.publicKeyType = if f.toNat ∈ FLAGS_compression then "compressed" else "uncompressed") ∧
    (d.lot ≠ none ↔ f.toNat ∈ FLAGS_lot_and_sequence) ∧ (d.sequence ≠ none ↔ f.toNat ∈ FLAGS_lot_and_sequence) := by
  obtain ⟨hash, ent, x, c1, c2, rfl, l1, l2, l3, l4⟩ := split_confirm rest hr
  obtain ⟨_, pp, q, pk, _, _, _, _, _, hout⟩ := (C35_iff hP hs pass code true f hash ent x c1 c2 l1 l2 l3 l4 he _ rfl _).mp hd
  simp only [presentAddress, if_true, ConfirmOut.detail.injEq] at hout
  subst hout
  simp only [confirmDict, compr_iff, lot_iff, lotSeq, ecType]
  refine ⟨?_, ?_, ?_⟩
  · by_cases h : isCompressed f <;> simp [h, pubType]
  · by_cases h : hasLot f <;> simp [h]
  · by_cases h : hasLot f <;> simp [h]

/-- C31: whenever `confirm_code` reports a lot and a sequence, they are the only pair with a sequence below 4096 that encodes the four
stored bytes, and they are reported exactly when the flag says so. -/
theorem C31_confirm_pair (hP : P.Lawful) (hs : Selects obj network c n v) (code pass : Str) (f : UInt8) (hash ent : Bytes) (x : UInt8)
    (c1 c2 : Bytes) (hh : hash.length = 4) (hent : ent.length = 8) (h1 : c1.length = 16) (h2 : c2.length = 16)
    (he : checkDecode P.sha256 code = .ok ([0x64, 0x3b, 0xf6, 0xa8, 0x9a, f] ++ (hash ++ ent ++ [x] ++ c1 ++ c2))) (d : ConfirmDetail)
    (hd : obj.confirmCode P pass code network true = .ok (.detail d)) :
    (hasLot f → ∃ l s : Nat, d.lot = some (l : Int) ∧ d.sequence = some (s : Int) ∧ s < 4096 ∧ l < 2 ^ 20
        ∧ ent.drop 4 = toBE 4 (l * 4096 + s)
        ∧ ∀ l' s' : Nat, s' < 4096 → l' < 2 ^ 20 → ent.drop 4 = toBE 4 (l' * 4096 + s') → l' = l ∧ s' = s) ∧
    (¬ hasLot f → d.lot = none ∧ d.sequence = none) := by
  obtain ⟨_, pp, q, pk, _, _, _, _, _, hout⟩ := (C35_iff hP hs pass code true f hash ent x c1 c2 hh hent h1 h2 he _ rfl _).mp hd
  simp only [presentAddress, if_true, ConfirmOut.detail.injEq] at hout
  subst hout
  have hlt : be (ent.drop 4) < 256 ^ 4 := by
    have := be_lt (ent.drop 4); rwa [List.length_drop, hent] at this
  refine ⟨fun hf => ?_, fun hf => ?_⟩
  · refine ⟨be (ent.drop 4) / 4096, be (ent.drop 4) % 4096, ?_, ?_, by omega, by omega, ?_, ?_⟩
    · simp [confirmDict, lotSeq, hf]
    · simp [confirmDict, lotSeq, hf]
    · rw [show be (ent.drop 4) / 4096 * 4096 + be (ent.drop 4) % 4096 = be (ent.drop 4) by omega, be_eq, toBE_fromBE' _ (by simp [hent])]
    · intro l' s' h h' heq
      have : be (ent.drop 4) = l' * 4096 + s' := by rw [heq, be_toBE]; norm_num; omega
      omega
  · simp [confirmDict, lotSeq, hf]

/-- C34: the flag `encrypt` writes is the third byte of the record; it is legal, not an EC flag, and listed under compression exactly for
a compressed WIF. -/
theorem C34_encrypt_flag (hP : P.Lawful) (hs : Selects obj network c n v) (w pass e : Str) (h : obj.encrypt P w pass network = .ok e) :
    ∃ f rest type, b58decode e = .ok ([0x01, 0x42, f] ++ rest) ∧ getWifType w c n = .ok type ∧ f.toNat ∈ FLAGS_non_ec
      ∧ f.toNat ∉ FLAGS_illegal ∧ (f.toNat ∈ FLAGS_compression ↔ type = "wif-compressed") ∧ f.toNat ∉ FLAGS_lot_and_sequence := by
  obtain ⟨key, type, pk, hash, dk, c1, c2, _, ht, _, _, _, _, _, _, _, he, _⟩ := C19_record hP hs w pass e h
  obtain ⟨_, type', _, ht', _, hty⟩ := encrypt_reads hs w pass e h
  have := Except.ok.inj (ht.symm.trans ht')
  subst this
  refine ⟨if type = "wif" then 0xc0 else 0xe0,
    hash ++ (c1 ++ (c2 ++ checksum P ([0x01, 0x42, if type = "wif" then 0xc0 else 0xe0] ++ hash ++ c1 ++ c2))), type, ?_, ht, ?_⟩
  · rw [he]; simp only [List.cons_append, List.append_assoc, List.nil_append]
  · rcases hty with rfl | rfl <;> decide +kernel

/-- C34: the flag `create_new_encrypted_wif` writes, into both codes; it is a legal EC flag, listed under compression exactly when a
compressed WIF was asked for and under lot and sequence exactly when the intermediate code has the magic for them. -/
theorem C34_create_flag (hP : P.Lawful) (hs : Selects obj network c n v) (it : Str) (type : String) (seed : Data) (u : Bytes) (r : Created)
    (h : obj.createNewEncryptedWif P it type seed network u = .ok r) :
    ∃ f lot raw rest rest', checkDecode P.sha256 it = .ok (magicBytes lot ++ raw)
      ∧ checkDecode P.sha256 r.encryptedWif = .ok ([0x01, 0x43, f] ++ rest)
      ∧ checkDecode P.sha256 r.confirmationCode = .ok ([0x64, 0x3b, 0xf6, 0xa8, 0x9a, f] ++ rest')
      ∧ f.toNat ∈ FLAGS_ec ∧ f.toNat ∉ FLAGS_illegal
      ∧ (f.toNat ∈ FLAGS_compression ↔ type = "wif-compressed") ∧ (f.toNat ∈ FLAGS_lot_and_sequence ↔ lot = true) := by
  obtain ⟨seedB, lot, ent, pp, q, pk, pb, hr, _, _, hb, hres⟩ := C33_returns hP hs it type seed u r h
  obtain ⟨hash, hhash⟩ : ∃ x, addressHash P v pk (pubType type) = x := ⟨_, rfl⟩
  obtain ⟨dk, hdk⟩ : ∃ x, ecDerive P pp hash ent = x := ⟨_, rfl⟩
  simp only [createdDict, hhash, hdk] at hres
  refine ⟨ecFlag lot type, lot, ent ++ pp, hash ++ (ent ++ ((ecBlock1 P dk seedB).take 8 ++ ecBlock2 P dk seedB)),
    hash ++ (ent ++ ([(sec1 pb "compressed").headD 0 ^^^ (dk.getD 63 0 &&& 1)]
      ++ (P.aesEncrypt (dk.drop 32) (mask (((sec1 pb "compressed").drop 1).take 16) (dk.take 16))
      ++ P.aesEncrypt (dk.drop 32) (mask ((sec1 pb "compressed").drop 17) ((dk.take 32).drop 16))))), ?_, ?_, ?_, ?_⟩
  · rw [(checkDecode_iff hP _ _ _).mpr hr.code]; simp
  · rw [hres]; refine ((checkDecode_iff hP _ _ _).mpr (dec_enc _)).trans ?_
    simp only [ecRecord, List.cons_append, List.append_assoc, List.nil_append]
  · rw [hres]; refine ((checkDecode_iff hP _ _ _).mpr (dec_enc _)).trans ?_
    simp only [confirmRecord, List.cons_append, List.append_assoc, List.nil_append]
  · rcases hr.type with rfl | rfl <;> cases lot <;> decide +kernel

/-- C34: EC records and confirmation codes with a flag outside all tables (the illegal ones included) are treated as if the flag
were 0. -/
theorem C34_unknown_flag (hP : P.Lawful) (hs : Selects obj network c n v) (e e' pass : Str) (detail : Bool) (f : UInt8) (rest : Bytes)
    (hr : rest.length = 40) (he : b58decode e = .ok ([0x01, 0x43, f] ++ rest)) (he' : b58decode e' = .ok ([0x01, 0x43, 0] ++ rest))
    (hf : f.toNat ∉ FLAGS_ec ∧ f.toNat ∉ FLAGS_non_ec) :
    obj.decrypt P e pass network detail = obj.decrypt P e' pass network detail := by
  have ht := (C34_tables f).2.2.2
  refine C34_decrypt_flag hP hs e e' pass detail f 0 rest hr he he' ?_ ?_
  · rw [ht.2]; simp [hf.1, FLAGS_lot_and_sequence, MAGIC_LOT_AND_SEQUENCE_UNCOMPRESSED_FLAG, MAGIC_LOT_AND_SEQUENCE_COMPRESSED_FLAG]
  · rw [ht.1]
    simp [hf.1, hf.2, FLAGS_compression, MAGIC_NO_LOT_AND_SEQUENCE_COMPRESSED_FLAG, MAGIC_LOT_AND_SEQUENCE_COMPRESSED_FLAG]

/-- C34: "a record with an illegal flag is refused" is false of the code. -/
theorem C34_illegal_refuted : ¬ ∀ (P : Prims), P.Lawful → ∀ (e pass : Str) (f : UInt8) (rest : Bytes),
    b58decode e = .ok ([0x01, 0x43, f] ++ rest) → f.toNat ∈ FLAGS_illegal →
    ∃ x, bitcoinObject.decrypt P e pass none = .error x := by
  intro hall
  obtain ⟨it, r, h1, h2⟩ := unit_create [] none none (List.replicate 8 5) (List.replicate 24 9) noLot8 rfl (by decide) (by decide +kernel)
  obtain ⟨d, h3, h4⟩ := (unit_decrypt [] it _ _ _ _ (by decide) (by decide) r h1 h2).mp (by unfold Recoverable; decide +kernel)
  obtain ⟨f, lot, raw, rest, _, _, hdec, _, _, _, hcm, _⟩ := C34_create_flag (unit_lawful 1) bitcoin_selects it _ _ _ r h2
  have hdec := (checkDecode_iff (unit_lawful 1) _ _ _).mp hdec
  obtain ⟨rec, _, _, _, he, hl, _⟩ := C20_C21_returned_key (unit_lawful 1) bitcoin_selects r.encryptedWif [] true _ h3
  have := Except.ok.inj (hdec.symm.trans he)
  subst this
  rw [List.append_assoc] at hdec
  have hr : (rest ++ checksum (unit 1) ([0x01, 0x43, f] ++ rest)).length = 40 := by simp at hl ⊢; omega
  obtain ⟨rest', hrest'⟩ : ∃ x, rest ++ checksum (unit 1) ([0x01, 0x43, f] ++ rest) = x := ⟨_, rfl⟩
  rw [hrest'] at hdec hr
  have hread := C34_decrypt_reading (unit_lawful 1) bitcoin_selects _ [] f rest' hr hdec d h3
  have hlot : f.toNat ∉ FLAGS_lot_and_sequence := by
    rw [← hread.2.2.1, ((C31_lot_sequence (unit_lawful 1) bitcoin_selects [] _ _ _ _ it h1 _ _ _ r h2 d h3).2 rfl).1]
    simp
  have hcomp : f.toNat ∉ FLAGS_compression := by rw [hcm]; decide
  have hsame := C34_decrypt_flag (unit_lawful 1) bitcoin_selects (b58encode ([0x01, 0x43, 0xc4] ++ rest')) r.encryptedWif [] true 0xc4 f rest' hr
    (C01_decode_encode_bitcoin _) hdec (iff_of_false (by decide) hlot) (iff_of_false (by decide) hcomp)
  obtain ⟨x, hx⟩ := hall (unit 1) (unit_lawful 1) _ [] 0xc4 rest' (C01_decode_encode_bitcoin _) (by decide)
  rw [h3] at hsame
  obtain ⟨_, _, _, d', _, _, _, _, _, _, hw⟩ := C20_C21_returned_key (unit_lawful 1) bitcoin_selects _ [] true _ hsame
  exact absurd (hx.symm.trans hw) (by simp)

end Bip38.Props
