import Verif.Props.Outcome
import Verif.Props.Outcome2
/-!
# Properties C69, C70: every outcome of `intermediate_code`; texts of errors hold no secrets
-/
namespace Bip38.Props
open Bip38 Spec

variable {P : Prims} {obj : BIP38} {network : Option String} {c : Coin} {n : String} {v : Net}

/-! ## C69 -/

/-- An optional number in a text. -/
def numberText : Option Int → String
  | none => "None"
  | some n => toString n

/-- C69: what `intermediate_code` does for every salt, lot and sequence, in the order of the checks. -/
theorem C69_intermediate (pass : Str) (lot sequence : Option Int) (d : Data) (u salt : Bytes) (hd : Supplies d u salt) (pf : Bytes)
    (hpf : pf = passFactor P (usesLot lot sequence) pass (ownerEntropy lot sequence salt)) :
    (salt.length ≠ 4 → salt.length ≠ 8 → intermediateCode P pass lot sequence d u
      = .error ⟨.error, report "Invalid owner salt length" "'8', '16'" (toString (2 * salt.length))⟩) ∧
    (salt.length = 4 → lot = none ∨ sequence = none → intermediateCode P pass lot sequence d u
      = .error ⟨.error, report "Invalid owner salt length for non lot/sequence" "16" "8"⟩) ∧
    (salt.length = 8 → (∃ l, l ≠ 0 ∧ lot = some l ∧ sequence = none) ∨ (∃ s, s ≠ 0 ∧ lot = none ∧ sequence = some s) →
      intermediateCode P pass lot sequence d u = .error ⟨.error,
        "Both lot & sequence are required got: (lot " ++ numberText lot ++ ") & (sequence " ++ numberText sequence ++ ")"⟩) ∧
    (salt.length = 4 ∨ salt.length = 8 → ∀ l s, lot = some l → sequence = some s → l ≠ 0 → s ≠ 0 →
      (¬ (100000 ≤ l ∧ l ≤ 999999) → intermediateCode P pass lot sequence d u
        = .error ⟨.error, report "Invalid lot" "100000 <= lot <= 999999" (toString l)⟩) ∧
      (100000 ≤ l ∧ l ≤ 999999 → ¬ (0 ≤ s ∧ s ≤ 4095) → intermediateCode P pass lot sequence d u
        = .error ⟨.error, report "Invalid sequence" "0 <= sequence <= 4095" (toString s)⟩)) ∧
    (Accepted lot sequence salt.length →
      (¬ IsPrivateKey pf → intermediateCode P pass lot sequence d u = .error ⟨.secp256k1Error, "Invalid private key bytes"⟩) ∧
      (IsPrivateKey pf → ∀ pp, IsPublicKeyOf pp pf → intermediateCode P pass lot sequence d u
        = .ok (checkText P (intermediateRecord (usesLot lot sequence) (ownerEntropy lot sequence salt) pp)))) := by
  have hnum : ∀ x, pyInt x = numberText x := by rintro (_ | n) <;> rfl
  have h48 : errText "Invalid owner salt length" (.list ["8".toList, "16".toList]) (toString (hexText salt).length)
      = report "Invalid owner salt length" "'8', '16'" (toString (2 * salt.length)) := by
    rw [errText_two, hexText_eq, hex_length]
    rfl
  have h16 : errText "Invalid owner salt length for non lot/sequence" (.one true "16".toList) (toString (hexText salt).length)
      = report "Invalid owner salt length for non lot/sequence" "16" (toString (2 * salt.length)) := by
    rw [errText_one, hexText_eq, hex_length]
  refine ⟨fun n4 n8 => ?_, fun h4 hn => ?_, fun h8 hn => ?_, fun hl l s el es nl ns => ?_, fun ha => ⟨fun hk => ?_, fun hk pp hpp => ?_⟩⟩
  · unfold intermediateCode
    rw [py_bind hd.ok, py_bind_err (do_raise (by simp [n4, n8])), h48]
  · unfold intermediateCode
    rw [py_bind hd.ok, py_bind (not_raise (by simp [h4])), py_bind_err (do_raise ⟨h4, hn⟩), h16, h4]
    rfl
  · unfold intermediateCode
    have hc : (truthyInt lot = true ∧ sequence = none) ∨ (lot = none ∧ truthyInt sequence = true) := by
      rcases hn with ⟨l, nl, rfl, rfl⟩ | ⟨s, ns, rfl, rfl⟩
      · exact Or.inl ⟨by simp [truthyInt, nl], rfl⟩
      · exact Or.inr ⟨rfl, by simp [truthyInt, ns]⟩
    rw [py_bind hd.ok, py_bind (not_raise (by simp [h8])), py_bind (not_raise (by simp [h8])), py_bind_err (do_raise hc),
      errText_detail _ _ _ (by
        intro h
        have := congrArg String.length h
        simp [String.length_append] at this), hnum, hnum]
    congr 2
  · subst el es
    have t : truthyInt (some l) = true ∧ truthyInt (some s) = true := by simp [truthyInt, nl, ns]
    have hcall : ∀ m, lotFactor P pass l s salt = .error m → intermediateCode P pass (some l) (some s) d u = .error m := by
      intro m hm
      unfold intermediateCode
      rw [py_bind hd.ok, py_bind (not_raise (by rcases hl with h | h <;> simp [h])), py_bind (not_raise (by simp)),
        py_bind (not_raise (by simp)), if_pos t]
      simp only [Option.getD_some]
      rw [py_bind_err hm]
    refine ⟨fun hbad => hcall _ ?_, fun hok hbad => hcall _ ?_⟩
    · unfold lotFactor
      rw [py_bind_err (do_raise hbad), errText_one]
    · unfold lotFactor
      rw [py_bind (not_raise (not_not.mpr hok)), py_bind_err (do_raise hbad), errText_one]
  · exact (intermediate_eq pass lot sequence d u salt hd pf hpf).2.1 ha hk
  · exact (intermediate_eq pass lot sequence d u salt hd pf hpf).2.2 ha pp hk hpp

/-- C69: the cases of `C69_intermediate` are complete. -/
theorem C69_complete (lot sequence : Option Int) (len : Nat) :
    (len ≠ 4 ∧ len ≠ 8) ∨ (len = 4 ∧ (lot = none ∨ sequence = none)) ∨
    (len = 8 ∧ ((∃ l, l ≠ 0 ∧ lot = some l ∧ sequence = none) ∨ (∃ s, s ≠ 0 ∧ lot = none ∧ sequence = some s))) ∨
    ((len = 4 ∨ len = 8) ∧ ∃ l s, lot = some l ∧ sequence = some s ∧ l ≠ 0 ∧ s ≠ 0 ∧
      (¬ (100000 ≤ l ∧ l ≤ 999999) ∨ ((100000 ≤ l ∧ l ≤ 999999) ∧ ¬ (0 ≤ s ∧ s ≤ 4095)))) ∨
    Accepted lot sequence len := by
  unfold Accepted
  by_cases h4 : len = 4
  · subst h4
    rcases lot with _ | l
    · simp
    · rcases sequence with _ | s
      · simp
      · by_cases hl : l = 0
        · simp [hl]
        · by_cases hs : s = 0
          · simp [hs]
          · simp [hl, hs]
            omega
  · by_cases h8 : len = 8
    · subst h8
      rcases lot with _ | l <;> rcases sequence with _ | s
      · simp
      · by_cases hs : s = 0 <;> simp [hs]
      · by_cases hl : l = 0 <;> simp [hl]
      · by_cases hl : l = 0
        · simp [hl]
        · by_cases hs : s = 0
          · simp [hs]
          · simp [hl, hs]
            omega
    · exact Or.inl ⟨h4, h8⟩

/-- Cases of C69: a salt of 5 bytes, of 4 bytes without numbers, a lot alone, a lot and a sequence out of range. -/
example :
    intermediateCode (toy 1 1) [] none none (.bytes [1, 2, 3, 4, 5]) []
      = .error ⟨.error, "Invalid owner salt length, (expected: '8', '16' | got: '10')"⟩
    ∧ intermediateCode (toy 1 1) [] (some 100000) none (.bytes [1, 2, 3, 4]) []
      = .error ⟨.error, "Invalid owner salt length for non lot/sequence, (expected: 16 | got: '8')"⟩
    ∧ intermediateCode (toy 1 1) [] (some 100000) none (.bytes [1, 2, 3, 4, 5, 6, 7, 8]) []
      = .error ⟨.error, "Both lot & sequence are required got: (lot 100000) & (sequence None)"⟩
    ∧ intermediateCode (toy 1 1) [] (some (-1)) (some 1) (.bytes [1, 2, 3, 4]) []
      = .error ⟨.error, "Invalid lot, (expected: 100000 <= lot <= 999999 | got: '-1')"⟩
    ∧ intermediateCode (toy 1 1) [] (some 100000) (some 4096) (.bytes [1, 2, 3, 4]) []
      = .error ⟨.error, "Invalid sequence, (expected: 0 <= sequence <= 4095 | got: '4096')"⟩ := by
  have h := fun lot seq salt (hd : Supplies (.bytes salt) [] salt) => C69_intermediate (P := toy 1 1) [] lot seq (.bytes salt) [] salt hd _ rfl
  refine ⟨((h none none [1, 2, 3, 4, 5] (supplies rfl)).1 (by decide) (by decide)).trans ?_,
    ((h (some 100000) none [1, 2, 3, 4] (supplies rfl)).2.1 rfl (Or.inr rfl)).trans ?_,
    ((h (some 100000) none [1, 2, 3, 4, 5, 6, 7, 8] (supplies rfl)).2.2.1 rfl (Or.inl ⟨_, by decide, rfl, rfl⟩)).trans ?_,
    (((h (some (-1)) (some 1) [1, 2, 3, 4] (supplies rfl)).2.2.2.1 (Or.inl rfl) _ _ rfl rfl (by decide) (by decide)).1 (by decide)).trans ?_,
    (((h (some 100000) (some 4096) [1, 2, 3, 4] (supplies rfl)).2.2.2.1 (Or.inl rfl) _ _ rfl rfl (by decide) (by decide)).2 (by decide)
      (by decide)).trans ?_⟩ <;> decide +kernel

/-! ## C70 -/

/-- C70: the text of an exception of `encrypt` is one of three fixed texts, unless the WIF contains a character outside ASCII. -/
theorem C70_encrypt (hP : P.Lawful) (hs : Selects obj network c n v) (w pass : Str) (x : Exc)
    (h : obj.encrypt P w pass network = .error x) :
    x.msg ∈ ["Invalid Wallet Import Format (WIF)", "Invalid private key bytes", "plaintext block must be 16 bytes"] ∨
      ((∃ ch ∈ w, 128 ≤ ch.toNat) ∧ x.cls = .unicodeEncodeError) := by
  obtain ⟨h1, h2, h3, h4⟩ := C60_encrypt hP hs w pass
  by_cases hw : ∃ ch ∈ w, 128 ≤ ch.toNat
  · obtain ⟨y, hy, hc⟩ := h1 hw
    rw [hy] at h
    exact Or.inr ⟨hw, by rw [← Except.error.inj h]; exact hc⟩
  · refine Or.inl ?_
    have ha : ∀ ch ∈ w, ch.toNat < 128 := fun ch hch => by
      by_contra hn
      exact hw ⟨ch, hch, by omega⟩
    by_cases hl : ∀ key type, ¬ WifLike w v key type
    · rw [h2 ha hl] at h
      simp [← Except.error.inj h]
    · push Not at hl
      obtain ⟨key, type, hl⟩ := hl
      by_cases hk : IsPrivateKey key
      · obtain ⟨pk, hpk, _⟩ := priv_ok key hk
        obtain ⟨g1, g2⟩ := h4 key type pk _ hl hk hpk rfl
        by_cases hb : key.getD 0 0 = (stretch P pass (addressHash P v pk (pubType type)) 64).getD 0 0 ∨
            key.getD 16 0 = (stretch P pass (addressHash P v pk (pubType type)) 64).getD 16 0
        · rw [g1 hb] at h
          simp [← Except.error.inj h]
        · push Not at hb
          obtain ⟨e, he⟩ := g2 hb
          rw [he] at h
          simp at h
      · rw [h3 key type hl hk] at h
        simp [← Except.error.inj h]

theorem priv_text {b : Bytes} {x : Exc} (h : PrivateKey.fromBytes b = .error x) : x.msg = "Invalid private key bytes" := by
  by_cases hk : IsPrivateKey b
  · obtain ⟨_, _, _, hok⟩ := priv_ok b hk
    rw [hok] at h
    simp at h
  · rw [isPrivateKey_iff] at hk
    rw [privFromBytes_error b hk] at h
    rw [← Except.error.inj h]

/-- C70: the text of an exception of `decrypt` is one of five fixed texts, or is the same for every passphrase, that is, only depends on
the encrypted key. -/
theorem C70_decrypt (hP : P.Lawful) (hs : Selects obj network c n v) (e pass : Str) (detail : Bool) (x : Exc)
    (h : obj.decrypt P e pass network detail = .error x) :
    x.msg ∈ ["Incorrect passphrase", "Invalid Non-EC encrypted WIF (Wallet Import Format)", "Invalid EC encrypted WIF (Wallet Import Format)",
      "Invalid private key bytes", "ciphertext block must be 16 bytes"] ∨
    ∀ pass' detail', obj.decrypt P e pass' network detail' = .error x := by
  cases hd : b58decode e with
  | error y =>
    have hall : ∀ pass' detail', obj.decrypt P e pass' network detail' = .error y := by
      intro pass' detail'
      unfold BIP38.decrypt
      rw [hs.select]
      simp only
      rw [py_bind (not_raise (not_not.mpr hs.mem)), py_bind_err hd]
    rw [hall] at h
    rw [← Except.error.inj h]
    exact Or.inr hall
  | ok rec =>
    have hm := fun p d => (C66_malformed (P := P) hs e p d).2 rec hd
    by_cases hl : rec.length = 43
    swap
    · rw [(hm _ _).1 hl] at h
      rw [← Except.error.inj h]
      exact Or.inr fun p d => (hm p d).1 hl
    obtain ⟨pre, r1, rfl, hp, hr1⟩ := split_at' rec 2 41 (by omega)
    obtain ⟨f, rest, rfl⟩ : ∃ f rest, r1 = f :: rest := by
      cases r1 with
      | nil => simp at hr1
      | cons a t => exact ⟨a, t, rfl⟩
    have hrl : rest.length = 40 := by simpa using hr1
    have ht : (pre ++ f :: rest).take 2 = pre := List.take_left' hp
    have hg : (pre ++ f :: rest).getD 2 0 = f := by
      rw [List.getD_eq_getElem?_getD, List.getElem?_append_right (by omega), hp]; rfl
    by_cases h1 : pre = [0x01, 0x42]
    · subst h1
      obtain ⟨hash, c1, c2, chk, rfl, l1, l2, l3, l4⟩ := split_noEc rest hrl
      by_cases hf : f = 0xc0 ∨ f = 0xe0
      · obtain ⟨type, hty, hft⟩ : ∃ type, IsWifType type ∧ f = noEcFlag type := by
          rcases hf with rfl | rfl
          · exact ⟨"wif", Or.inl rfl, rfl⟩
          · exact ⟨"wif-compressed", Or.inr rfl, rfl⟩
        subst hft
        rw [decrypt_noEc hs e pass detail _ _ hrl hd, decryptNoEc_eq hP hs pass detail type hty hash c1 c2 chk l1 l2 l3 _ rfl] at h
        refine Or.inl ?_
        split at h
        · simp [← Except.error.inj h]
        split at h
        · simp [← Except.error.inj h]
        split at h
        · rename_i y hy
          rw [← Except.error.inj h, priv_text hy]
          simp
        · split at h
          · simp at h
          · simp [← Except.error.inj h]
      · push Not at hf
        have hh := fun p d => (hm p d).2.2 hl ht (by rw [hg]; exact hf.1) (by rw [hg]; exact hf.2)
        rw [hh] at h
        rw [← Except.error.inj h]
        exact Or.inr hh
    · by_cases h2 : pre = [0x01, 0x43]
      · subst h2
        obtain ⟨hash, ent, h11, e2, chk, rfl, l1, l2, l3, l4, l5⟩ := split_ec rest hrl
        rw [decrypt_ec hs e pass detail _ _ hrl hd, decryptEc_eq hP hs pass detail f hash ent h11 e2 chk l1 l2 l3 l4 l5 _ rfl] at h
        refine Or.inl ?_
        split at h
        · simp [← Except.error.inj h]
        split at h
        · rename_i y hy
          rw [← Except.error.inj h, priv_text hy]
          simp
        simp only at h
        split at h
        · simp [← Except.error.inj h]
        split at h
        · simp [← Except.error.inj h]
        split at h
        · simp [← Except.error.inj h]
        split at h
        · rename_i y hy
          rw [← Except.error.inj h, priv_text hy]
          simp
        · split at h
          · simp at h
          · simp [← Except.error.inj h]
      · have hh := fun p d => (hm p d).2.1 hl (by rw [ht]; exact h1) (by rw [ht]; exact h2)
        rw [hh] at h
        rw [← Except.error.inj h]
        exact Or.inr hh

/-- C70: the text of an exception of `confirm_code` is one of two fixed texts, or is the same for every passphrase. -/
theorem C70_confirm (hP : P.Lawful) (hs : Selects obj network c n v) (code pass : Str) (detail : Bool) (x : Exc)
    (h : obj.confirmCode P pass code network detail = .error x) :
    x.msg ∈ ["Incorrect passphrase", "Invalid EC encrypted WIF (Wallet Import Format)"] ∨
    ∀ pass' detail', obj.confirmCode P pass' code network detail' = .error x := by
  have hm := fun p d => C67_malformed (P := P) hP hs p code d
  by_cases hraw : ∃ raw, b58decode code = .ok (raw ++ checksum P raw)
  swap
  · rw [(hm _ _).1 hraw] at h
    rw [← Except.error.inj h]
    exact Or.inr fun p d => (hm p d).1 hraw
  obtain ⟨raw, hraw⟩ := hraw
  by_cases hl : raw.length = 51
  swap
  · rw [((hm _ _).2 raw hraw).1 hl] at h
    rw [← Except.error.inj h]
    exact Or.inr fun p d => ((hm p d).2 raw hraw).1 hl
  by_cases hp : raw.take 5 = [0x64, 0x3b, 0xf6, 0xa8, 0x9a]
  swap
  · rw [((hm _ _).2 raw hraw).2 hl hp] at h
    rw [← Except.error.inj h]
    exact Or.inr fun p d => ((hm p d).2 raw hraw).2 hl hp
  obtain ⟨pre, r1, rfl, hpl, hr1⟩ := split_at' raw 5 46 (by omega)
  obtain ⟨f, rest, rfl⟩ : ∃ f rest, r1 = f :: rest := by
    cases r1 with
    | nil => simp at hr1
    | cons a t => exact ⟨a, t, rfl⟩
  rw [List.take_left' hpl] at hp
  subst hp
  obtain ⟨hash, ent, b, c1, c2, rfl, l1, l2, l3, l4⟩ := split_confirm rest (by simpa using hr1)
  have hcode : checkDecode P.sha256 code = .ok ([0x64, 0x3b, 0xf6, 0xa8, 0x9a, f] ++ (hash ++ ent ++ [b] ++ c1 ++ c2)) :=
    (checkDecode_iff hP _ _ _).mpr hraw
  obtain ⟨h1, h2⟩ := C67_confirm hP hs pass code detail f hash ent b c1 c2 l1 l2 l3 l4 hcode _ rfl
  refine Or.inl ?_
  by_cases hk : IsPrivateKey (passFactor P (decide (hasLot f)) pass ent)
  swap
  · rw [h1 hk] at h
    simp [← Except.error.inj h]
  obtain ⟨pp, hpp, _, _⟩ := priv_ok _ hk
  obtain ⟨h3, h4⟩ := h2 hk pp _ hpp rfl
  by_cases hq : ∀ qx qy, OnSecp256k1 qx qy → ¬ Denotes (confirmPoint P (ecDerive P (sec1 pp "compressed") hash ent) b c1 c2) qx qy
  · rw [h3 hq] at h
    simp [← Except.error.inj h]
  · push Not at hq
    obtain ⟨qx, qy, hon, hden⟩ := hq
    obtain ⟨pk, hpk⟩ := exists_multiple ⟨qx, qy⟩ hon _ hk.2.1 hk.2.2
    obtain ⟨h5, h6⟩ := h4 ⟨qx, qy⟩ pk hon hden (by rw [← mul_eq_times _ (valid_aff.mpr hon)]; exact hpk.symm)
    by_cases ha : addressHash P v pk (pubType (ecType f)) = hash
    · rw [h6 ha] at h
      simp at h
    · rw [h5 ha] at h
      simp [← Except.error.inj h]

/-- C70: the text of an exception of `create_new_encrypted_wif` with a readable seed is one of three fixed texts, or is the same for every
readable seed. -/
theorem C70_create (hP : P.Lawful) (hs : Selects obj network c n v) (it : Str) (type : String) (seed : Data) (u seedB : Bytes)
    (hseed : Supplies seed u seedB) (x : Exc) (h : obj.createNewEncryptedWif P it type seed network u = .error x) :
    x.msg ∈ ["Invalid EC encrypted WIF (Wallet Import Format)", "Invalid public key bytes", "plaintext block must be 16 bytes"] ∨
    ∀ seed' u' seedB', Supplies seed' u' seedB' → obj.createNewEncryptedWif P it type seed' network u' = .error x := by
  have hm := fun s u b (h : Supplies s u b) => C68_refused (P := P) hP hs it type s u b h
  by_cases hraw : ∃ raw, b58decode it = .ok (raw ++ checksum P raw)
  swap
  · rw [(hm _ _ _ hseed).1 hraw] at h
    rw [← Except.error.inj h]
    exact Or.inr fun s u b hs => (hm s u b hs).1 hraw
  obtain ⟨raw, hraw⟩ := hraw
  by_cases hl : raw.length = 49
  swap
  · rw [((hm _ _ _ hseed).2 raw hraw).1 hl] at h
    rw [← Except.error.inj h]
    exact Or.inr fun s u b hs => ((hm s u b hs).2 raw hraw).1 hl
  by_cases ht : IsWifType type
  swap
  · rw [((hm _ _ _ hseed).2 raw hraw).2.1 hl ht] at h
    rw [← Except.error.inj h]
    exact Or.inr fun s u b hs => ((hm s u b hs).2 raw hraw).2.1 hl ht
  by_cases hmag : ∀ lot, raw.take 8 ≠ magicBytes lot
  · rw [((hm _ _ _ hseed).2 raw hraw).2.2 hl ht hmag] at h
    rw [← Except.error.inj h]
    exact Or.inr fun s u b hs => ((hm s u b hs).2 raw hraw).2.2 hl ht hmag
  push Not at hmag
  obtain ⟨lot, hlot⟩ := hmag
  obtain ⟨mg, r1, rfl, hml, hr1⟩ := split_at' raw 8 41 (by omega)
  obtain ⟨ent, pp, rfl, hent, hpp⟩ := split_at' r1 8 33 hr1
  rw [List.take_left' hml] at hlot
  subst hlot
  rw [← List.append_assoc] at hraw
  obtain ⟨h1, h2⟩ := C68_refused_point (P := P) hP hs it type seed u seedB lot ent pp hent hpp hseed hraw ht
  refine Or.inl ?_
  by_cases hk : IsPrivateKey (dsha P seedB)
  swap
  · rw [h1 hk] at h
    simp [← Except.error.inj h]
  by_cases hq : ∀ x y, OnSecp256k1 x y → ¬ Denotes pp x y
  · rw [h2 hk hq] at h
    simp [← Except.error.inj h]
  push Not at hq
  obtain ⟨qx, qy, hon, hden⟩ := hq
  obtain ⟨pk, pb, _, _, hall⟩ := create_ready hP hs (q := ⟨qx, qy⟩)
    { seed := hseed, code := hraw, ent_length := hent, point_length := hpp, type := ht, factor := hk, point := ⟨hden, hon⟩ }
  rw [hall _ rfl] at h
  split at h
  · simp at h
  · simp [← Except.error.inj h]

/-- C70: the text of an exception of `intermediate_code` with a readable salt is the one of a pass factor out of range, or is the same for
every passphrase and only depends on the numbers and on the length of the salt. -/
theorem C70_intermediate (pass : Str) (lot sequence : Option Int) (d : Data) (u salt : Bytes) (hd : Supplies d u salt) (x : Exc)
    (h : intermediateCode P pass lot sequence d u = .error x) :
    x.msg = "Invalid private key bytes" ∨
    ∀ pass' d' u' salt', Supplies d' u' salt' → salt'.length = salt.length → intermediateCode P pass' lot sequence d' u' = .error x := by
  have hm := fun p d u s (h : Supplies d u s) => C69_intermediate (P := P) p lot sequence d u s h _ rfl
  obtain ⟨m1, m2, m3, m4, m5⟩ := hm pass d u salt hd
  rcases C69_complete lot sequence salt.length with ⟨a, b⟩ | ⟨a, b⟩ | ⟨a, b⟩ | ⟨a, l, s, b1, b2, b3, b4, b5 | ⟨b5, b6⟩⟩ | a
  · rw [m1 a b] at h
    rw [← Except.error.inj h]
    refine Or.inr fun p d u s hs hl => ?_
    rw [← hl] at a b ⊢
    exact (hm p d u s hs).1 a b
  · rw [m2 a b] at h
    rw [← Except.error.inj h]
    exact Or.inr fun p d u s hs hl => (hm p d u s hs).2.1 (hl.trans a) b
  · rw [m3 a b] at h
    rw [← Except.error.inj h]
    exact Or.inr fun p d u s hs hl => (hm p d u s hs).2.2.1 (hl.trans a) b
  · rw [(m4 a l s b1 b2 b3 b4).1 b5] at h
    rw [← Except.error.inj h]
    exact Or.inr fun p d u t hs hl => ((hm p d u t hs).2.2.2.1 (by rw [hl]; exact a) l s b1 b2 b3 b4).1 b5
  · rw [(m4 a l s b1 b2 b3 b4).2 b5 b6] at h
    rw [← Except.error.inj h]
    exact Or.inr fun p d u t hs hl => ((hm p d u t hs).2.2.2.1 (by rw [hl]; exact a) l s b1 b2 b3 b4).2 b5 b6
  · refine Or.inl ?_
    by_cases hk : IsPrivateKey (passFactor P (usesLot lot sequence) pass (ownerEntropy lot sequence salt))
    · obtain ⟨pp, hpp, _, _⟩ := priv_ok _ hk
      rw [(m5 a).2 hk pp hpp] at h
      simp at h
    · rw [(m5 a).1 hk] at h
      rw [← Except.error.inj h]

/-- Cases of C70, both alternatives: the number 0 found by `decrypt` (which another passphrase might not give) and a text of the wrong
length; a pass factor 0 and a lot out of range. Further cases are those of C66 - C69. -/
example :
    bitcoinObject.decrypt (toy 1 0) (toyNoEc [1, 1, 1, 1] (List.replicate 32 0)) [] = .error ⟨.error, "Invalid Non-EC encrypted WIF (Wallet Import Format)"⟩
    ∧ (∀ pass detail, bitcoinObject.decrypt (toy 1 0) (b58encode (List.replicate 42 1)) pass none detail
      = .error ⟨.wifError, "Invalid encrypted WIF length, (expected: 43 | got: '42')"⟩)
    ∧ intermediateCode (toy 1 0) [] none none (.bytes (List.replicate 8 1)) [] = .error ⟨.secp256k1Error, "Invalid private key bytes"⟩
    ∧ ∀ pass, intermediateCode (toy 1 0) pass (some 99999) (some 1) (.bytes (List.replicate 8 1)) []
      = .error ⟨.error, "Invalid lot, (expected: 100000 <= lot <= 999999 | got: '99999')"⟩ := by
  have hd : Supplies (.bytes (List.replicate 8 1)) [] (List.replicate 8 1) := supplies rfl
  have h8 : (List.replicate 8 (1 : UInt8)).length = 8 := rfl
  refine ⟨?_, fun pass detail => ((C66_malformed (P := toy 1 0) bitcoin_selects _ pass detail).2 _ (C01_decode_encode_bitcoin _)).1 (by decide), ?_, fun pass => ?_⟩
  · exact (C66_noEc (toy_lawful 1 0) bitcoin_selects (toyNoEc [1, 1, 1, 1] (List.replicate 32 0)) [] false "wif" (Or.inl rfl) [1, 1, 1, 1]
      (List.replicate 16 0) (List.replicate 16 0) [0, 0, 0, 0] rfl rfl rfl rfl (C01_decode_encode_bitcoin _) (List.replicate 32 0) rfl).1
      (by decide +kernel)
  · exact ((C69_intermediate (P := toy 1 0) [] none none _ _ _ hd (List.replicate 32 0) rfl).2.2.2.2 (Or.inl ⟨rfl, Or.inl rfl, Or.inl rfl⟩)).1
      (by decide +kernel)
  · exact (((C69_intermediate (P := toy 1 0) pass (some 99999) (some 1) _ _ _ hd _ rfl).2.2.2.1 (Or.inr rfl) _ _ rfl rfl (by decide)
      (by decide)).1 (by decide)).trans (by decide +kernel)

end Bip38.Props
