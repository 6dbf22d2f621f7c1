import Verif.Props.Select
import Verif.Spec.Intermediate
import Verif.Lemmas.Supplies
/-!
# Properties C26, C27, C28: `intermediate_code`
-/
namespace Bip38.Props
open Bip38 Spec

variable {P : Prims}

theorem usesLot_eq (lot sequence : Option Int) : usesLot lot sequence = (truthyInt lot && truthyInt sequence) := by
  unfold usesLot
  cases lot <;> cases sequence <;> simp [truthyInt]

/-- Everything about `intermediate_code` once the salt is known. -/
theorem intermediate_eq (pass : Str) (lot sequence : Option Int) (d : Data) (u salt : Bytes)
    (hd : Supplies d u salt) (pf : Bytes)
    (hpf : pf = passFactor P (usesLot lot sequence) pass (ownerEntropy lot sequence salt)) :
    (¬ Accepted lot sequence salt.length → ∃ x, intermediateCode P pass lot sequence d u = .error x ∧ x.cls = .error) ∧
    (Accepted lot sequence salt.length → ¬ IsPrivateKey pf →
      intermediateCode P pass lot sequence d u = .error ⟨.secp256k1Error, "Invalid private key bytes"⟩) ∧
    (Accepted lot sequence salt.length → ∀ pp, IsPrivateKey pf → IsPublicKeyOf pp pf →
      intermediateCode P pass lot sequence d u
        = .ok (checkText P (intermediateRecord (usesLot lot sequence) (ownerEntropy lot sequence salt) pp))) := by
  have t0 : ∀ l : Int, truthyInt (some l) = true ↔ l ≠ 0 := fun l => by simp [truthyInt]
  have tn : truthyInt none = false := rfl
  refine ⟨fun hna => ?_, ?_⟩
  · unfold intermediateCode
    rw [py_bind hd.ok]
    by_cases h1 : salt.length ∉ [4, 8]
    · rw [py_bind_err (do_raise h1)]; exact ⟨_, rfl, rfl⟩
    rw [py_bind (not_raise h1)]
    by_cases h2 : salt.length = 4 ∧ (lot = none ∨ sequence = none)
    · rw [py_bind_err (do_raise h2)]; exact ⟨_, rfl, rfl⟩
    rw [py_bind (not_raise h2)]
    by_cases h3 : (truthyInt lot = true ∧ sequence = none) ∨ (lot = none ∧ truthyInt sequence = true)
    · rw [py_bind_err (do_raise h3)]; exact ⟨_, rfl, rfl⟩
    rw [py_bind (not_raise h3)]
    have h1' : salt.length = 4 ∨ salt.length = 8 := by simp at h1; omega
    have hboth : truthyInt lot = true ∧ truthyInt sequence = true := by
      by_contra hn
      apply hna
      cases lot with
      | none => cases sequence with
        | none => exact Or.inl ⟨by rcases h1' with h | h; exact absurd ⟨h, Or.inl rfl⟩ h2; exact h, Or.inl rfl, Or.inl rfl⟩
        | some s =>
          have : s = 0 := by by_contra hs; exact h3 (Or.inr ⟨rfl, (t0 s).mpr hs⟩)
          subst this
          exact Or.inl ⟨by rcases h1' with h | h; exact absurd ⟨h, Or.inl rfl⟩ h2; exact h, Or.inl rfl, Or.inr rfl⟩
      | some l => cases sequence with
        | none =>
          have : l = 0 := by by_contra hs; exact h3 (Or.inl ⟨(t0 l).mpr hs, rfl⟩)
          subst this
          exact Or.inl ⟨by rcases h1' with h | h; exact absurd ⟨h, Or.inr rfl⟩ h2; exact h, Or.inr rfl, Or.inl rfl⟩
        | some s =>
          refine Or.inr ⟨h1', l, s, rfl, rfl, ?_⟩
          rw [t0, t0] at hn
          tauto
    rw [if_pos hboth]
    cases lot with
    | none => simp [tn] at hboth
    | some l => cases sequence with
      | none => simp [tn] at hboth
      | some s =>
        simp only [Option.getD_some]
        have hbad : ¬ (100000 ≤ l ∧ l ≤ 999999 ∧ 0 ≤ s ∧ s ≤ 4095) := fun h =>
          hna (Or.inr ⟨h1', l, s, rfl, rfl, Or.inr (Or.inr h)⟩)
        have : ∃ x, lotFactor P pass l s salt = .error x ∧ x.cls = .error := by
          unfold lotFactor
          by_cases hl : 100000 ≤ l ∧ l ≤ 999999
          · rw [py_bind (not_raise (not_not.mpr hl)), py_bind_err (do_raise (by omega))]; exact ⟨_, rfl, rfl⟩
          · rw [py_bind_err (do_raise hl)]; exact ⟨_, rfl, rfl⟩
        obtain ⟨x, hx, hc⟩ := this
        rw [py_bind_err hx]
        exact ⟨_, rfl, hc⟩
  · by_cases hu : usesLot lot sequence = true
    · have hboth : truthyInt lot = true ∧ truthyInt sequence = true := by simpa [usesLot_eq] using hu
      cases lot with
      | none => simp [tn] at hboth
      | some l => cases sequence with
        | none => simp [tn] at hboth
        | some s =>
          rw [t0, t0] at hboth
          suffices hmain : Accepted (some l) (some s) salt.length → _ ∧ _ from
            ⟨fun ha => (hmain ha).1, fun ha => (hmain ha).2⟩
          intro ha
          have hr : (salt.length = 4 ∨ salt.length = 8) ∧ 100000 ≤ l ∧ l ≤ 999999 ∧ 0 ≤ s ∧ s ≤ 4095 := by
            rcases ha with ⟨_, h, _⟩ | ⟨h, l', s', e1, e2, h'⟩
            · simp at h; exact absurd h hboth.1
            · cases e1; cases e2
              exact ⟨h, by rcases h' with h' | h' | h'; exact absurd h' hboth.1; exact absurd h' hboth.2; exact h'⟩
          obtain ⟨hlen, hl1, hl2, hs1, hs2⟩ := hr
          lift l to Nat using by omega
          lift s to Nat using by omega
          have he : ownerEntropy (some (l : Int)) (some (s : Int)) salt = lotEntropy salt l s := by
            simp [ownerEntropy, hu]
          rw [hu, he] at hpf
          rw [hu, he]
          have h := intermediate_lot (P := P) pass l s (by omega) (by omega) (by omega) (by omega) d u salt hd.ok hlen pf hpf
          exact ⟨h.2, h.1⟩
    · have hu' : usesLot lot sequence = false := by simpa using hu
      have he : ownerEntropy lot sequence salt = salt := by simp [ownerEntropy, hu']
      rw [hu', he] at hpf
      rw [hu', he]
      suffices hmain : Accepted lot sequence salt.length → _ ∧ _ from
            ⟨fun ha => (hmain ha).1, fun ha => (hmain ha).2⟩
      intro ha
      have h := intermediate_noLot (P := P) pass lot sequence (by
          rcases ha with ⟨_, h1, h2⟩ | ⟨_, l, s, rfl, rfl, h⟩
          · rcases h1 with rfl | rfl <;> rcases h2 with rfl | rfl <;> simp
          · have : l = 0 ∨ s = 0 := by
              by_contra hn
              push Not at hn
              simp [usesLot_eq, truthyInt, hn.1, hn.2] at hu'
            rcases this with rfl | rfl <;> simp) d u salt hd.ok (by
          rcases ha with ⟨h, _⟩ | ⟨h, l, s, rfl, rfl, _⟩
          · exact Or.inl h
          · rcases h with h | h
            · exact Or.inr ⟨h, by simp, by simp⟩
            · exact Or.inl h) pf hpf
      exact ⟨h.2, h.1⟩

/-- Accepted numbers which are used are in range. -/
theorem accepted_lot {lot sequence : Option Int} {len : Nat} (ha : Accepted lot sequence len) (hu : usesLot lot sequence = true) :
    (len = 4 ∨ len = 8) ∧ ∃ l s : Nat, lot = some (l : Int) ∧ sequence = some (s : Int) ∧ (100000 ≤ l ∧ l ≤ 999999) ∧ 1 ≤ s ∧ s ≤ 4095 := by
  cases lot with
  | none => simp [usesLot] at hu
  | some l => cases sequence with
    | none => simp [usesLot] at hu
    | some s =>
      have hz : l ≠ 0 ∧ s ≠ 0 := by simpa [usesLot] using hu
      rcases ha with ⟨_, h1, _⟩ | ⟨h1, l', s', e1, e2, h'⟩
      · simp at h1; exact absurd h1 hz.1
      · cases e1; cases e2
        lift l to Nat using by omega
        lift s to Nat using by omega
        exact ⟨h1, l, s, rfl, rfl, by omega, by omega, by omega⟩

/-! ## C26 -/

/-- C26, exact: with a salt of the given length, `intermediate_code` raises `Error` exactly for the inputs that are not `Accepted`; for
those that are it returns a code, except that `Secp256k1Error` is raised when the pass factor is not a private key. -/
theorem C26_validation (pass : Str) (lot sequence : Option Int) (d : Data) (u salt : Bytes)
    (hd : Supplies d u salt) :
    ((∃ x, intermediateCode P pass lot sequence d u = .error x ∧ x.cls = .error) ↔ ¬ Accepted lot sequence salt.length) ∧
    ((∃ code, intermediateCode P pass lot sequence d u = .ok code) ↔
      Accepted lot sequence salt.length ∧ IsPrivateKey (passFactor P (usesLot lot sequence) pass (ownerEntropy lot sequence salt))) ∧
    (∀ x, intermediateCode P pass lot sequence d u = .error x → x.cls = .error ∨ x.cls = .secp256k1Error) := by
  obtain ⟨h1, h2, h3⟩ := intermediate_eq pass lot sequence d u salt hd _ rfl
  by_cases ha : Accepted lot sequence salt.length
  · by_cases hk : IsPrivateKey (passFactor P (usesLot lot sequence) pass (ownerEntropy lot sequence salt))
    · obtain ⟨pp, hpp, _, _⟩ := priv_ok _ hk
      have h := h3 ha pp hk hpp
      rw [h]
      simp [ha, hk]
    · rw [h2 ha hk]
      simp [ha, hk]
  · obtain ⟨x, hx, hc⟩ := h1 ha
    rw [hx]
    simp [ha, hc]

/-- An argument from which no bytes can be read: text that is not hexadecimal raises `ValueError`, an object that is neither text nor
bytes raises `TypeError`. -/
theorem unreadable (d : Data) (u : Bytes) (h : ¬ ∃ b, Supplies d u b) :
    ∃ x, bytesOrRandom d u = .error x ∧ ((∃ s, d = .str s ∧ (¬ ∃ b, HexText s b) ∧ x.cls = .valueError) ∨ d = .other ∧ x.cls = .typeError) := by
  cases hb : bytesOrRandom d u with
  | ok b => exact absurd ⟨b, supplies hb⟩ h
  | error x =>
    refine ⟨x, rfl, ?_⟩
    unfold bytesOrRandom at hb
    split at hb
    · cases d with
      | none => simp [getBytes, Data.truthy] at hb
      | bytes b => simp only [getBytes] at hb; split at hb <;> simp at hb
      | other =>
        simp only [getBytes, Data.truthy] at hb
        rw [← Except.error.inj hb]; exact Or.inr ⟨rfl, rfl⟩
      | str s =>
        by_cases hx : ∃ b, HexText s b
        · obtain ⟨b, hb'⟩ := hx
          rw [(C06_get_bytes_iff s b).mpr hb'] at hb; simp at hb
        · obtain ⟨y, hy, hc⟩ := C06_get_bytes_error s hx
          rw [hy] at hb
          rw [← Except.error.inj hb]; exact Or.inl ⟨s, rfl, hx, hc⟩
    · simp at hb

/-- C26: the salt argument. A missing or empty salt is replaced by the random bytes, non-empty bytes are taken as they are, hexadecimal
text is decoded; any other text raises `ValueError`, any other object `TypeError`, whatever the other arguments. -/
theorem C26_salt (pass : Str) (lot sequence : Option Int) (d : Data) (u : Bytes) :
    (∃ salt, Supplies d u salt) ∨
    ∃ x, intermediateCode P pass lot sequence d u = .error x ∧
      ((∃ s, d = .str s ∧ (¬ ∃ b, HexText s b) ∧ x.cls = .valueError) ∨ d = .other ∧ x.cls = .typeError) := by
  by_cases h : ∃ b, Supplies d u b
  · exact Or.inl h
  · obtain ⟨x, hx, hc⟩ := unreadable d u h
    refine Or.inr ⟨x, ?_, hc⟩
    unfold intermediateCode
    rw [py_bind_err hx]

/-- Cases of C26_salt. -/
example : Supplies (.str "00fF 1a2b".toList) [] [0x00, 0xff, 0x1a, 0x2b] ∧ Supplies (.str []) [7] [7] ∧ (¬ ∃ b, Supplies (.str "0".toList) [] b) := by
  refine ⟨supplies rfl, supplies rfl, ?_⟩
  rintro ⟨b, hb⟩
  have h1 := hb.ok
  have : bytesOrRandom (.str "0".toList) [] = .error ⟨.valueError, "non-hexadecimal number found in fromhex() arg"⟩ := by decide
  rw [this] at h1
  simp at h1

/-- C26: where no number 0 is given, the validation is the documented one. -/
theorem C26_documented (lot sequence : Option Int) (len : Nat) (h1 : lot ≠ some 0) (h2 : sequence ≠ some 0) :
    Accepted lot sequence len ↔ Documented lot sequence len := by
  unfold Accepted Documented
  constructor
  · rintro (⟨h, a, b⟩ | ⟨h, l, s, rfl, rfl, h'⟩)
    · exact Or.inl ⟨h, a.resolve_right h1, b.resolve_right h2⟩
    · refine Or.inr ⟨h, l, s, rfl, rfl, ?_⟩
      rcases h' with rfl | rfl | h'
      · exact absurd rfl h1
      · exact absurd rfl h2
      · exact h'
  · rintro (⟨h, a, b⟩ | ⟨h, l, s, rfl, rfl, h'⟩)
    · exact Or.inl ⟨h, Or.inl a, Or.inl b⟩
    · exact Or.inr ⟨h, l, s, rfl, rfl, Or.inr (Or.inr h')⟩

/-- C26 as documented is false of the code: lot 0 and sequence 1 are let through, although the lot is out of range. -/
theorem C26_refuted : ¬ ∀ (P : Prims), P.Lawful → ∀ (pass : Str) (lot sequence : Option Int) (salt : Bytes), salt ≠ [] →
    ¬ Documented lot sequence salt.length →
    ∃ x, intermediateCode P pass lot sequence (.bytes salt) [] = .error x ∧ x.cls = .error := by
  intro hall
  have hd : Supplies (.bytes [1, 2, 3, 4, 5, 6, 7, 8]) [] [1, 2, 3, 4, 5, 6, 7, 8] := supplies rfl
  have := (C26_validation (P := toy 1 1) [] (some 0) (some 1) _ _ _ hd).1.mp
    (hall (toy 1 1) (toy_lawful _ _) [] (some 0) (some 1) [1, 2, 3, 4, 5, 6, 7, 8] (by simp) (by
      unfold Documented; simp))
  exact this (Or.inr ⟨Or.inr rfl, 0, 1, rfl, rfl, Or.inl rfl⟩)

/-- A case of C26: lot 100001, sequence 1 and a 4-byte salt give a code. -/
example : ∃ code, intermediateCode (toy 1 1) [] (some 100001) (some 1) (.bytes [1, 2, 3, 4]) [] = .ok code :=
  (C26_validation (P := toy 1 1) [] (some 100001) (some 1) (.bytes [1, 2, 3, 4]) [] [1, 2, 3, 4] (supplies rfl)).2.1.mpr
    ⟨Or.inr ⟨Or.inl rfl, 100001, 1, rfl, rfl, by omega⟩, by
      exact (by decide +kernel : IsPrivateKey (List.replicate 32 1))⟩

/-! ## C27 -/

/-- C27 is false of the code, for every lot whatsoever: with sequence 0 the result is the one without lot and sequence. -/
theorem C27_sequence_zero_ignored (pass : Str) (lot : Int) (d : Data) (u salt : Bytes) (hd : Supplies d u salt)
    (hl : salt.length = 8) :
    intermediateCode P pass (some lot) (some 0) d u = intermediateCode P pass none none d u := by
  unfold intermediateCode
  have h0 : truthyInt (some 0) = false := rfl
  have hn : truthyInt none = false := rfl
  simp only [py_bind hd.ok]
  have r1 : ∀ x : Prop, ¬ (salt.length = 4 ∧ x) := by intro x h; omega
  simp only [h0, hn, r1, not_raise (not_false), Bool.false_eq_true, and_false, false_and, reduceCtorEq, or_false, if_false]

/-- The same for lot 0. -/
theorem C27_lot_zero_ignored (pass : Str) (sequence : Int) (d : Data) (u salt : Bytes) (hd : Supplies d u salt)
    (hl : salt.length = 8) :
    intermediateCode P pass (some 0) (some sequence) d u = intermediateCode P pass none none d u := by
  unfold intermediateCode
  have h0 : truthyInt (some 0) = false := rfl
  have hn : truthyInt none = false := rfl
  simp only [py_bind hd.ok]
  have r1 : ∀ x : Prop, ¬ (salt.length = 4 ∧ x) := by intro x h; omega
  simp only [h0, hn, r1, not_raise (not_false), Bool.false_eq_true, and_false, false_and, reduceCtorEq, or_false, if_false]

/-- C27: with a 4-byte salt and sequence 0 a code is returned that `create_new_encrypted_wif` refuses with `PassphraseError`, for every
object, network, WIF type and seed that it would otherwise accept. -/
theorem C27_unusable_code (hP : P.Lawful) (pass : Str) (lot : Int) (d : Data) (u salt : Bytes) (hd : Supplies d u salt)
    (hl : salt.length = 4) (hk : IsPrivateKey (stretch P pass salt 32)) :
    ∃ code, intermediateCode P pass (some lot) (some 0) d u = .ok code ∧
      ∀ (obj : BIP38) (network : Option String) (c : Coin) (n : String) (v : Net), Selects obj network c n v →
        ∀ (type : String) (seed : Data) (u' seedB : Bytes), Supplies seed u' seedB →
          ∃ x, obj.createNewEncryptedWif P code type seed network u' = .error x ∧ x.cls = .passphraseError := by
  have hu : usesLot (some lot) (some 0) = false := by simp [usesLot]
  have he : ownerEntropy (some lot) (some 0) salt = salt := by simp [ownerEntropy, hu]
  obtain ⟨pp, hpp, _, _⟩ := priv_ok _ hk
  have h := (intermediate_eq pass (some lot) (some 0) d u salt hd (stretch P pass salt 32) (by rw [hu, he]; rfl)).2.2
    (Or.inr ⟨Or.inl hl, lot, 0, rfl, rfl, Or.inr (Or.inl rfl)⟩) pp hk hpp
  refine ⟨_, h, fun obj network c n v hs type seed u' seedB hseed => ?_⟩
  rw [hu, he]
  have hdec : checkDecode P.sha256 (checkText P (intermediateRecord false salt pp)) = .ok (intermediateRecord false salt pp) :=
    C03_check_roundtrip P.sha256 hP.sha256_length _ bitcoinAlphabet_valid _
  have hlen : (intermediateRecord false salt pp).length ≠ 49 := by
    simp [intermediateRecord, magicBytes, sec1, hl]
  unfold BIP38.createNewEncryptedWif
  rw [hs.select]
  simp only
  rw [py_bind (not_raise (not_not.mpr hs.mem)), py_bind hseed.ok, py_bind (checkDecodeOr_ok _ _ _ _ hdec), py_bind_err (do_raise hlen)]
  exact ⟨_, rfl, rfl⟩

/-- The hypotheses of C27 are met. -/
example : ∃ code, intermediateCode (toy 1 1) [] (some 100001) (some 0) (.bytes [1, 2, 3, 4]) [] = .ok code ∧
    ∃ x, bitcoinObject.createNewEncryptedWif (toy 1 1) code "wif" (.bytes (List.replicate 24 9)) none [] = .error x
      ∧ x.cls = .passphraseError := by
  obtain ⟨code, h1, h2⟩ := C27_unusable_code (toy_lawful 1 1) [] 100001 (.bytes [1, 2, 3, 4]) [] _ (supplies rfl) rfl
    (by exact (by decide +kernel : IsPrivateKey (List.replicate 32 1)))
  exact ⟨code, h1, h2 _ _ _ _ _ bitcoin_selects _ _ _ _ (supplies rfl)⟩

/-! ## C28 -/

/-- C28: layout of an intermediate code. `usesLot` says that lot and sequence were given and are not 0. -/
theorem C28_layout (hP : P.Lawful) (pass : Str) (lot sequence : Option Int) (d : Data) (u : Bytes) (code : Str)
    (h : intermediateCode P pass lot sequence d u = .ok code) :
    ∃ salt entropy pf pp, Supplies d u salt
      ∧ (usesLot lot sequence = false → entropy = salt ∧ pf = P.scrypt (utf8 (P.nfc pass)) salt 16384 8 8 32)
      ∧ (usesLot lot sequence = true → ∃ l s : Nat, lot = some (l : Int) ∧ sequence = some (s : Int)
          ∧ entropy = salt.take 4 ++ toBE 4 (l * 4096 + s)
          ∧ pf = P.sha256 (P.sha256 (P.scrypt (utf8 (P.nfc pass)) (salt.take 4) 16384 8 8 32 ++ entropy)))
      ∧ IsPrivateKey pf ∧ IsPublicKeyOf pp pf
      ∧ checkDecode P.sha256 code = .ok ([0x2c, 0xe9, 0xb3, 0xe1, 0xff, 0x39, 0xe2, if usesLot lot sequence then 0x51 else 0x53]
          ++ entropy ++ sec1 pp "compressed") := by
  cases hd : bytesOrRandom d u with
  | error x =>
    unfold intermediateCode at h
    rw [py_bind_err hd] at h
    simp at h
  | ok salt =>
  have hv := (C26_validation pass lot sequence d u salt (supplies hd)).2.1.mp ⟨code, h⟩
  obtain ⟨ha, hk⟩ := hv
  obtain ⟨pp, hpp, _, _⟩ := priv_ok _ hk
  have heq := (intermediate_eq pass lot sequence d u salt (supplies hd) _ rfl).2.2 ha pp hk hpp
  have hcode := Except.ok.inj (h.symm.trans heq)
  refine ⟨salt, ownerEntropy lot sequence salt, _, pp, supplies hd, fun hu => ?_, fun hu => ?_, hk, hpp, ?_⟩
  · have he : ownerEntropy lot sequence salt = salt := by simp [ownerEntropy, hu]
    rw [he, hu]
    exact ⟨rfl, rfl⟩
  · cases lot with
    | none => simp [usesLot] at hu
    | some l => cases sequence with
      | none => simp [usesLot] at hu
      | some s =>
        have hz : l ≠ 0 ∧ s ≠ 0 := by simpa [usesLot] using hu
        have hr : (salt.length = 4 ∨ salt.length = 8) ∧ 0 ≤ l ∧ 0 ≤ s := by
          rcases ha with ⟨_, h1, _⟩ | ⟨h1, l', s', e1, e2, h'⟩
          · simp at h1; exact absurd h1 hz.1
          · cases e1; cases e2; exact ⟨h1, by omega⟩
        obtain ⟨hlen, hl0, hs0⟩ := hr
        lift l to Nat using hl0
        lift s to Nat using hs0
        have he : ownerEntropy (some (l : Int)) (some (s : Int)) salt = lotEntropy salt l s := by
          simp [ownerEntropy, hu]
        refine ⟨l, s, rfl, rfl, he, ?_⟩
        rw [hu, he]
        unfold passFactor
        rw [if_pos rfl]
        unfold lotEntropy
        rw [List.take_left' (by rcases hlen with h | h <;> simp [h])]
        rfl
  · rw [hcode]
    exact C03_check_roundtrip P.sha256 hP.sha256_length _ bitcoinAlphabet_valid _

end Bip38.Props
