import Verif.Model.Bip38Num
import Verif.Props.Messages
/-!
# Property C74: lot and sequence numbers of any kind
-/
namespace Bip38.Props
open Bip38 Spec

variable {P : Prims}

/-- C74: on integers and `None` this is the function described by C26 – C28, C62, C69. -/
theorem C74_integers (pass : Str) (lot sequence : Option Int) (d : Data) (u : Bytes) :
    intermediateCodeNum P pass (.ofOption lot) (.ofOption sequence) d u = intermediateCode P pass lot sequence d u := by
  have h1 : ∀ x, (NumArg.ofOption x).truthy = truthyInt x := by rintro (_ | x) <;> rfl
  have h2 : ∀ x, (NumArg.ofOption x).isNone = true ↔ x = none := by rintro (_ | x) <;> simp [NumArg.ofOption, NumArg.int, NumArg.isNone]
  have h3 : ∀ x, (NumArg.ofOption x).show = pyInt x := by rintro (_ | x) <;> rfl
  have h4 : ∀ x, truthyInt x = true → (NumArg.ofOption x).toInt = .ok (x.getD 0) := by
    rintro (_ | x) h
    · simp [truthyInt] at h
    · rfl
  unfold intermediateCodeNum intermediateCode
  simp only [h1, h2, h3]
  by_cases hb : truthyInt lot = true ∧ truthyInt sequence = true
  · simp only [if_pos hb, h4 lot hb.1, h4 sequence hb.2]
    rfl
  · simp only [if_neg hb]

/-- C74: one number missing. A present number that counts as true is an error that shows it; one that counts as false (0, empty text)
is ignored. -/
theorem C74_one_missing (pass : Str) (t : Bool) (i : Py Int) (text : String) (d : Data) (u salt : Bytes) (hd : Supplies d u salt)
    (h8 : salt.length = 8) :
    (t = true → intermediateCodeNum P pass (.value t i text) .none d u
      = .error ⟨.error, "Both lot & sequence are required got: (lot " ++ text ++ ") & (sequence " ++ "None" ++ ")"⟩) ∧
    (t = true → intermediateCodeNum P pass .none (.value t i text) d u
      = .error ⟨.error, "Both lot & sequence are required got: (lot " ++ "None" ++ ") & (sequence " ++ text ++ ")"⟩) ∧
    (t = false → intermediateCodeNum P pass (.value t i text) .none d u = intermediateCode P pass none none d u
      ∧ intermediateCodeNum P pass .none (.value t i text) d u = intermediateCode P pass none none d u) := by
  refine ⟨?_, ?_, ?_⟩
  · rintro rfl
    unfold intermediateCodeNum
    rw [py_bind hd.ok, py_bind (not_raise (by simp [h8])), py_bind (not_raise (by simp [h8])),
      py_bind_err (do_raise (by simp [NumArg.truthy, NumArg.isNone])),
      errText_detail _ _ _ (by
        intro h
        have := congrArg String.length h
        simp [String.length_append] at this)]
    simp only [NumArg.show]
    congr 2
  · rintro rfl
    unfold intermediateCodeNum
    rw [py_bind hd.ok, py_bind (not_raise (by simp [h8])), py_bind (not_raise (by simp [h8])),
      py_bind_err (do_raise (by simp [NumArg.truthy, NumArg.isNone])),
      errText_detail _ _ _ (by
        intro h
        have := congrArg String.length h
        simp [String.length_append] at this)]
    simp only [NumArg.show]
    congr 2
  · rintro rfl
    rw [← C74_integers]
    unfold intermediateCodeNum
    simp only [py_bind hd.ok]
    have r1 : ∀ x : Prop, ¬ (salt.length = 4 ∧ x) := by intro x h; omega
    simp [h8, NumArg.truthy, NumArg.isNone, NumArg.ofOption, raiseIf]

/-- C74: both numbers given, one of them counts as false: the code without lot and sequence. -/
theorem C74_ignored (pass : Str) (t t' : Bool) (i i' : Py Int) (text text' : String) (d : Data) (u : Bytes) (h : t = false ∨ t' = false) :
    intermediateCodeNum P pass (.value t i text) (.value t' i' text') d u = intermediateCode P pass (some 0) (some 0) d u := by
  rw [← C74_integers]
  unfold intermediateCodeNum
  have h1 : ¬ (t = true ∧ t' = true) := by rcases h with h | h <;> simp [h]
  simp [NumArg.truthy, NumArg.isNone, NumArg.ofOption, NumArg.int, h1, raiseIf]

/-- C74: both numbers given and counting as true. The exceptions of the conversions come first (the lot is converted first), then the
ranges are checked, and the code holds the converted numbers: also the sequence number 0. -/
theorem C74_used (pass : Str) (i i' : Py Int) (text text' : String) (d : Data) (u salt : Bytes) (hd : Supplies d u salt)
    (hlen : salt.length = 4 ∨ salt.length = 8) :
    (∀ x, i = .error x → intermediateCodeNum P pass (.value true i text) (.value true i' text') d u = .error x) ∧
    (∀ l x, i = .ok l → i' = .error x → intermediateCodeNum P pass (.value true i text) (.value true i' text') d u = .error x) ∧
    (∀ l s, i = .ok l → i' = .ok s →
      (¬ (100000 ≤ l ∧ l ≤ 999999) → intermediateCodeNum P pass (.value true i text) (.value true i' text') d u
        = .error ⟨.error, report "Invalid lot" "100000 <= lot <= 999999" (toString l)⟩) ∧
      (100000 ≤ l ∧ l ≤ 999999 → ¬ (0 ≤ s ∧ s ≤ 4095) → intermediateCodeNum P pass (.value true i text) (.value true i' text') d u
        = .error ⟨.error, report "Invalid sequence" "0 <= sequence <= 4095" (toString s)⟩) ∧
      (100000 ≤ l ∧ l ≤ 999999 → 0 ≤ s ∧ s ≤ 4095 → ∀ ent pf, ent = lotEntropy salt l.toNat s.toNat → pf = passFactor P true pass ent →
        (¬ IsPrivateKey pf → intermediateCodeNum P pass (.value true i text) (.value true i' text') d u
          = .error ⟨.secp256k1Error, "Invalid private key bytes"⟩) ∧
        (∀ pp, IsPrivateKey pf → IsPublicKeyOf pp pf → intermediateCodeNum P pass (.value true i text) (.value true i' text') d u
          = .ok (checkText P (intermediateRecord true ent pp))))) := by
  have hcall : intermediateCodeNum P pass (.value true i text) (.value true i' text') d u = (do
      let l ← i
      let s ← i'
      let (passFactor, magic, ownerEntropy) ← lotFactor P pass l s salt
      let privateKey ← PrivateKey.fromBytes passFactor
      let passPoint := privateKey.publicKey
      .ok (ensureString (checkEncode P.sha256 (magic ++ ownerEntropy ++ passPoint.rawCompressed)))) := by
    unfold intermediateCodeNum
    rw [py_bind hd.ok, py_bind (not_raise (by rcases hlen with h | h <;> simp [h])), py_bind (not_raise (by simp [NumArg.isNone])),
      py_bind (not_raise (by simp [NumArg.isNone])), if_pos ⟨rfl, rfl⟩]
    rfl
  rw [hcall]
  refine ⟨fun x hx => by rw [hx]; rfl, fun l x hl hx => by rw [hl, hx]; rfl, fun l s hl hs => ?_⟩
  subst hl hs
  refine ⟨fun hb => ?_, fun hl hb => ?_, fun hl hs ent pf he hpf => ?_⟩
  · have : lotFactor P pass l s salt = .error ⟨.error, report "Invalid lot" "100000 <= lot <= 999999" (toString l)⟩ := by
      unfold lotFactor
      rw [py_bind_err (do_raise hb), errText_one]
    rw [py_bind rfl, py_bind rfl, py_bind_err this]
  · have : lotFactor P pass l s salt = .error ⟨.error, report "Invalid sequence" "0 <= sequence <= 4095" (toString s)⟩ := by
      unfold lotFactor
      rw [py_bind (not_raise (not_not.mpr hl)), py_bind_err (do_raise hb), errText_one]
    rw [py_bind rfl, py_bind rfl, py_bind_err this]
  · lift l to Nat using by omega
    lift s to Nat using by omega
    simp only [Int.toNat_natCast] at he
    subst he
    have hlf := lotFactor_ok (P := P) pass l s (by omega) (by omega) (by omega) salt hlen pf hpf
    have h := intermediate_tail (P := P) pf true (lotEntropy salt l s)
    rw [py_bind rfl, py_bind rfl, py_bind hlf]
    exact ⟨h.2, h.1⟩

/-- C74: texts of numbers other than 0 are as good as the numbers. `parse` is Python's `int`. -/
theorem C74_text (parse : String → Py Int) (pass : Str) (a b : String) (l s : Int) (d : Data) (u : Bytes)
    (ha : parse a = .ok l) (hb : parse b = .ok s) (ha' : a ≠ "") (hb' : b ≠ "") (hl : l ≠ 0) (hs : s ≠ 0) :
    intermediateCodeNum P pass (.text parse a) (.text parse b) d u = intermediateCode P pass (some l) (some s) d u := by
  rw [← C74_integers]
  unfold intermediateCodeNum
  simp only [NumArg.text, NumArg.ofOption, NumArg.int, NumArg.truthy, NumArg.isNone, NumArg.toInt, ha, hb, ha', hb', hl, hs, ne_eq,
    not_false_eq_true, decide_true]
  simp [raiseIf]

/-- C74, finding: `sequence="0"` is used, `sequence=0` is dropped. With the same salt of 8 bytes, the same passphrase and the same lot the
two calls never return the same code. -/
theorem C74_text_zero (hP : P.Lawful) (pass : Str) (t t' : String) (l : Int) (hl : 100000 ≤ l ∧ l ≤ 999999) (d : Data) (u salt : Bytes)
    (hd : Supplies d u salt) (h8 : salt.length = 8) (code code' : Str)
    (hc : intermediateCodeNum P pass (.value true (.ok l) t) (.value true (.ok 0) t') d u = .ok code)
    (hc' : intermediateCode P pass (some l) (some 0) d u = .ok code') :
    code ≠ code' ∧ (∃ pp, code = checkText P (intermediateRecord true (lotEntropy salt l.toNat 0) pp)) ∧
      ∃ pp, code' = checkText P (intermediateRecord false salt pp) := by
  have hu := ((C74_used (P := P) pass (.ok l) (.ok 0) t t' d u salt hd (Or.inr h8)).2.2 l 0 rfl rfl).2.2 hl (by decide) _ _ rfl rfl
  have e1 : ∃ pp, code = checkText P (intermediateRecord true (lotEntropy salt l.toNat 0) pp) := by
    by_cases hk : IsPrivateKey (passFactor P true pass (lotEntropy salt l.toNat (0 : Int).toNat))
    · obtain ⟨pp, hpp, _⟩ := priv_ok _ hk
      have := hu.2 pp hk hpp
      rw [hc] at this
      exact ⟨pp, Except.ok.inj this⟩
    · have := hu.1 hk
      rw [hc] at this
      simp at this
  have huf : usesLot (some l) (some 0) = false := by simp [usesLot]
  have he : ownerEntropy (some l) (some 0) salt = salt := by simp [ownerEntropy, huf]
  have hi := intermediate_eq (P := P) pass (some l) (some 0) d u salt hd _ rfl
  have ha : Accepted (some l) (some 0) salt.length := Or.inr ⟨Or.inr h8, l, 0, rfl, rfl, Or.inr (Or.inl rfl)⟩
  rw [huf, he] at hi
  have e2 : ∃ pp, code' = checkText P (intermediateRecord false salt pp) := by
    by_cases hk : IsPrivateKey (passFactor P false pass salt)
    · obtain ⟨pp, hpp, _⟩ := priv_ok _ hk
      have := hi.2.2 ha pp hk hpp
      rw [hc'] at this
      exact ⟨pp, Except.ok.inj this⟩
    · have := hi.2.1 ha hk
      rw [hc'] at this
      simp at this
  refine ⟨?_, e1, e2⟩
  obtain ⟨pp, rfl⟩ := e1
  obtain ⟨pp', rfl⟩ := e2
  intro h
  have hd := congrArg (checkDecode P.sha256) h
  rw [show checkDecode P.sha256 (checkText P (intermediateRecord true (lotEntropy salt l.toNat 0) pp)) = .ok _ from
      C03_check_roundtrip P.sha256 hP.sha256_length _ bitcoinAlphabet_valid _,
    show checkDecode P.sha256 (checkText P (intermediateRecord false salt pp')) = .ok _ from
      C03_check_roundtrip P.sha256 hP.sha256_length _ bitcoinAlphabet_valid _] at hd
  have := congrArg (List.take 8) (Except.ok.inj hd)
  simp [intermediateRecord, magicBytes] at this

/-- Cases of C74: `lot="100000"`, `sequence="0"` (a code with lot 100000 and sequence 0), `lot="x"` (the exception of `int`), `lot="0"`
(out of range, not ignored), `lot=""` (ignored), `lot=100000.9` (an object converted to 100000) alone. -/
example (parse : String → Py Int) (h1 : parse "100000" = .ok 100000) (h2 : parse "0" = .ok 0)
    (h3 : parse "x" = .error ⟨.valueError, "invalid literal for int() with base 10: 'x'"⟩) :
    (∃ pp, intermediateCodeNum (toy 1 1) [] (.text parse "100000") (.text parse "0") (.bytes [1, 2, 3, 4]) []
      = .ok (checkText (toy 1 1) (intermediateRecord true [1, 2, 3, 4, 0x18, 0x6a, 0, 0] pp))) ∧
    intermediateCodeNum (toy 1 1) [] (.text parse "x") (.text parse "0") (.bytes [1, 2, 3, 4]) []
      = .error ⟨.valueError, "invalid literal for int() with base 10: 'x'"⟩ ∧
    intermediateCodeNum (toy 1 1) [] (.text parse "0") (.text parse "0") (.bytes [1, 2, 3, 4]) []
      = .error ⟨.error, "Invalid lot, (expected: 100000 <= lot <= 999999 | got: '0')"⟩ ∧
    intermediateCodeNum (toy 1 1) [] (.text parse "") (.text parse "0") (.bytes [1, 2, 3, 4]) []
      = intermediateCode (toy 1 1) [] (some 0) (some 0) (.bytes [1, 2, 3, 4]) [] ∧
    intermediateCodeNum (toy 1 1) [] (.value true (.ok 100000) "100000.9") .none (.bytes [1, 2, 3, 4, 5, 6, 7, 8]) []
      = .error ⟨.error, "Both lot & sequence are required got: (lot 100000.9) & (sequence None)"⟩ := by
  have hs : Supplies (.bytes [1, 2, 3, 4]) [] [1, 2, 3, 4] := supplies rfl
  have t : ∀ s : String, s ≠ "" → NumArg.text parse s = .value true (parse s) s := fun s h => by simp [NumArg.text, h]
  have hk : IsPrivateKey (List.replicate 32 1) := by decide +kernel
  obtain ⟨pp, hpp, _⟩ := priv_ok _ hk
  rw [t "100000" (by decide), t "0" (by decide), t "x" (by decide), h1, h2, h3]
  have hu := fun i i' a b => C74_used (P := toy 1 1) [] i i' a b (.bytes [1, 2, 3, 4]) [] _ hs (Or.inl rfl)
  refine ⟨⟨pp, ?_⟩, ?_, ?_, ?_, ?_⟩
  · have := (((hu (.ok 100000) (.ok 0) "100000" "0").2.2 _ _ rfl rfl).2.2 (by decide) (by decide) [1, 2, 3, 4, 0x18, 0x6a, 0, 0] _ (by decide +kernel) rfl).2 pp
    exact this (by exact hk) (by exact hpp)
  · exact (hu _ _ _ _).1 _ rfl
  · exact (((hu _ _ _ _).2.2 _ _ rfl rfl).1 (by decide)).trans (by decide +kernel)
  · exact C74_ignored _ _ _ _ _ _ _ _ _ (Or.inl (by simp))
  · exact ((C74_one_missing (P := toy 1 1) [] true (.ok 100000) "100000.9" (.bytes [1, 2, 3, 4, 5, 6, 7, 8]) [] _ (supplies rfl) rfl).1 rfl).trans
      (by decide +kernel)

end Bip38.Props
