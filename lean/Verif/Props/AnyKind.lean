import Verif.Lemmas.Utf8
import Verif.Props.Encoding
/-!
# Property C72: the Base58 functions on arguments of any kind
-/
namespace Bip38.Props
open Bip38 Spec

/-- C72: `ensure_string` of bytes returns the text whose UTF-8 form they are … -/
theorem C72_ensure_bytes (b : Bytes) (s : Str) : ensureStringAny (.bytes b) = .ok s ↔ utf8 s = b := by
  rw [← utf8Decode_iff]
  simp only [ensureStringAny, raise]
  cases h : utf8Decode b with
  | none => simp
  | some t => simp

/-- … so it inverts `bytes(text, "utf-8")` … -/
theorem C72_ensure_utf8 (s : Str) : ensureStringAny (.bytes (utf8 s)) = .ok s := (C72_ensure_bytes _ _).mpr rfl

/-- … and raises `ValueError` for the bytes that are not the UTF-8 form of any text. -/
theorem C72_ensure_invalid (b : Bytes) :
    (∃ e, ensureStringAny (.bytes b) = .error e ∧ e.cls = .valueError) ↔ ∀ s, utf8 s ≠ b := by
  constructor
  · rintro ⟨e, h, _⟩ s hs
    rw [(C72_ensure_bytes b s).mpr hs] at h
    simp at h
  · intro h
    cases hr : ensureStringAny (.bytes b) with
    | ok s => exact absurd ((C72_ensure_bytes b s).mp hr) (h s)
    | error e =>
      refine ⟨e, rfl, ?_⟩
      simp only [ensureStringAny, raise] at hr
      cases hd : utf8Decode b with
      | none => rw [hd] at hr; simp only at hr; rw [← Except.error.inj hr]
      | some t => rw [hd] at hr; simp at hr

/-- C72: `ensure_string` keeps text and refuses everything else. -/
theorem C72_ensure_other (s : Str) : ensureStringAny (.str s) = .ok s
    ∧ ensureStringAny .none = .error ⟨.valueError, "Invalid value for string"⟩
    ∧ ensureStringAny .other = .error ⟨.valueError, "Invalid value for string"⟩ := ⟨rfl, rfl, rfl⟩

/-- C72: what is not text is refused by `decode` and `check_decode` with `TypeError`; text is decoded as described by C01–C04. -/
theorem C72_decode (sha256 : Bytes → Bytes) (alphabet : Str) (d : Data) :
    (∀ s, d = .str s → b58decodeAny d alphabet = b58decode s alphabet ∧ checkDecodeAny sha256 d alphabet = checkDecode sha256 s alphabet) ∧
    ((∀ s, d ≠ .str s) → (∃ e, b58decodeAny d alphabet = .error e ∧ e.cls = .typeError)
      ∧ ∃ e, checkDecodeAny sha256 d alphabet = .error e ∧ e.cls = .typeError) := by
  refine ⟨fun s hs => by subst hs; exact ⟨rfl, rfl⟩, fun h => ?_⟩
  cases d with
  | str s => exact absurd rfl (h s)
  | none => exact ⟨⟨_, rfl, rfl⟩, ⟨_, rfl, rfl⟩⟩
  | bytes b => exact ⟨⟨_, rfl, rfl⟩, ⟨_, rfl, rfl⟩⟩
  | other => exact ⟨⟨_, rfl, rfl⟩, ⟨_, rfl, rfl⟩⟩

/-- C72: `encode` and `string_to_int` refuse text, even the empty text, and `None`; bytes are encoded as described by C01–C04. -/
theorem C72_encode (alphabet : Str) (s : Str) (b : Bytes) :
    (∃ e, b58encodeAny (.str s) alphabet = some (.error e) ∧ e.cls = .typeError) ∧
    (∃ e, stringToIntAny (.str s) = some (.error e) ∧ e.cls = .typeError) ∧
    (∃ e, b58encodeAny .none alphabet = some (.error e) ∧ e.cls = .typeError) ∧
    b58encodeAny (.bytes b) alphabet = some (.ok (b58encode b alphabet)) ∧
    stringToIntAny (.bytes b) = some (.ok (be b)) := by
  refine ⟨⟨_, rfl, rfl⟩, ⟨_, rfl, rfl⟩, ⟨_, rfl, rfl⟩, rfl, ?_⟩
  simp only [stringToIntAny, stringToInt_eq, be_eq]

/-- Concrete cases: the two bytes of `é`; an overlong form, a surrogate and a lone continuation byte are refused. -/
example : ensureStringAny (.bytes [0xc3, 0xa9]) = .ok ['é'] ∧ (∃ e, ensureStringAny (.bytes [0xc0, 0xaf]) = .error e)
    ∧ (∃ e, ensureStringAny (.bytes [0xed, 0xa0, 0x80]) = .error e) ∧ (∃ e, ensureStringAny (.bytes [0x80]) = .error e)
    ∧ ∀ s, utf8 s ≠ [0xc0, 0xaf] :=
  ⟨by decide +kernel, ⟨_, rfl⟩, ⟨_, rfl⟩, ⟨_, rfl⟩, (C72_ensure_invalid _).mp ⟨_, rfl, rfl⟩⟩

end Bip38.Props
