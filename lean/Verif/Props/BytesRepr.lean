import Verif.Model.Exceptions
import Verif.Spec.BytesRepr
import Verif.Lemmas.Ec
/-!
# Property C39, bytes in the text of exceptions
-/
namespace Bip38.Props
open Bip38 Spec

theorem shows_byte (q : Char) (hq : q = '\'' ∨ q = '"') (x : UInt8) : Shows q x (byteRepr q x) := by
  rcases hq with rfl | rfl
  all_goals exact forall_byte (p := fun x => Shows _ x (byteRepr _ x)) (by decide +kernel) x

/-- C39: how the texts of exceptions show bytes.  `b`, a quote, one piece of text per byte, and the quote again; double quotes exactly
if the bytes have a single quote and no double quote. -/
theorem C39_bytes_shown (b : Bytes) : ∃ (q : Char) (pieces : List Str), bytesRepr b = ['b', q] ++ pieces.flatten ++ [q] ∧
    List.Forall₂ (Shows q) b pieces ∧ ((q = '"' ∧ 39 ∈ b ∧ 34 ∉ b) ∨ (q = '\'' ∧ ¬ (39 ∈ b ∧ 34 ∉ b))) := by
  have main : ∀ q, (q = '\'' ∨ q = '"') → List.Forall₂ (Shows q) b (b.map (byteRepr q)) := by
    intro q hq
    induction b with
    | nil => exact .nil
    | cons x r ih => exact .cons (shows_byte q hq x) ih
  unfold bytesRepr
  by_cases h : 39 ∈ b ∧ 34 ∉ b
  · simp only [if_pos h]
    exact ⟨'"', b.map (byteRepr '"'), by simp [List.flatMap], main _ (Or.inr rfl), Or.inl ⟨rfl, h⟩⟩
  · simp only [if_neg h]
    exact ⟨'\'', b.map (byteRepr '\''), by simp [List.flatMap], main _ (Or.inl rfl), Or.inr ⟨rfl, h⟩⟩

/-- C39: the text is made of printable ASCII characters only. -/
theorem C39_bytes_printable (b : Bytes) : ∀ ch ∈ bytesRepr b, 32 ≤ ch.toNat ∧ ch.toNat ≤ 126 := by
  have piece : ∀ q, (q = '\'' ∨ q = '"') → ∀ x : UInt8, ∀ ch ∈ byteRepr q x, 32 ≤ ch.toNat ∧ ch.toNat ≤ 126 := by
    rintro q (rfl | rfl) x
    all_goals exact forall_byte (p := fun x => ∀ ch ∈ byteRepr _ x, 32 ≤ ch.toNat ∧ ch.toNat ≤ 126) (by decide +kernel) x
  have main : ∀ q, (q = '\'' ∨ q = '"') → ∀ ch ∈ 'b' :: q :: (b.flatMap (byteRepr q) ++ [q]), 32 ≤ ch.toNat ∧ ch.toNat ≤ 126 := by
    intro q hq ch hc
    have hq' : 32 ≤ q.toNat ∧ q.toNat ≤ 126 := by rcases hq with rfl | rfl <;> decide
    simp only [List.mem_cons, List.mem_append, List.mem_flatMap, List.not_mem_nil, or_false] at hc
    rcases hc with rfl | rfl | ⟨x, _, hx⟩ | rfl
    · decide
    · exact hq'
    · exact piece q hq x ch hx
    · exact hq'
  unfold bytesRepr
  by_cases h : 39 ∈ b ∧ 34 ∉ b
  · simp only [if_pos h]
    exact main _ (Or.inr rfl)
  · simp only [if_neg h]
    exact main _ (Or.inl rfl)

end Bip38.Props
