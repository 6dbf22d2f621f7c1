import Verif.Spec.Hex
import Verif.Model.Utils
/-! # Optional byte arguments with a random default (`seed`, `owner_salt`) -/
namespace Bip38.Spec

/-- An argument that counts as absent: `None`, `b""` or `""`. -/
def Absent (d : Data) : Prop := d = .none ∨ d = .bytes [] ∨ d = .str []

/-- The bytes `b` which a call uses for an optional argument `d`, when the operating system supplies the random bytes `u`: `u` if the
argument is absent, else the bytes themselves or the bytes denoted by the hexadecimal text. -/
def Supplies (d : Data) (u b : Bytes) : Prop :=
  (Absent d ∧ b = u) ∨ (¬ Absent d ∧ (d = .bytes b ∨ ∃ s, d = .str s ∧ HexText s b))

end Bip38.Spec
