import Verif.Py
/-!
# How Python shows a `bytes` object (C39)
-/
namespace Bip38.Spec

/-- `0` … `9`, `a` … `f`. -/
def hexChar (n : Nat) : Char := if n < 10 then Char.ofNat (48 + n) else Char.ofNat (87 + n)

/-- The text `t` shows the byte `x` between quotes `q`: a printable ASCII character stands for itself, backslash and the quote
get a backslash, tab, line feed and carriage return have their letters, everything else is written as `\xhh`. -/
def Shows (q : Char) (x : UInt8) (t : Str) : Prop :=
  (32 ≤ x.toNat ∧ x.toNat ≤ 126 ∧ x.toNat ≠ 92 ∧ x.toNat ≠ q.toNat ∧ t = [Char.ofNat x.toNat]) ∨
  ((x.toNat = 92 ∨ x.toNat = q.toNat) ∧ t = ['\\', Char.ofNat x.toNat]) ∨
  (x.toNat = 9 ∧ t = ['\\', 't']) ∨ (x.toNat = 10 ∧ t = ['\\', 'n']) ∨ (x.toNat = 13 ∧ t = ['\\', 'r']) ∨
  ((x.toNat < 32 ∨ 127 ≤ x.toNat) ∧ x.toNat ∉ [9, 10, 13] ∧ t = ['\\', 'x', hexChar (x.toNat / 16), hexChar (x.toNat % 16)])

instance (q : Char) (x : UInt8) (t : Str) : Decidable (Shows q x t) := by
  unfold Shows
  infer_instance

end Bip38.Spec
