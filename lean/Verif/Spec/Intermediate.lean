import Verif.Spec.Bip38
/-! # Specification vocabulary for `intermediate_code` -/
namespace Bip38.Spec

/-- The documented inputs: an 8-byte salt without lot and sequence, or a salt of 4 or 8 bytes with both, in range. -/
def Documented (lot sequence : Option Int) (saltLength : Nat) : Prop :=
  (saltLength = 8 ∧ lot = none ∧ sequence = none) ∨
  ((saltLength = 4 ∨ saltLength = 8) ∧ ∃ l s, lot = some l ∧ sequence = some s ∧ 100000 ≤ l ∧ l ≤ 999999 ∧ 0 ≤ s ∧ s ≤ 4095)

/-- The inputs that get through the validation of the code. -/
def Accepted (lot sequence : Option Int) (saltLength : Nat) : Prop :=
  (saltLength = 8 ∧ (lot = none ∨ lot = some 0) ∧ (sequence = none ∨ sequence = some 0)) ∨
  ((saltLength = 4 ∨ saltLength = 8) ∧ ∃ l s, lot = some l ∧ sequence = some s ∧
    (l = 0 ∨ s = 0 ∨ (100000 ≤ l ∧ l ≤ 999999 ∧ 0 ≤ s ∧ s ≤ 4095)))

/-- Both lot and sequence are given and none is 0: the code then uses them. -/
def usesLot (lot sequence : Option Int) : Bool := lot ≠ none ∧ lot ≠ some 0 ∧ sequence ≠ none ∧ sequence ≠ some 0

/-- Owner entropy of the code: the salt, or four bytes of it and the lot and sequence numbers. -/
def ownerEntropy (lot sequence : Option Int) (salt : Bytes) : Bytes :=
  if usesLot lot sequence then lotEntropy salt (lot.getD 0).toNat (sequence.getD 0).toNat else salt

end Bip38.Spec
