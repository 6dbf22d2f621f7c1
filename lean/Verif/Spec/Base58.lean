import Verif.Py
/-! # Specification vocabulary for Base58 -/
namespace Bip38.Spec

/-- An alphabet usable for a positional text encoding: at least two characters, all different, all ASCII. -/
structure ValidAlphabet (a : Str) : Prop where
  two : 2 ≤ a.length
  nodup : a.Nodup
  ascii : ∀ c ∈ a, c.toNat < 128

/-- Well-formed text over an alphabet. -/
def WellFormed (a : Str) (s : Str) : Prop := ∀ c ∈ s, c ∈ a

/-- Digit denoted by a character: its position in the alphabet; a foreign character counts as `-1`. -/
def digit (a : Str) (c : Char) : Int := if c ∈ a then (a.idxOf c : Int) else -1

/-- Value of a digit sequence, most significant digit first. -/
def value (base : Nat) : List Int → Int
  | [] => 0
  | d :: ds => d * base ^ ds.length + value base ds

end Bip38.Spec
