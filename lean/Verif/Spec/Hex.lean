import Verif.Py
/-! # Specification of hexadecimal text (as accepted by Python's `bytes.fromhex`) -/
namespace Bip38.Spec

/-- `c` is a hexadecimal digit, in either case, of value `n`. -/
def HexDigit (c : Char) (n : Nat) : Prop :=
  "0123456789abcdef".toList[n]? = some c ∨ "0123456789ABCDEF".toList[n]? = some c

/-- ASCII white space: space and the characters with codes 9 to 13. -/
def HexSpace (c : Char) : Prop := c = ' ' ∨ (9 ≤ c.toNat ∧ c.toNat ≤ 13)

/-- `HexText s b`: the text `s` denotes the bytes `b`; two adjacent digits per byte, white space between bytes. -/
inductive HexText : Str → Bytes → Prop
  | nil : HexText [] []
  | space {c s b} : HexSpace c → HexText s b → HexText (c :: s) b
  | byte {h l s b x y} : HexDigit h x → HexDigit l y → HexText s b → HexText (h :: l :: s) (UInt8.ofNat (16 * x + y) :: b)

end Bip38.Spec
