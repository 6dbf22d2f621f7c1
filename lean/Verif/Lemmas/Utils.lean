import Verif.Lemmas.Bytes
/-! # Lemmas on hexadecimal text, `get_bytes`, `bytes_to_string` and slices -/
namespace Bip38

@[simp] theorem getBytes_bytes (b : Bytes) (u : Bool) : getBytes (.bytes b) u = .ok b := by
  unfold getBytes Data.truthy
  cases b <;> simp

@[simp] theorem bytesToString_bytes (b : Bytes) : bytesToString (.bytes b) = .ok (hex b) := by
  unfold bytesToString Data.truthy
  cases b <;> simp [hex]

theorem hexVal_hexDigit : ∀ n : Fin 16, hexVal (hexDigit n) = some n.val := by decide
theorem isHexSpace_hexDigit : ∀ n : Fin 16, isHexSpace (hexDigit n) = false := by decide

theorem hex_length (b : Bytes) : (hex b).length = 2 * b.length := by
  unfold hex
  induction b with
  | nil => rfl
  | cons c b ih => simp at *; omega

theorem hex_cons (c : UInt8) (b : Bytes) :
    hex (c :: b) = hexDigit (c.toNat / 16) :: hexDigit (c.toNat % 16) :: hex b := by simp [hex]

theorem fromHex_hex (b : Bytes) : fromHex (hex b) = some b := by
  induction b with
  | nil => rfl
  | cons c b ih =>
    have hc := c.toNat_lt
    have h1 := hexVal_hexDigit ⟨c.toNat / 16, by omega⟩
    have h2 := hexVal_hexDigit ⟨c.toNat % 16, by omega⟩
    have h3 := isHexSpace_hexDigit ⟨c.toNat / 16, by omega⟩
    simp only at h1 h2 h3
    rw [hex_cons, fromHex, h3, h1, h2, ih]
    have h4 : 16 * (c.toNat / 16) + c.toNat % 16 = c.toNat := by omega
    simp [h4]

@[simp] theorem getBytes_hex (b : Bytes) : getBytes (.str (hex b)) = .ok b := by
  cases b with
  | nil => rfl
  | cons c b =>
    have : (Data.str (hex (c :: b))).truthy = true := by simp [Data.truthy, hex_cons]
    simp [getBytes, this, fromHex_hex]

theorem getBytes_text (s : Str) : getBytes (.str s) (unhexlify := false) = .ok (utf8 s) := by
  unfold getBytes Data.truthy
  cases s <;> simp [utf8]

theorem hex_inj {a b : Bytes} (h : hex a = hex b) : a = b := by
  have := fromHex_hex a
  rw [h, fromHex_hex] at this
  exact (Option.some.inj this).symm

@[simp] theorem slice_length {α : Type} (a b : Nat) (l : List α) : (slice a b l).length = min b l.length - a := by
  simp [slice]

theorem slice_zero {α : Type} (b : Nat) (l : List α) : slice 0 b l = l.take b := by simp [slice]

theorem lastN_length {α : Type} (n : Nat) (l : List α) (h : n ≤ l.length) : (lastN n l).length = n := by
  simp [lastN]; omega

theorem lastN_append {α : Type} (a b : List α) (n : Nat) (h : b.length = n) : lastN n (a ++ b) = b := by
  unfold lastN
  have : (a ++ b).length - n = a.length := by simp; omega
  rw [this, List.drop_left]

theorem dropLastN_append {α : Type} (a b : List α) (n : Nat) (h : b.length = n) : dropLastN n (a ++ b) = a := by
  unfold dropLastN
  have : (a ++ b).length - n = a.length := by simp; omega
  rw [this, List.take_left]

theorem dropLastN_append_lastN {α : Type} (n : Nat) (l : List α) : dropLastN n l ++ lastN n l = l := by
  simp [dropLastN, lastN]

end Bip38
