import Verif.Spec.Bytes
import Verif.Model.Utils
import Mathlib.Tactic.Ring
import Mathlib.Tactic.Linarith
import Mathlib.Data.Nat.Digits.Lemmas
import Mathlib.Data.Nat.Bitwise
/-! # Lemmas on positional notation -/
namespace Bip38

theorem foldl_be (b : Bytes) (acc : Nat) :
    b.foldl (fun acc c => acc * 256 + c.toNat) acc = acc * 256 ^ b.length + fromBE b := by
  induction b generalizing acc with
  | nil => simp [fromBE]
  | cons c b ih =>
    simp only [fromBE, List.foldl_cons, List.length_cons]
    rw [ih, ih (0 * 256 + c.toNat)]
    ring

@[simp] theorem fromBE_nil : fromBE [] = 0 := rfl

theorem fromBE_cons (c : UInt8) (b : Bytes) : fromBE (c :: b) = c.toNat * 256 ^ b.length + fromBE b := by
  have := foldl_be b (0 * 256 + c.toNat)
  simpa [fromBE] using this

theorem fromBE_append (a b : Bytes) : fromBE (a ++ b) = fromBE a * 256 ^ b.length + fromBE b := by
  rw [fromBE, List.foldl_append, foldl_be b]; rfl

theorem fromBE_lt (b : Bytes) : fromBE b < 256 ^ b.length := by
  induction b with
  | nil => simp
  | cons c b ih =>
    rw [fromBE_cons, List.length_cons, pow_succ]
    have := c.toNat_lt
    nlinarith

theorem fromBE_snoc (a : Bytes) (c : UInt8) : fromBE (a ++ [c]) = fromBE a * 256 + c.toNat := by
  simp [fromBE_append, fromBE_cons]

@[simp] theorem toLE_length (k n : Nat) : (toLE k n).length = k := by
  induction k generalizing n with
  | zero => rfl
  | succ k ih => simp [toLE, ih]

@[simp] theorem toBE_length (k n : Nat) : (toBE k n).length = k := by simp [toBE]

theorem fromBE_reverse_toLE (k n : Nat) (h : n < 256 ^ k) : fromBE (toLE k n).reverse = n := by
  induction k generalizing n with
  | zero => simp at h; simp [toLE, h]
  | succ k ih =>
    rw [toLE, List.reverse_cons, fromBE_snoc, ih (n / 256) (by rw [pow_succ] at h; omega)]
    have : (UInt8.ofNat (n % 256)).toNat = n % 256 := by
      simp [UInt8.toNat_ofNat']
    rw [this]; omega

theorem fromBE_toBE (k n : Nat) (h : n < 256 ^ k) : fromBE (toBE k n) = n := fromBE_reverse_toLE k n h

theorem toLE_snoc_value (b : Bytes) : toLE b.length (fromBE b) = b.reverse := by
  induction b using List.reverseRecOn with
  | nil => rfl
  | append_singleton b c ih =>
    rw [fromBE_snoc, List.length_append, List.length_singleton, toLE]
    have hc := c.toNat_lt
    have h1 : (fromBE b * 256 + c.toNat) % 256 = c.toNat := by omega
    have h2 : (fromBE b * 256 + c.toNat) / 256 = fromBE b := by omega
    rw [h1, h2, ih]; simp

theorem toBE_fromBE (b : Bytes) : toBE b.length (fromBE b) = b := by
  rw [toBE, toLE_snoc_value, List.reverse_reverse]

theorem toBE_fromBE' {k : Nat} (b : Bytes) (h : b.length = k) : toBE k (fromBE b) = b := by
  subst h; exact toBE_fromBE b

theorem fromBE_inj {a b : Bytes} (hl : a.length = b.length) (h : fromBE a = fromBE b) : a = b := by
  rw [← toBE_fromBE a, ← toBE_fromBE b, hl, h]

theorem fromBE_dropZeros (b : Bytes) : fromBE (b.dropWhile (· == 0)) = fromBE b := by
  induction b with
  | nil => rfl
  | cons c b ih =>
    rw [List.dropWhile_cons]
    split
    · rename_i h
      have : c = 0 := by simpa using h
      subst this
      rw [ih, fromBE_cons]; simp
    · rfl

theorem fromBE_strip (b : Bytes) : fromBE (strip b) = fromBE b := by
  rw [strip, ← fromBE_dropZeros b]
  split
  · rename_i h; rw [h]; rfl
  · rfl

theorem dropWhile_zero_head (b : Bytes) (c : UInt8) (t : Bytes) (h : b.dropWhile (· == 0) = c :: t) : c ≠ 0 := by
  have := List.head?_dropWhile_not (p := fun x : UInt8 => x == 0) (l := b)
  rw [h] at this
  simpa using this

theorem bitLength_bytes (c : UInt8) (t : Bytes) (hc : c ≠ 0) :
    (bitLength (fromBE (c :: t)) + 7) / 8 = t.length + 1 := by
  have hc' : 1 ≤ c.toNat := by
    rcases Nat.eq_zero_or_pos c.toNat with h | h
    · exact absurd (UInt8.toNat_inj.mp (by simpa using h)) hc
    · exact h
  have h1 := fromBE_cons c t
  have hlt := fromBE_lt (c :: t)
  have hge : 256 ^ t.length ≤ fromBE (c :: t) := by rw [h1]; nlinarith [Nat.zero_le (256 ^ t.length)]
  have hne : fromBE (c :: t) ≠ 0 := by
    have : 0 < 256 ^ t.length := by positivity
    omega
  unfold bitLength
  rw [if_neg hne]
  have e1 : (256:Nat) ^ t.length = 2 ^ (8 * t.length) := by rw [pow_mul]; norm_num
  have e2 : (256:Nat) ^ (c :: t).length = 2 ^ (8 * (t.length + 1)) := by rw [pow_mul]; norm_num
  rw [e1] at hge
  rw [e2] at hlt
  have l1 : 8 * t.length ≤ (fromBE (c :: t)).log2 := (Nat.le_log2 hne).mpr hge
  have l2 : (fromBE (c :: t)).log2 < 8 * (t.length + 1) := (Nat.log2_lt hne).mpr hlt
  omega

theorem two_pow_eight (k : Nat) : (2:Nat) ^ (8 * k) = 256 ^ k := by rw [pow_mul]; norm_num

theorem two_pow_eight_int (k : Nat) : (2:Int) ^ (8 * k) = ((256 ^ k : Nat) : Int) := by
  rw [pow_mul]; norm_num

theorem intToBytes_nat (n k : Nat) (h : n < 256 ^ k) : intToBytes (n : Int) k .big false = .ok (toBE k n) := by
  unfold intToBytes
  have h1 : ¬ ((n : Int) < 0) := by omega
  have h2 : (n : Int) < 2 ^ (8 * k) := by rw [two_pow_eight_int]; exact_mod_cast h
  simp [h1, h2]

/-- `integer_to_bytes` without a byte count: the bytes without their leading zeros. -/
theorem integerToBytes_fromBE (b : Bytes) : integerToBytes ((fromBE b : Nat) : Int) = .ok (strip b) := by
  rw [strip, ← fromBE_dropZeros b]
  rcases hb : b.dropWhile (· == 0) with _ | ⟨c, t⟩
  · simp; decide
  · have hc := dropWhile_zero_head b c t hb
    have hbl := bitLength_bytes c t hc
    have hpos : 0 < fromBE (c :: t) := by
      rcases Nat.eq_zero_or_pos (fromBE (c :: t)) with h | h
      · rw [h] at hbl; simp [bitLength] at hbl
      · exact h
    have hpos' : (0 : Int) < (fromBE (c :: t) : Nat) := by exact_mod_cast hpos
    simp only [integerToBytes, hpos', if_true, Int.toNat_natCast, hbl]
    rw [intToBytes_nat _ _ (by simpa using fromBE_lt (c :: t))]
    have := toBE_fromBE (c :: t)
    simp at this
    simp [this]

theorem length_strip_le (b : Bytes) (h : b ≠ []) : (strip b).length ≤ b.length := by
  unfold strip
  split
  · have := List.length_pos_of_ne_nil h; simpa
  · exact (List.dropWhile_sublist _).length_le

theorem strip_cons_ne (c : UInt8) (t : Bytes) (h : c ≠ 0) : strip (c :: t) = c :: t := by
  simp [strip, h]

theorem strip_zero_cons (c : UInt8) (t : Bytes) : (strip (0 :: c :: t)).length < (0 :: c :: t).length := by
  have : strip (0 :: c :: t) = strip (c :: t) := by simp [strip, List.dropWhile_cons]
  rw [this]
  have := length_strip_le (c :: t) (by simp)
  simp at *; omega

/-- Stripping keeps the length exactly when there is no leading zero (two bytes or more). -/
theorem strip_length_eq_iff (b : Bytes) (h : 2 ≤ b.length) : (strip b).length = b.length ↔ b.head? ≠ some 0 := by
  match b, h with
  | c :: d :: t, _ =>
    by_cases hc : c = 0
    · subst hc
      have := strip_zero_cons d t
      simp; simp at this; omega
    · rw [strip_cons_ne _ _ hc]; simp [hc]

theorem strip_of_head (b : Bytes) (h : b ≠ []) (h0 : b.head? ≠ some 0) : strip b = b := by
  match b, h with
  | c :: t, _ => exact strip_cons_ne c t (by simpa using h0)

theorem strip_ne_nil (b : Bytes) : strip b ≠ [] := by
  unfold strip; split <;> simp_all

theorem fromBE_xor (a b : Bytes) (h : a.length = b.length) :
    fromBE a ^^^ fromBE b = fromBE (List.zipWith (· ^^^ ·) a b) := by
  induction a using List.reverseRecOn generalizing b with
  | nil =>
    have : b = [] := List.length_eq_zero_iff.mp (by simpa using h.symm)
    subst this; rfl
  | append_singleton a c ih =>
    rcases List.eq_nil_or_concat b with hb | ⟨b', d, hb⟩
    · subst hb; simp at h
    · simp only [List.concat_eq_append] at hb
      subst hb
      have hl : a.length = b'.length := by simpa using h
      rw [List.zipWith_append hl]
      simp only [List.zipWith_cons_cons, List.zipWith_nil_right, fromBE_snoc]
      rw [← ih b' hl, UInt8.toNat_xor]
      have e : ∀ x y : Nat, y < 256 → x * 256 + y = 2 ^ 8 * x + y := by intros; ring
      have hc := c.toNat_lt
      have hd := d.toNat_lt
      have hx : c.toNat ^^^ d.toNat < 2 ^ 8 := Nat.xor_lt_two_pow hc hd
      rw [e _ _ hc, e _ _ hd, e _ _ hx]
      apply Nat.eq_of_testBit_eq
      intro i
      rw [Nat.testBit_xor, Nat.testBit_two_pow_mul_add _ hc, Nat.testBit_two_pow_mul_add _ hd,
        Nat.testBit_two_pow_mul_add _ hx]
      split <;> simp

open Spec in
theorem be_eq (b : Bytes) : be b = fromBE b := by
  induction b with
  | nil => rfl
  | cons c t ih => rw [fromBE_cons, be, ih]

end Bip38
