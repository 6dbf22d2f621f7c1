import Verif.Lemmas.Shape
import Verif.Lemmas.P2pkh
/-! # First characters of Base58 text -/
namespace Bip38
open Spec

/-- Base58 text of a byte string whose value lies between `lo * 58 ^ k` and `(hi + 1) * 58 ^ k`. -/
theorem first_char (pre rest : Bytes) (m k lo hi : Nat) (hm : rest.length = m) (h0 : pre.head? ≠ some 0) (hne : pre ≠ [])
    (hlo : 0 < lo) (hhi : hi < 58) (h1 : lo * 58 ^ k ≤ fromBE pre * 256 ^ m) (h2 : (fromBE pre + 1) * 256 ^ m ≤ (hi + 1) * 58 ^ k) :
    ∃ d tail, lo ≤ d ∧ d ≤ hi ∧ tail.length = k ∧ b58encode (pre ++ rest) = bitcoinAlphabet.getD d '?' :: tail := by
  subst hm
  have h3 : fromBE rest < 256 ^ rest.length := fromBE_lt rest
  have hv : fromBE (pre ++ rest) = fromBE pre * 256 ^ rest.length + fromBE rest := fromBE_append _ _
  have h4 : (fromBE pre + 1) * 256 ^ rest.length = fromBE pre * 256 ^ rest.length + 256 ^ rest.length := by ring
  have hpos : 0 < 58 ^ k := by positivity
  have hd1 : lo ≤ fromBE (pre ++ rest) / 58 ^ k := by
    rw [Nat.le_div_iff_mul_le hpos]; omega
  have hd2 : fromBE (pre ++ rest) / 58 ^ k < hi + 1 := by
    rw [Nat.div_lt_iff_lt_mul hpos]; omega
  obtain ⟨T, hT⟩ : ∃ T, fromBE (pre ++ rest) / 58 ^ k = T := ⟨_, rfl⟩
  rw [hT] at hd1 hd2
  have hh : (pre ++ rest).head? ≠ some 0 := by
    cases pre with
    | nil => exact absurd rfl hne
    | cons a t => simpa using h0
  obtain ⟨tail, hl, he⟩ := shape_div (pre ++ rest) T k hh (by simp [hne]) (by omega) hT
  refine ⟨T, tail, hd1, by omega, hl, ?_⟩
  rw [he, beDigits, Nat.digits_of_lt 58 T (by omega) (by omega)]
  rfl

/-- The letters `lo … hi` of the Bitcoin alphabet are exactly the letters of `chars`. -/
def lettersCheck (chars : String) (lo hi : Nat) : Bool :=
  decide (0 < lo ∧ hi < 58) && (List.range (hi + 1)).all fun d => decide (d < lo ∨ bitcoinAlphabet.getD d '?' ∈ chars.toList)

/-- Checks that the Base58 text of the prefix followed by `m` bytes has `len` characters and starts with a letter of `chars`. -/
def startCheck (pre : Bytes) (m : Nat) (chars : String) (len : Nat) : Bool :=
  decide (pre.head? ≠ some 0) && decide (pre ≠ []) && decide (0 < len) &&
    lettersCheck chars (fromBE pre * 256 ^ m / 58 ^ (len - 1)) (((fromBE pre + 1) * 256 ^ m - 1) / 58 ^ (len - 1))

theorem startCheck_sound (pre : Bytes) (m : Nat) (chars : String) (len : Nat) (h : startCheck pre m chars len = true)
    (rest : Bytes) (hm : rest.length = m) :
    (b58encode (pre ++ rest)).length = len ∧ ∃ ch ∈ chars.toList, (b58encode (pre ++ rest)).head? = some ch := by
  unfold startCheck lettersCheck at h
  obtain ⟨k, hk⟩ : ∃ k, len - 1 = k := ⟨_, rfl⟩
  simp only [hk, Bool.and_eq_true, decide_eq_true_eq, List.all_eq_true, List.mem_range] at h
  obtain ⟨⟨⟨h0, hne⟩, hlen⟩, ⟨hlo, hhi⟩, hall⟩ := h
  have hpos : 0 < 58 ^ k := by positivity
  have hpm : 0 < 256 ^ m := by positivity
  obtain ⟨d, tail, hd1, hd2, hl, he⟩ := first_char pre rest m k _ _ hm h0 hne hlo hhi (Nat.div_mul_le_self _ _) (by
    obtain ⟨N, hN⟩ : ∃ N, (fromBE pre + 1) * 256 ^ m = N := ⟨_, rfl⟩
    have hNpos : 0 < N := by rw [← hN]; positivity
    have h1 := Nat.div_add_mod (N - 1) (58 ^ k)
    have h2 := Nat.mod_lt (N - 1) hpos
    rw [hN, Nat.add_mul, Nat.mul_comm ((N - 1) / 58 ^ k)]
    omega)
  rw [he]
  refine ⟨by simp [hl]; omega, _, ?_, rfl⟩
  rcases hall d (by omega) with h | h
  · omega
  · exact h

/-- Length of Base58 text, from the number of leading zero bytes. -/
theorem b58encode_length_le (b : Bytes) (k : Nat) (h : fromBE b < 58 ^ k) : (b58encode b).length ≤ leadingZeros b + k := by
  rw [b58encode_eq bitcoinAlphabet (by decide), show bitcoinAlphabet.length = 58 from by decide]
  simp only [List.length_append, List.length_replicate, List.length_map, beDigits, List.length_reverse]
  have := (Nat.digits_length_le_iff (b := 58) (k := k) (by omega) (fromBE b)).mpr h
  omega

theorem b58encode_length_ge (b : Bytes) : b.length ≤ (b58encode b).length := by
  rw [b58encode_eq bitcoinAlphabet (by decide), show bitcoinAlphabet.length = 58 from by decide]
  simp only [List.length_append, List.length_replicate, List.length_map, beDigits, List.length_reverse]
  have h := replicate_leadingZeros b
  have hlen : b.length = leadingZeros b + (b.dropWhile (· == 0)).length := by
    conv_lhs => rw [← h]
    simp
  have hv : fromBE b = fromBE (b.dropWhile (· == 0)) := by
    conv_lhs => rw [← h]
    rw [fromBE_append]
    have : fromBE (List.replicate (leadingZeros b) 0) = 0 := by
      induction leadingZeros b with
      | zero => rfl
      | succ z ih => rw [List.replicate_succ, ← List.singleton_append, fromBE_append, ih]; simp [fromBE]
    rw [this]; simp
  rcases hd : b.dropWhile (· == 0) with _ | ⟨a, t⟩
  · rw [hlen, hd]; simp
  · have ha : a ≠ 0 := by
      intro h0
      have := List.head?_dropWhile_not (fun x : UInt8 => x == 0) b
      rw [hd] at this
      simp [h0] at this
    have hge : 256 ^ t.length ≤ fromBE b := by
      rw [hv, hd, ← List.singleton_append, fromBE_append]
      have : 1 ≤ fromBE [a] := by
        have : a.toNat ≠ 0 := by intro h; exact ha (UInt8.toNat_inj.mp (by simpa using h))
        simp [fromBE]; omega
      calc 256 ^ t.length = 1 * 256 ^ t.length := by ring
        _ ≤ fromBE [a] * 256 ^ t.length := Nat.mul_le_mul_right _ this
        _ ≤ _ := Nat.le_add_right _ _
    have h58 : 58 ^ t.length ≤ fromBE b := le_trans (Nat.pow_le_pow_left (by omega) _) hge
    have := (Nat.lt_digits_length_iff (b := 58) (by omega) (fromBE b) (k := t.length)).mpr h58
    rw [hlen, hd]
    simp
    omega

/-- A byte string is smaller than the power given by its bytes after the leading zeros. -/
theorem fromBE_lt_zeros (b : Bytes) : leadingZeros b ≤ b.length ∧ fromBE b < 256 ^ (b.length - leadingZeros b) := by
  have h := replicate_leadingZeros b
  have hlen : b.length = leadingZeros b + (b.dropWhile (· == 0)).length := by
    conv_lhs => rw [← h]
    simp
  have hv : fromBE b = fromBE (b.dropWhile (· == 0)) := by
    conv_lhs => rw [← h]
    rw [fromBE_append]
    have : fromBE (List.replicate (leadingZeros b) 0) = 0 := by
      induction leadingZeros b with
      | zero => rfl
      | succ z ih => rw [List.replicate_succ, ← List.singleton_append, fromBE_append, ih]; simp [fromBE]
    rw [this]; simp
  refine ⟨by omega, ?_⟩
  rw [hv, show b.length - leadingZeros b = (b.dropWhile (· == 0)).length by omega]
  exact fromBE_lt _

/-- 25 bytes that start with a zero have at most 34 characters. -/
theorem zero_length_le (rest : Bytes) (hm : rest.length = 24) : (b58encode (0 :: rest)).length ≤ 34 := by
  obtain ⟨h1, h2⟩ := fromBE_lt_zeros (0 :: rest)
  have hz : 1 ≤ leadingZeros (0 :: rest) := by rw [leadingZeros_eq]; simp
  rw [List.length_cons, hm] at h1 h2
  have key : ∀ z < 26, 1 ≤ z → 256 ^ (25 - z) ≤ 58 ^ (34 - z) := by decide +kernel
  have := b58encode_length_le (0 :: rest) (34 - leadingZeros (0 :: rest)) (lt_of_lt_of_le h2 (key _ (by omega) hz))
  omega

end Bip38
