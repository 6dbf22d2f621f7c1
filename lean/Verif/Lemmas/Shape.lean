import Verif.Lemmas.Bip38
/-! # Leading characters and length of Base58 text -/
namespace Bip38
open Spec

theorem beDigits_div (B : Nat) (hB : 2 ≤ B) (T : Nat) (hT : 0 < T) (k n : Nat) (h : n / B ^ k = T) :
    ∃ ds, ds.length = k ∧ beDigits B n = beDigits B T ++ ds := by
  induction k generalizing n with
  | zero => exact ⟨[], rfl, by rw [← h]; simp⟩
  | succ k ih =>
    have h' : n / B / B ^ k = T := by rw [Nat.div_div_eq_div_mul, ← h, pow_succ, Nat.mul_comm]
    obtain ⟨ds, hl, hd⟩ := ih (n / B) h'
    have hn : 0 < n := by
      rcases Nat.eq_zero_or_pos n with h0 | h0
      · subst h0; simp at h; omega
      · exact h0
    have : Nat.digits B n = (n % B) :: Nat.digits B (n / B) := Nat.digits_def' (by omega) hn
    refine ⟨ds ++ [n % B], by simp [hl], ?_⟩
    rw [beDigits, this, List.reverse_cons]
    rw [beDigits] at hd
    rw [hd, List.append_assoc]

/-- The Bitcoin-alphabet text of a byte string without leading zero. -/
theorem shape_div (b : Bytes) (T k : Nat) (h0 : b.head? ≠ some 0) (hne : b ≠ []) (hT : 0 < T) (hn : fromBE b / 58 ^ k = T) :
    ∃ tail, tail.length = k ∧ b58encode b = (beDigits 58 T).map (bitcoinAlphabet.getD · '?') ++ tail := by
  obtain ⟨ds, hl, hd⟩ := beDigits_div 58 (by omega) T hT k _ hn
  refine ⟨ds.map (bitcoinAlphabet.getD · '?'), by simp [hl], ?_⟩
  rw [b58encode_eq bitcoinAlphabet (by decide)]
  have hz : leadingZeros b = 0 := by
    rw [leadingZeros_eq]
    cases b with
    | nil => exact absurd rfl hne
    | cons a t =>
      have : (a == 0) = false := by simpa using h0
      simp [this]
  rw [hz, show bitcoinAlphabet.length = 58 from by decide, hd]
  simp

/-- The Bitcoin-alphabet text of a byte string whose first bytes are `pre`: characters and length. -/
theorem shape (pre rest : Bytes) (m : Nat) (hm : rest.length = m) (T k : Nat) (h0 : pre.head? ≠ some 0) (hne : pre ≠ []) (hT : 0 < T)
    (h1 : T * 58 ^ k ≤ fromBE pre * 256 ^ m) (h2 : (fromBE pre + 1) * 256 ^ m ≤ (T + 1) * 58 ^ k)
    (start : Str) (hs : (beDigits 58 T).map (bitcoinAlphabet.getD · '?') = start) :
    ∃ tail, tail.length = k ∧ b58encode (pre ++ rest) = start ++ tail := by
  subst hm hs
  refine shape_div (pre ++ rest) T k ?_ (by simp [hne]) hT ?_
  · cases pre with
    | nil => exact absurd rfl hne
    | cons a t => simpa using h0
  · rw [fromBE_append]
    have h3 : fromBE rest < 256 ^ rest.length := fromBE_lt rest
    have h4 : (fromBE pre + 1) * 256 ^ rest.length = fromBE pre * 256 ^ rest.length + 256 ^ rest.length := by ring
    refine Nat.div_eq_of_lt_le ?_ ?_
    · omega
    · have : (T + 1) * 58 ^ k = (T.succ) * 58 ^ k := rfl
      omega

end Bip38
