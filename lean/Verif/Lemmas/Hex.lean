import Verif.Spec.Hex
import Verif.Lemmas.Utils
import Mathlib.Tactic.IntervalCases
/-! # `bytes.fromhex` against its specification -/
namespace Bip38
open Spec

theorem char_of_toNat (c : Char) (n : Nat) (h : c.toNat = n) : c = Char.ofNat n := by
  rw [← h, Char.ofNat_toNat]

theorem hexVal_table_abcdef : ∀ n : Fin 16, hexVal ("0123456789abcdef".toList[n.val]'(by simp)) = some n.val := by
  decide
theorem hexVal_table_ABCDEF : ∀ n : Fin 16, hexVal ("0123456789ABCDEF".toList[n.val]'(by simp)) = some n.val := by
  decide

theorem hexVal_iff (c : Char) (n : Nat) : hexVal c = some n ↔ HexDigit c n := by
  constructor
  · intro h
    unfold hexVal at h
    have e0 : ∀ a b : Char, a ≤ b ↔ a.toNat ≤ b.toNat := fun a b => Iff.rfl
    simp only [e0] at h
    split at h
    · rename_i hc
      have h1 : 48 ≤ c.toNat := hc.1
      have h2 : c.toNat ≤ 57 := hc.2
      obtain ⟨k, hk⟩ : ∃ k, c.toNat = k := ⟨_, rfl⟩
      have hck := char_of_toNat c k hk
      rw [hk] at h1 h2 h
      subst hck
      simp only [Option.some.injEq] at h
      subst h
      interval_cases k <;> exact Or.inl (by decide)
    · split at h
      · rename_i hc
        have h1 : 97 ≤ c.toNat := hc.1
        have h2 : c.toNat ≤ 102 := hc.2
        obtain ⟨k, hk⟩ : ∃ k, c.toNat = k := ⟨_, rfl⟩
        have hck := char_of_toNat c k hk
        rw [hk] at h1 h2 h
        subst hck
        simp only [Option.some.injEq] at h
        subst h
        interval_cases k <;> exact Or.inl (by decide)
      · split at h
        · rename_i hc
          have h1 : 65 ≤ c.toNat := hc.1
          have h2 : c.toNat ≤ 70 := hc.2
          obtain ⟨k, hk⟩ : ∃ k, c.toNat = k := ⟨_, rfl⟩
          have hck := char_of_toNat c k hk
          rw [hk] at h1 h2 h
          subst hck
          simp only [Option.some.injEq] at h
          subst h
          interval_cases k <;> exact Or.inr (by decide)
        · simp at h
  · intro h
    have hn : n < 16 := by
      rcases h with h | h
      · have := (List.getElem?_eq_some_iff.mp h).1; simpa using this
      · have := (List.getElem?_eq_some_iff.mp h).1; simpa using this
    rcases h with h | h
    · have hc : c = "0123456789abcdef".toList[n]'(by simpa using hn) := ((List.getElem?_eq_some_iff.mp h).2).symm
      subst hc
      exact hexVal_table_abcdef ⟨n, hn⟩
    · have hc : c = "0123456789ABCDEF".toList[n]'(by simpa using hn) := ((List.getElem?_eq_some_iff.mp h).2).symm
      subst hc
      exact hexVal_table_ABCDEF ⟨n, hn⟩

theorem isHexSpace_iff (c : Char) : isHexSpace c = true ↔ HexSpace c := by
  unfold isHexSpace HexSpace
  simp only [Bool.or_eq_true, decide_eq_true_eq]
  constructor
  · rintro (((((h | h) | h) | h) | h) | h)
    · exact Or.inl h
    all_goals right
    · subst h; decide
    · subst h; decide
    · subst h; decide
    · omega
    · omega
  · rintro (h | ⟨h1, h2⟩)
    · tauto
    · obtain ⟨k, hk⟩ : ∃ k, c.toNat = k := ⟨_, rfl⟩
      have hck := char_of_toNat c k hk
      rw [hk] at h1 h2
      subst hck
      interval_cases k <;> decide

theorem hexSpace_not_digit {c : Char} {n : Nat} (h : HexSpace c) : ¬ HexDigit c n := by
  intro hd
  have h1 := (hexVal_iff c n).mpr hd
  have h2 := (isHexSpace_iff c).mpr h
  rcases h with rfl | ⟨h3, h4⟩
  · revert h1; simp [hexVal]
  · obtain ⟨k, hk⟩ : ∃ k, c.toNat = k := ⟨_, rfl⟩
    have hck := char_of_toNat c k hk
    rw [hk] at h3 h4
    subst hck
    interval_cases k <;> simp [hexVal] at h1

theorem fromHex_iff (s : Str) (b : Bytes) : fromHex s = some b ↔ HexText s b := by
  constructor
  · intro h
    induction s using fromHex.induct generalizing b with
    | case1 => simp [fromHex] at h; subst h; exact .nil
    | case2 c hc =>
      simp [fromHex, hc] at h; subst h
      exact .space ((isHexSpace_iff c).mp hc) .nil
    | case3 c hc => simp [fromHex, hc] at h
    | case4 c d rest hc ih =>
      rw [fromHex, if_pos hc] at h
      exact .space ((isHexSpace_iff c).mp hc) (ih b h)
    | case5 c d rest hc x y hx hy ih =>
      rw [fromHex, if_neg hc, hx, hy] at h
      simp only [Option.map_eq_some_iff] at h
      obtain ⟨b', hb', rfl⟩ := h
      exact .byte ((hexVal_iff _ _).mp hy) ((hexVal_iff _ _).mp hx) (ih b' hb')
    | case6 c d rest hc hne =>
      rw [fromHex, if_neg hc] at h
      split at h
      · rename_i x y h1 h2; exact absurd h2 (hne x y h1)
      · simp at h
  · intro h
    induction h with
    | nil => rfl
    | @space c s b hc hs ih =>
      have := (isHexSpace_iff c).mpr hc
      cases s with
      | nil => cases hs; simp [fromHex, this]
      | cons d rest => rw [fromHex, if_pos this]; exact ih
    | @byte h l s b x y hx hy hs ih =>
      have hns : isHexSpace h = false := by
        by_contra hh
        exact hexSpace_not_digit ((isHexSpace_iff h).mp (by simpa using hh)) hx
      rw [fromHex, hns, (hexVal_iff _ _).mpr hx, (hexVal_iff _ _).mpr hy, ih]
      simp

end Bip38
