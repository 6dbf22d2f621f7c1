import Verif.Model.Base58Any
/-! # UTF-8 -/
namespace Bip38

theorem ofNat_val (c : Char) : Char.ofNat c.val.toNat = c := by
  have := Char.ofNat_toNat c
  exact this

theorem u8_toNat_ofNat (n : Nat) (h : n < 256) : (UInt8.ofNat n).toNat = n := by
  simp [Nat.mod_eq_of_lt h]

theorem char_ranges (c : Char) : c.val.toNat ≤ 0x10ffff ∧ ¬ (0xd800 ≤ c.val.toNat ∧ c.val.toNat ≤ 0xdfff) := by
  have h := c.valid
  simp only [UInt32.isValidChar, Nat.isValidChar] at h
  omega

theorem utf8Next_encode (c : Char) (r : Bytes) : utf8Next (String.utf8EncodeChar c ++ r) = some (c, r) := by
  have hr := char_ranges c
  have hc := ofNat_val c
  unfold String.utf8EncodeChar
  generalize hv : c.val.toNat = v at *
  simp only
  split
  · rename_i h
    have e : (UInt8.ofNat v).toNat = v := u8_toNat_ofNat v (by omega)
    simp only [List.cons_append, List.nil_append, utf8Next, e]
    rw [if_pos (by omega), hc]
  split
  · have e1 : (UInt8.ofNat (v / 64 % 32 + 192)).toNat = v / 64 % 32 + 192 := u8_toNat_ofNat _ (by omega)
    have e2 : (UInt8.ofNat (v % 64 + 128)).toNat = v % 64 + 128 := u8_toNat_ofNat _ (by omega)
    simp only [List.cons_append, List.nil_append, utf8Next, e1, e2]
    have e : (v / 64 % 32 + 192 - 192) * 64 + (v % 64 + 128 - 128) = v := by omega
    rw [if_neg (by omega), if_neg (by omega), if_pos (by omega), if_pos (by simp; omega), e, if_pos (by omega), hc]
  split
  · have e1 : (UInt8.ofNat (v / 4096 % 16 + 224)).toNat = v / 4096 % 16 + 224 := u8_toNat_ofNat _ (by omega)
    have e2 : (UInt8.ofNat (v / 64 % 64 + 128)).toNat = v / 64 % 64 + 128 := u8_toNat_ofNat _ (by omega)
    have e3 : (UInt8.ofNat (v % 64 + 128)).toNat = v % 64 + 128 := u8_toNat_ofNat _ (by omega)
    simp only [List.cons_append, List.nil_append, utf8Next, e1, e2, e3]
    have e : (v / 4096 % 16 + 224 - 224) * 4096 + (v / 64 % 64 + 128 - 128) * 64 + (v % 64 + 128 - 128) = v := by omega
    rw [if_neg (by omega), if_neg (by omega), if_neg (by omega), if_pos (by omega), if_pos (by simp; omega), e, if_pos (by omega), hc]
  · have e0 : (UInt8.ofNat (v / 262144 % 8 + 240)).toNat = v / 262144 % 8 + 240 := u8_toNat_ofNat _ (by omega)
    have e1 : (UInt8.ofNat (v / 4096 % 64 + 128)).toNat = v / 4096 % 64 + 128 := u8_toNat_ofNat _ (by omega)
    have e2 : (UInt8.ofNat (v / 64 % 64 + 128)).toNat = v / 64 % 64 + 128 := u8_toNat_ofNat _ (by omega)
    have e3 : (UInt8.ofNat (v % 64 + 128)).toNat = v % 64 + 128 := u8_toNat_ofNat _ (by omega)
    simp only [List.cons_append, List.nil_append, utf8Next, e0, e1, e2, e3]
    have e : (v / 262144 % 8 + 240 - 240) * 262144 + (v / 4096 % 64 + 128 - 128) * 4096 + (v / 64 % 64 + 128 - 128) * 64
        + (v % 64 + 128 - 128) = v := by omega
    rw [if_neg (by omega), if_neg (by omega), if_neg (by omega), if_neg (by omega), if_pos (by omega), if_pos (by simp; omega), e,
      if_pos (by omega), hc]

theorem val_ofNat (v : Nat) (h : v ≤ 0x10ffff) (h' : ¬ (0xd800 ≤ v ∧ v ≤ 0xdfff)) : (Char.ofNat v).val.toNat = v := by
  have : v.isValidChar := by unfold Nat.isValidChar; omega
  rw [Char.ofNat, dif_pos this]
  simp [Char.ofNatAux]

theorem u8_eq {a : UInt8} {n : Nat} (h : a.toNat = n) : UInt8.ofNat n = a := by rw [← h]; simp

theorem utf8Next_sound (b : Bytes) (c : Char) (r : Bytes) (h : utf8Next b = some (c, r)) : b = String.utf8EncodeChar c ++ r := by
  match b with
  | [] => simp [utf8Next] at h
  | a :: t =>
    have ha := a.toNat_lt
    simp only [utf8Next] at h
    split at h
    · rename_i h1
      simp only [Option.some.injEq, Prod.mk.injEq] at h
      obtain ⟨rfl, rfl⟩ := h
      unfold String.utf8EncodeChar
      rw [val_ofNat _ (by omega) (by omega)]
      simp only
      rw [if_pos (by omega), u8_eq rfl]; rfl
    split at h
    · simp at h
    split at h
    · split at h
      · rename_i x r'
        have hx := x.toNat_lt
        split at h
        · rename_i hcont
          simp only [decide_eq_true_eq] at hcont
          split at h
          · rename_i hv
            simp only [Option.some.injEq, Prod.mk.injEq] at h
            obtain ⟨rfl, rfl⟩ := h
            unfold String.utf8EncodeChar
            rw [val_ofNat _ (by omega) (by omega)]
            simp only
            rw [if_neg (by omega), if_pos (by omega), u8_eq (a := a) (by omega), u8_eq (a := x) (by omega)]; rfl
          · simp at h
        · simp at h
      · simp at h
    split at h
    · split at h
      · rename_i x y r'
        have hx := x.toNat_lt
        have hy := y.toNat_lt
        split at h
        · rename_i hcont
          simp only [Bool.and_eq_true, decide_eq_true_eq] at hcont
          split at h
          · rename_i hv
            simp only [Option.some.injEq, Prod.mk.injEq] at h
            obtain ⟨rfl, rfl⟩ := h
            unfold String.utf8EncodeChar
            rw [val_ofNat _ (by omega) (by omega)]
            simp only
            rw [if_neg (by omega), if_neg (by omega), if_pos (by omega), u8_eq (a := a) (by omega), u8_eq (a := x) (by omega),
              u8_eq (a := y) (by omega)]; rfl
          · simp at h
        · simp at h
      · simp at h
    split at h
    · split at h
      · rename_i x y z r'
        have hx := x.toNat_lt
        have hy := y.toNat_lt
        have hz := z.toNat_lt
        split at h
        · rename_i hcont
          simp only [Bool.and_eq_true, decide_eq_true_eq] at hcont
          split at h
          · rename_i hv
            simp only [Option.some.injEq, Prod.mk.injEq] at h
            obtain ⟨rfl, rfl⟩ := h
            unfold String.utf8EncodeChar
            rw [val_ofNat _ (by omega) (by omega)]
            simp only
            rw [if_neg (by omega), if_neg (by omega), if_neg (by omega), u8_eq (a := a) (by omega), u8_eq (a := x) (by omega),
              u8_eq (a := y) (by omega), u8_eq (a := z) (by omega)]; rfl
          · simp at h
        · simp at h
      · simp at h
    · simp at h

theorem encodeChar_pos (c : Char) : 0 < (String.utf8EncodeChar c).length := by
  rw [String.length_utf8EncodeChar]; exact c.utf8Size_pos

theorem utf8DecodeGo_iff (fuel : Nat) (b : Bytes) (hf : b.length ≤ fuel) (s : Str) : utf8DecodeGo fuel b = some s ↔ utf8 s = b := by
  induction fuel generalizing b s with
  | zero =>
    match b with
    | [] =>
      simp only [utf8DecodeGo, Option.some.injEq]
      constructor
      · rintro rfl; rfl
      · intro h
        match s with
        | [] => rfl
        | c :: t =>
          have := congrArg List.length h
          have := encodeChar_pos c
          simp [utf8] at *
    | a :: t => simp at hf
  | succ k ih =>
    match b, hf with
    | [], _ =>
      simp only [utf8DecodeGo, Option.some.injEq]
      constructor
      · rintro rfl; rfl
      · intro h
        match s with
        | [] => rfl
        | c :: t =>
          have := congrArg List.length h
          have := encodeChar_pos c
          simp [utf8] at *
    | a :: t, hf =>
      simp only [utf8DecodeGo]
      constructor
      · intro h
        cases hn : utf8Next (a :: t) with
        | none => rw [hn] at h; simp at h
        | some p =>
          obtain ⟨c, r⟩ := p
          rw [hn] at h
          simp only [Option.map_eq_some_iff] at h
          obtain ⟨s', h1, rfl⟩ := h
          have hs := utf8Next_sound _ _ _ hn
          have hp := encodeChar_pos c
          have hlen : r.length ≤ k := by
            have := congrArg List.length hs
            simp only [List.length_append, List.length_cons] at this hf
            omega
          have := (ih r hlen s').mp h1
          rw [hs, ← this]; rfl
      · intro h
        match s with
        | [] => simp [utf8] at h
        | c :: s' =>
          have h2 : a :: t = String.utf8EncodeChar c ++ utf8 s' := h.symm
          have hp := encodeChar_pos c
          have hlen : (utf8 s').length ≤ k := by
            have := congrArg List.length h2
            simp only [List.length_append, List.length_cons] at this hf
            omega
          rw [h2, utf8Next_encode]
          simp only
          rw [(ih _ hlen s').mpr rfl]; rfl

/-- Strict UTF-8 decoding inverts encoding and accepts nothing else. -/
theorem utf8Decode_iff (b : Bytes) (s : Str) : utf8Decode b = some s ↔ utf8 s = b := utf8DecodeGo_iff _ b (Nat.le_refl _) s

theorem utf8_inj {s t : Str} (h : utf8 s = utf8 t) : s = t := by
  have h1 := (utf8Decode_iff (utf8 s) s).mpr rfl
  have h2 := (utf8Decode_iff (utf8 s) t).mpr h.symm
  exact Option.some.inj (h1.symm.trans h2)

end Bip38
