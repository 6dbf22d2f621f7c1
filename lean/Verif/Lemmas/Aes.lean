import Verif.Std.Aes
import Verif.Lemmas.Ec
/-! # AES: decryption inverts encryption -/
namespace Bip38.Std

theorem top_bit : ∀ a : UInt8, a &&& 0x80 = 0 ∨ a &&& 0x80 = 0x80 := forall_byte (by decide +kernel)

theorem and_xor_top (a b : UInt8) : (a ^^^ b) &&& 0x80 = (a &&& 0x80) ^^^ (b &&& 0x80) := by
  apply UInt8.toBitVec_inj.mp
  simp only [UInt8.toBitVec_and, UInt8.toBitVec_xor]
  ext i
  simp only [BitVec.getElem_and, BitVec.getElem_xor, Bool.and_xor_distrib_right]

theorem xtime_xor (a b : UInt8) : xtime (a ^^^ b) = xtime a ^^^ xtime b := by
  have hs : (a ^^^ b) <<< 1 = (a <<< 1) ^^^ (b <<< 1) := UInt8.shiftLeft_xor
  unfold xtime
  rw [hs, and_xor_top]
  generalize a <<< 1 = x
  generalize b <<< 1 = y
  rcases top_bit a with h1 | h1 <;> rcases top_bit b with h2 | h2 <;> rw [h1, h2] <;> simp
  · ac_rfl
  · ac_rfl
  · rw [show x ^^^ 27 ^^^ (y ^^^ 27) = x ^^^ y ^^^ (27 ^^^ 27) by ac_rfl]; simp

theorem invSub_sub : ∀ a : UInt8, invSub (sub a) = a := forall_byte (by decide +kernel)

theorem mul2_xor (a b : UInt8) : mul2 (a ^^^ b) = mul2 a ^^^ mul2 b := xtime_xor a b
theorem mul9_xor (a b : UInt8) : mul9 (a ^^^ b) = mul9 a ^^^ mul9 b := by simp only [mul9, xtime_xor]; ac_rfl
theorem mul11_xor (a b : UInt8) : mul11 (a ^^^ b) = mul11 a ^^^ mul11 b := by simp only [mul11, xtime_xor]; ac_rfl
theorem mul13_xor (a b : UInt8) : mul13 (a ^^^ b) = mul13 a ^^^ mul13 b := by simp only [mul13, xtime_xor]; ac_rfl
theorem mul14_xor (a b : UInt8) : mul14 (a ^^^ b) = mul14 a ^^^ mul14 b := by simp only [mul14, xtime_xor]; ac_rfl

theorem coef0 : ∀ a : UInt8, mul14 (mul2 a) ^^^ mul11 a ^^^ mul13 a ^^^ mul9 (mul3 a) = a := forall_byte (by decide +kernel)
theorem coef1 : ∀ a : UInt8, mul14 (mul3 a) ^^^ mul11 (mul2 a) ^^^ mul13 a ^^^ mul9 a = 0 := forall_byte (by decide +kernel)
theorem coef2 : ∀ a : UInt8, mul14 a ^^^ mul11 (mul3 a) ^^^ mul13 (mul2 a) ^^^ mul9 a = 0 := forall_byte (by decide +kernel)
theorem coef3 : ∀ a : UInt8, mul14 a ^^^ mul11 a ^^^ mul13 (mul3 a) ^^^ mul9 (mul2 a) = 0 := forall_byte (by decide +kernel)

theorem column (a b c d : UInt8) :
    mul14 (mul2 a ^^^ mul3 b ^^^ c ^^^ d) ^^^ mul11 (a ^^^ mul2 b ^^^ mul3 c ^^^ d) ^^^ mul13 (a ^^^ b ^^^ mul2 c ^^^ mul3 d)
      ^^^ mul9 (mul3 a ^^^ b ^^^ c ^^^ mul2 d) = a := by
  simp only [mul14_xor, mul11_xor, mul13_xor, mul9_xor]
  have : ∀ a0 a1 a2 a3 b0 b1 b2 b3 c0 c1 c2 c3 d0 d1 d2 d3 : UInt8,
      a0 ^^^ b0 ^^^ c0 ^^^ d0 ^^^ (a1 ^^^ b1 ^^^ c1 ^^^ d1) ^^^ (a2 ^^^ b2 ^^^ c2 ^^^ d2) ^^^ (a3 ^^^ b3 ^^^ c3 ^^^ d3)
      = (a0 ^^^ a1 ^^^ a2 ^^^ a3) ^^^ (b0 ^^^ b1 ^^^ b2 ^^^ b3) ^^^ (c0 ^^^ c1 ^^^ c2 ^^^ c3) ^^^ (d0 ^^^ d1 ^^^ d2 ^^^ d3) := by
    intros; ac_rfl
  rw [this, coef0, coef1, coef2, coef3]
  simp

theorem invMix_mix (s : Bytes) (h : 4 ∣ s.length) : invMixColumns (mixColumns s) = s := by
  match s, h with
  | [], _ => rfl
  | [_], h => simp at h
  | [_, _], h => simp at h
  | [_, _, _], h => simp at h
  | a :: b :: c :: d :: rest, h =>
    rw [mixColumns, invMixColumns, invMix_mix rest (by simpa using h)]
    refine congrArg₂ _ (column a b c d) (congrArg₂ _ ?_ (congrArg₂ _ ?_ (congrArg₂ _ ?_ rfl)))
    · refine Eq.trans ?_ (column b c d a)
      rw [show a ^^^ mul2 b ^^^ mul3 c ^^^ d = mul2 b ^^^ mul3 c ^^^ d ^^^ a by ac_rfl,
        show a ^^^ b ^^^ mul2 c ^^^ mul3 d = b ^^^ mul2 c ^^^ mul3 d ^^^ a by ac_rfl,
        show mul3 a ^^^ b ^^^ c ^^^ mul2 d = b ^^^ c ^^^ mul2 d ^^^ mul3 a by ac_rfl,
        show mul2 a ^^^ mul3 b ^^^ c ^^^ d = mul3 b ^^^ c ^^^ d ^^^ mul2 a by ac_rfl]
      ac_rfl
    · refine Eq.trans ?_ (column c d a b)
      rw [show a ^^^ mul2 b ^^^ mul3 c ^^^ d = mul3 c ^^^ d ^^^ a ^^^ mul2 b by ac_rfl,
        show a ^^^ b ^^^ mul2 c ^^^ mul3 d = mul2 c ^^^ mul3 d ^^^ a ^^^ b by ac_rfl,
        show mul3 a ^^^ b ^^^ c ^^^ mul2 d = c ^^^ mul2 d ^^^ mul3 a ^^^ b by ac_rfl,
        show mul2 a ^^^ mul3 b ^^^ c ^^^ d = c ^^^ d ^^^ mul2 a ^^^ mul3 b by ac_rfl]
      ac_rfl
    · refine Eq.trans ?_ (column d a b c)
      rw [show a ^^^ mul2 b ^^^ mul3 c ^^^ d = d ^^^ a ^^^ mul2 b ^^^ mul3 c by ac_rfl,
        show a ^^^ b ^^^ mul2 c ^^^ mul3 d = mul3 d ^^^ a ^^^ b ^^^ mul2 c by ac_rfl,
        show mul3 a ^^^ b ^^^ c ^^^ mul2 d = mul2 d ^^^ mul3 a ^^^ b ^^^ c by ac_rfl,
        show mul2 a ^^^ mul3 b ^^^ c ^^^ d = d ^^^ mul2 a ^^^ mul3 b ^^^ c by ac_rfl]
      ac_rfl

theorem mix_length (s : Bytes) (h : 4 ∣ s.length) : (mixColumns s).length = s.length := by
  match s, h with
  | [], _ => rfl
  | [_], h => simp at h
  | [_, _], h => simp at h
  | [_, _, _], h => simp at h
  | a :: b :: c :: d :: rest, h => rw [mixColumns]; simp [mix_length rest (by simpa using h)]

theorem invMix_length (s : Bytes) (h : 4 ∣ s.length) : (invMixColumns s).length = s.length := by
  match s, h with
  | [], _ => rfl
  | [_], h => simp at h
  | [_, _], h => simp at h
  | [_, _, _], h => simp at h
  | a :: b :: c :: d :: rest, h => rw [invMixColumns]; simp [invMix_length rest (by simpa using h)]

theorem invShift_shift (s : Bytes) (h : s.length = 16) : invShiftRows (shiftRows s) = s := by
  match s, h with
  | [_, _, _, _, _, _, _, _, _, _, _, _, _, _, _, _], _ => rfl

theorem shift_length (s : Bytes) : (shiftRows s).length = 16 := by simp [shiftRows]
theorem invShift_length (s : Bytes) : (invShiftRows s).length = 16 := by simp [invShiftRows]

theorem xorBlock_length {a b : Bytes} {k : Nat} (ha : a.length = k) (hb : b.length = k) : (xorBlock a b).length = k := by
  simp [xorBlock, ha, hb]

theorem xorBlock_twice (a b : Bytes) (h : a.length ≤ b.length) : xorBlock (xorBlock a b) b = a := by
  unfold xorBlock
  induction a generalizing b with
  | nil => simp
  | cons x a ih =>
    cases b with
    | nil => simp at h
    | cons y b =>
      simp only [List.zipWith_cons_cons]
      rw [ih b (by simpa using h), UInt8.xor_assoc, UInt8.xor_self, UInt8.xor_zero]

theorem words4_spec (b : Bytes) : (∀ w ∈ words4 b, w.length = 4) ∧ (words4 b).length = b.length / 4 := by
  match b with
  | [] => simp [words4]
  | [_] => simp [words4]
  | [_, _] => simp [words4]
  | [_, _, _] => simp [words4]
  | a :: b :: c :: d :: rest =>
    obtain ⟨h1, h2⟩ := words4_spec rest
    rw [words4]
    refine ⟨?_, by simp only [List.length_cons, h2]; omega⟩
    intro w hw
    rcases List.mem_cons.mp hw with rfl | hw
    · rfl
    · exact h1 w hw

theorem expandKeyAux_spec (fuel i : Nat) (rcon : UInt8) (prev : List Bytes) (hl : prev.length = 8) (h4 : ∀ w ∈ prev, w.length = 4) :
    (expandKeyAux fuel i rcon prev).length = fuel ∧ ∀ w ∈ expandKeyAux fuel i rcon prev, w.length = 4 := by
  induction fuel generalizing i rcon prev with
  | zero => simp [expandKeyAux]
  | succ fuel ih =>
    match prev, hl with
    | [p0, p1, p2, p3, p4, p5, p6, p7], _ =>
    have l0 := h4 p0 (by simp)
    have l7 := h4 p7 (by simp)
    rw [expandKeyAux]
    simp only [List.getD_cons_succ, List.getD_cons_zero, List.drop_succ_cons, List.drop_zero]
    obtain ⟨w, hw⟩ : ∃ w, xorBlock p0 (if i % 8 = 0 then xorBlock ((p7.drop 1 ++ p7.take 1).map sub) [rcon, 0, 0, 0]
      else if i % 8 = 4 then p7.map sub else p7) = w := ⟨_, rfl⟩
    have hwl : w.length = 4 := by
      rw [← hw]
      refine xorBlock_length l0 ?_
      split
      · exact xorBlock_length (by simp [l7]) (by simp)
      · split
        · simp [l7]
        · exact l7
    simp only [hw]
    obtain ⟨h1, h2⟩ := ih (i + 1) (if i % 8 = 0 then xtime rcon else rcon) ([p1, p2, p3, p4, p5, p6, p7] ++ [w]) (by simp) (by
      intro x hx
      rcases List.mem_append.mp hx with hx | hx
      · exact h4 x (List.mem_cons_of_mem _ hx)
      · rw [List.mem_singleton.mp hx]; exact hwl)
    refine ⟨by rw [List.length_cons, h1], ?_⟩
    intro x hx
    rcases List.mem_cons.mp hx with rfl | hx
    · exact hwl
    · exact h2 x hx

theorem flatten_length4 (l : List Bytes) (h : ∀ w ∈ l, w.length = 4) : l.flatten.length = 4 * l.length := by
  induction l with
  | nil => rfl
  | cons a l ih =>
    rw [List.flatten_cons, List.length_append, ih (fun w hw => h w (List.mem_cons_of_mem _ hw)), h a (by simp), List.length_cons]
    omega

theorem expandKey_length (key : Bytes) (h : key.length = 32) : (expandKey key).length = 240 := by
  obtain ⟨h1, h2⟩ := words4_spec key
  rw [h] at h2
  obtain ⟨h3, h4⟩ := expandKeyAux_spec 52 8 1 (words4 key) h2 h1
  unfold expandKey
  rw [flatten_length4 _ (by
    intro w hw
    rcases List.mem_append.mp hw with hw | hw
    · exact h1 w hw
    · exact h4 w hw), List.length_append, h2, h3]

theorem roundKey_length (w : Bytes) (hw : w.length = 240) (i : Nat) (hi : i ≤ 14) : (roundKey w i).length = 16 := by
  unfold roundKey
  rw [List.length_take, List.length_drop, hw]; omega

theorem encRound_length (w s : Bytes) (hw : w.length = 240) (i : Nat) (hi : i ≤ 14) : (encRound w s i).length = 16 :=
  xorBlock_length (by rw [mix_length _ (by rw [shift_length]; decide), shift_length]) (roundKey_length w hw i hi)

theorem decRound_length (w s : Bytes) (i : Nat) : (decRound w s i).length = 16 := by
  unfold decRound; rw [List.length_map, invShift_length]

theorem map_invSub_sub (s : Bytes) : (s.map sub).map invSub = s := by
  rw [List.map_map]
  conv_rhs => rw [← List.map_id s]
  exact List.map_congr_left fun a _ => invSub_sub a

theorem dec_enc_round (w s : Bytes) (hw : w.length = 240) (hs : s.length = 16) (i : Nat) (hi : i ≤ 14) : decRound w (encRound w s i) i = s := by
  unfold decRound encRound
  rw [xorBlock_twice _ _ (by rw [mix_length _ (by rw [shift_length]; decide), shift_length, roundKey_length w hw i hi]),
    invMix_mix _ (by rw [shift_length]; decide), invShift_shift _ (by simp [hs]), map_invSub_sub]

theorem rounds (w : Bytes) (hw : w.length = 240) (l : List Nat) (hl : ∀ i ∈ l, i ≤ 14) (s : Bytes) (hs : s.length = 16) :
    (l.foldl (encRound w) s).length = 16 ∧ l.reverse.foldl (decRound w) (l.foldl (encRound w) s) = s := by
  induction l generalizing s with
  | nil => exact ⟨hs, rfl⟩
  | cons i l ih =>
    have hi := hl i (by simp)
    obtain ⟨h1, h2⟩ := ih (fun j hj => hl j (List.mem_cons_of_mem _ hj)) (encRound w s i) (encRound_length w s hw i hi)
    refine ⟨h1, ?_⟩
    rw [List.reverse_cons, List.foldl_append, List.foldl_cons (l := l), h2]
    exact dec_enc_round w s hw hs i hi

theorem rounds_dec (w : Bytes) (l : List Nat) (s : Bytes) (hs : s.length = 16) : (l.foldl (decRound w) s).length = 16 := by
  induction l generalizing s with
  | nil => exact hs
  | cons i l ih => exact ih _ (decRound_length w s i)

theorem le13 : ∀ i ∈ List.range' 1 13, i ≤ 14 := by decide

theorem aesEncrypt_length (key b : Bytes) (hk : key.length = 32) (_ : b.length = 16) : (aesEncrypt key b).length = 16 := by
  have hw := expandKey_length key hk
  exact xorBlock_length (shift_length _) (roundKey_length _ hw 14 (by omega))

theorem aesDecrypt_length (key b : Bytes) (hk : key.length = 32) (_ : b.length = 16) : (aesDecrypt key b).length = 16 := by
  have hw := expandKey_length key hk
  refine xorBlock_length ?_ (roundKey_length _ hw 0 (by omega))
  exact rounds_dec _ _ _ (by rw [List.length_map, invShift_length])

theorem aesDecrypt_aesEncrypt (key b : Bytes) (hk : key.length = 32) (hb : b.length = 16) : aesDecrypt key (aesEncrypt key b) = b := by
  have hw := expandKey_length key hk
  have h0 := roundKey_length _ hw 0 (by omega)
  obtain ⟨h1, h2⟩ := rounds _ hw _ le13 (xorBlock b (roundKey (expandKey key) 0)) (xorBlock_length hb h0)
  unfold aesDecrypt aesEncrypt
  simp only
  rw [xorBlock_twice _ _ (by rw [shift_length, roundKey_length _ hw 14 (by omega)]), invShift_shift _ (by simp [h1]), map_invSub_sub, h2,
    xorBlock_twice _ _ (by rw [hb, h0])]

end Bip38.Std
