import Verif.Props.Create
/-! # What the readers of EC records make of the records written by `create_new_encrypted_wif` -/
namespace Bip38
open Spec Props

variable {P : Prims}

theorem strip_congr {a b : Bytes} (h : be a = be b) : strip a = strip b := by
  have h1 := integerToBytes_fromBE a
  have h2 := integerToBytes_fromBE b
  rw [be_eq, be_eq] at h
  rw [h, h2] at h1
  exact (Except.ok.inj h1).symm

theorem mask_length (a b : Bytes) : (mask a b).length = 16 := toBE_length _ _

/-- The exclusive or of the two numbers has at most 16 bytes. -/
def Fits16 (a b : Bytes) : Prop := be a ^^^ be b < 256 ^ 16

theorem fits_16 (a b : Bytes) (ha : a.length ≤ 16) (hb : b.length ≤ 16) : Fits16 a b := by
  have h1 := be_lt a
  have h2 := be_lt b
  have h3 : be a < 2 ^ 128 := h1.trans_le (by rw [show (2 : Nat) ^ 128 = 256 ^ 16 by norm_num]; exact Nat.pow_le_pow_right (by omega) ha)
  have h4 : be b < 2 ^ 128 := h2.trans_le (by rw [show (2 : Nat) ^ 128 = 256 ^ 16 by norm_num]; exact Nat.pow_le_pow_right (by omega) hb)
  unfold Fits16
  rw [show (256 : Nat) ^ 16 = 2 ^ 128 by norm_num]
  exact Nat.xor_lt_two_pow h3 h4

theorem strip_unmask (a b : Bytes) (hb : b.length = 16) (h : Fits16 a b) : strip (bxor (mask a b) b) = strip a := by
  apply strip_congr
  rw [be_bxor _ _ (by rw [mask_length, hb])]
  unfold mask
  rw [be_toBE _ _ h, Nat.xor_assoc, Nat.xor_self, Nat.xor_zero]

section
variable (hP : P.Lawful) {dk : Bytes} (hdk : dk.length = 64) {seed : Bytes}
include hP hdk

theorem ecBlock1_length : (ecBlock1 P dk seed).length = 16 :=
  hP.aesEncrypt_length _ _ (by simp [hdk]) (mask_length _ _)

theorem ecBlock2_length : (ecBlock2 P dk seed).length = 16 :=
  hP.aesEncrypt_length _ _ (by simp [hdk]) (mask_length _ _)

/-- The tail that `decrypt` reads. -/
theorem ecTail_block2 (h2 : Fits16 ((ecBlock1 P dk seed).drop 8 ++ seed.drop 16) ((dk.take 32).drop 16)) :
    ecTail P dk (ecBlock2 P dk seed) = strip ((ecBlock1 P dk seed).drop 8 ++ seed.drop 16) := by
  unfold ecTail
  rw [ecBlock2, hP.aesDecrypt_aesEncrypt _ _ (by simp [hdk]) (mask_length _ _)]
  exact strip_unmask _ _ (by simp [hdk]) h2

/-- The seed that `decrypt` reads when byte 8 of the first block is not 0. -/
theorem ecSeed_good (h1 : Fits16 (seed.take 16) (dk.take 16))
    (h2 : Fits16 ((ecBlock1 P dk seed).drop 8 ++ seed.drop 16) ((dk.take 32).drop 16))
    (h8 : (ecBlock1 P dk seed).getD 8 0 ≠ 0) :
    8 ≤ (ecTail P dk (ecBlock2 P dk seed)).length ∧
    ecSeed P dk ((ecBlock1 P dk seed).take 8) (ecBlock2 P dk seed) = strip (seed.take 16) ++ seed.drop 16 := by
  have hl := ecBlock1_length hP hdk (seed := seed)
  have hl8 : ((ecBlock1 P dk seed).drop 8).length = 8 := by simp [hl]
  have hhead : ((ecBlock1 P dk seed).drop 8).head? ≠ some 0 := by
    rw [List.head?_drop, List.getElem?_eq_getElem (by omega)]
    intro h
    apply h8
    rw [List.getD_eq_getElem?_getD, List.getElem?_eq_getElem (by omega)]
    simpa using h
  have hs : strip ((ecBlock1 P dk seed).drop 8 ++ seed.drop 16) = (ecBlock1 P dk seed).drop 8 ++ seed.drop 16 := by
    apply strip_of_head
    · intro h; have := congrArg List.length h; simp [hl] at this
    · rw [List.head?_append]
      cases hd : (ecBlock1 P dk seed).drop 8 with
      | nil => rw [hd] at hl8; simp at hl8
      | cons a t => rw [hd] at hhead; simpa using hhead
  have ht := (ecTail_block2 hP hdk h2).trans hs
  refine ⟨by rw [ht]; simp [hl8], ?_⟩
  unfold ecSeed
  rw [ht, List.take_left' hl8, List.drop_left' hl8, List.take_append_drop]
  rw [ecBlock1, hP.aesDecrypt_aesEncrypt _ _ (by simp [hdk]) (mask_length _ _), strip_unmask _ _ (by simp [hdk]) h1]

/-- When byte 8 of the first block is 0, `decrypt` finds too short a block, or reads a shorter seed. -/
theorem ecSeed_bad (h2 : Fits16 ((ecBlock1 P dk seed).drop 8 ++ seed.drop 16) ((dk.take 32).drop 16))
    (h8 : (ecBlock1 P dk seed).getD 8 0 = 0) (h11 : Bytes) (hh : h11.length = 8) :
    (ecTail P dk (ecBlock2 P dk seed)).length < 8 ∨
    (ecSeed P dk h11 (ecBlock2 P dk seed)).length < seed.length := by
  have hl := ecBlock1_length hP hdk (seed := seed)
  have hl8 : ((ecBlock1 P dk seed).drop 8).length = 8 := by simp [hl]
  set t := (ecBlock1 P dk seed).drop 8 ++ seed.drop 16 with htdef
  have htl : t.length = 8 + (seed.length - 16) := by simp [htdef, hl]
  have hhead : t.head? = some 0 := by
    rw [htdef, List.head?_append, List.head?_drop, List.getElem?_eq_getElem (by omega)]
    rw [List.getD_eq_getElem?_getD, List.getElem?_eq_getElem (by omega)] at h8
    simpa using h8
  have hlt : (strip t).length < t.length := by
    have h3 := length_strip_le t (by intro h; rw [h] at htl; simp at htl; omega)
    have h4 := strip_length_eq_iff t (by omega)
    have : ¬ (strip t).length = t.length := fun h => h4.mp h hhead
    omega
  have ht := ecTail_block2 hP hdk h2
  rw [← htdef] at ht
  by_cases h16 : seed.length ≤ 16
  · left; rw [ht]; omega
  by_cases hc : (ecTail P dk (ecBlock2 P dk seed)).length < 8
  · exact Or.inl hc
  right
  unfold ecSeed
  have hx : (h11 ++ (ecTail P dk (ecBlock2 P dk seed)).take 8).length = 16 := by simp [hh]; omega
  have hne : bxor (P.aesDecrypt (dk.drop 32) (h11 ++ (ecTail P dk (ecBlock2 P dk seed)).take 8)) (dk.take 16) ≠ [] := by
    intro h
    have := congrArg List.length h
    simp [hP.aesDecrypt_length _ _ (show (dk.drop 32).length = 32 by simp [hdk]) hx, hdk] at this
  have h5 := length_strip_le _ hne
  rw [bxor_length, hP.aesDecrypt_length _ _ (show (dk.drop 32).length = 32 by simp [hdk]) hx] at h5
  rw [List.length_append, List.length_drop]
  have : (dk.take 16).length = 16 := by simp [hdk]
  rw [ht] at hc h5 ⊢
  omega

/-- The point that `confirm_code` reads. -/
theorem confirmPoint_written (pb : Bytes)
    (h3 : Fits16 ((pb.drop 1).take 16) (dk.take 16)) (h4 : Fits16 (pb.drop 17) ((dk.take 32).drop 16)) :
    confirmPoint P dk (pb.headD 0 ^^^ (dk.getD 63 0 &&& 1)) (P.aesEncrypt (dk.drop 32) (mask ((pb.drop 1).take 16) (dk.take 16)))
        (P.aesEncrypt (dk.drop 32) (mask (pb.drop 17) ((dk.take 32).drop 16)))
      = [pb.headD 0] ++ strip ((pb.drop 1).take 16) ++ strip (pb.drop 17) := by
  unfold confirmPoint
  rw [hP.aesDecrypt_aesEncrypt _ _ (by simp [hdk]) (mask_length _ _), hP.aesDecrypt_aesEncrypt _ _ (by simp [hdk]) (mask_length _ _),
    strip_unmask _ _ (by simp [hdk]) h3, strip_unmask _ _ (by simp [hdk]) h4]
  have : pb.headD 0 ^^^ (dk.getD 63 0 &&& 1) ^^^ (dk.getD 63 0 &&& 1) = pb.headD 0 := by
    rw [UInt8.xor_assoc, UInt8.xor_self, UInt8.xor_zero]
  rw [this]
end

/-! ### Flags of created records -/
theorem hasLot_ecFlag (lot : Bool) (type : String) : hasLot (ecFlag lot type) ↔ lot = true := by
  unfold ecFlag
  by_cases h : type = "wif"
  · rw [if_pos h]; cases lot <;> decide
  · rw [if_neg h]; cases lot <;> decide

theorem ecType_ecFlag (lot : Bool) {type : String} (h : IsWifType type) : ecType (ecFlag lot type) = type := by
  rcases h with rfl | rfl <;> cases lot <;> decide

theorem lotSeq_ecFlag (lot : Bool) (type : String) (ent : Bytes) :
    lotSeq (ecFlag lot type) ent = if lot then some (be (ent.drop 4) / 4096, be (ent.drop 4) % 4096) else none := by
  unfold lotSeq
  by_cases h : lot = true
  · rw [if_pos ((hasLot_ecFlag lot type).mpr h), if_pos h]
  · rw [if_neg (fun h' => h ((hasLot_ecFlag lot type).mp h')), if_neg h]

end Bip38
