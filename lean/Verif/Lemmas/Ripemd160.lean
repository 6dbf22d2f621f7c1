import Verif.Model.Ripemd160
import Verif.Spec.Ripemd160
import Verif.Lemmas.Bytes
import Mathlib.Tactic.Ring
/-! # The bundled RIPEMD-160 computes with integers what the standard computes with 32-bit words -/
namespace Bip38.Ripemd
open Bip38 Spec.Ripemd160

/-- The 32-bit word of an integer. -/
def w32 (x : Int) : Word := BitVec.ofInt 32 x

theorem getLsbD_w32 (x : Int) (i : Nat) : (w32 x).getLsbD i = (decide (i < 32) && x.testBit i) := by
  unfold w32
  cases x with
  | ofNat m =>
    rw [show (Int.ofNat m) = ((m : Nat) : Int) from rfl, BitVec.ofInt_natCast, BitVec.getLsbD_ofNat]
    rfl
  | negSucc m =>
    rw [BitVec.getLsbD, BitVec.toNat_ofInt]
    have h1 : (Int.negSucc m) % (2 ^ 32 : Nat) = ((2 ^ 32 - (m % 2 ^ 32 + 1) : Nat) : Int) := by omega
    rw [h1, Int.toNat_natCast, Nat.testBit_two_pow_sub_succ (Nat.mod_lt _ (by norm_num)), Nat.testBit_mod_two_pow]
    simp only [Int.testBit]
    by_cases h : i < 32 <;> simp [h]

theorem w32_add (x y : Int) : w32 (x + y) = w32 x + w32 y := BitVec.ofInt_add x y

theorem w32_natCast (n : Nat) : w32 (n : Int) = BitVec.ofNat 32 n := BitVec.ofInt_natCast _ _

theorem w32_land (x y : Int) : w32 (x.land y) = w32 x &&& w32 y := by
  apply BitVec.eq_of_getLsbD_eq; intro i hi
  simp only [BitVec.getLsbD_and, getLsbD_w32, Int.testBit_land, hi, decide_true, Bool.true_and]

theorem w32_lor (x y : Int) : w32 (x.lor y) = w32 x ||| w32 y := by
  apply BitVec.eq_of_getLsbD_eq; intro i hi
  simp only [BitVec.getLsbD_or, getLsbD_w32, Int.testBit_lor, hi, decide_true, Bool.true_and]

theorem w32_xor (x y : Int) : w32 (x.xor y) = w32 x ^^^ w32 y := by
  apply BitVec.eq_of_getLsbD_eq; intro i hi
  simp only [BitVec.getLsbD_xor, getLsbD_w32, Int.testBit_lxor, hi, decide_true, Bool.true_and]

theorem w32_lnot (x : Int) : w32 x.lnot = ~~~ w32 x := by
  apply BitVec.eq_of_getLsbD_eq; intro i hi
  simp only [BitVec.getLsbD_not, getLsbD_w32, Int.testBit_lnot, hi, decide_true, Bool.true_and]

theorem land_mask (x : Int) : x.land 0xffffffff = ((w32 x).toNat : Int) := by
  have hnn : ∃ n : Nat, x.land 0xffffffff = n ∧ n < 2 ^ 32 := by
    cases x with
    | ofNat m => exact ⟨m &&& 0xffffffff, rfl, by have := Nat.and_le_right (n := m) (m := 0xffffffff); omega⟩
    | negSucc m =>
      refine ⟨Nat.ldiff 0xffffffff m, rfl, ?_⟩
      apply Nat.lt_pow_two_of_testBit
      intro i hi
      rw [Nat.testBit_ldiff, show (0xffffffff : Nat) = 2 ^ 32 - 1 from rfl, Nat.testBit_two_pow_sub_one]
      simp; omega
  obtain ⟨n, hn, hlt⟩ := hnn
  rw [hn]
  have h1 : w32 (x.land 0xffffffff) = w32 x := by
    rw [w32_land]
    have : w32 0xffffffff = BitVec.allOnes 32 := by decide
    rw [this, BitVec.and_allOnes]
  rw [hn, w32_natCast] at h1
  rw [← h1, BitVec.toNat_ofNat, Nat.mod_eq_of_lt hlt]

theorem w32_toNat (w : Word) : w32 (w.toNat : Int) = w := by
  rw [w32_natCast]; simp

theorem w32_rol (x : Int) (i : Nat) (hi : i < 32) : w32 (rol x i) = (w32 x).rotateLeft i := by
  unfold rol
  rw [w32_land, show w32 0xffffffff = BitVec.allOnes 32 by decide, BitVec.and_allOnes, w32_lor, land_mask, Int.shiftLeft_eq_mul_pow,
    Int.shiftRight_natCast, w32_natCast, BitVec.rotateLeft_def, Nat.mod_eq_of_lt hi]
  congr 1
  · apply BitVec.eq_of_toNat_eq
    unfold w32
    rw [BitVec.toNat_ofInt, BitVec.toNat_shiftLeft, BitVec.toNat_ofInt, Nat.shiftLeft_eq]
    have h0 : 0 ≤ x % (2 ^ 32 : Nat) := Int.emod_nonneg _ (by norm_num)
    have : x * (2 ^ i : Nat) % (2 ^ 32 : Nat) = ((x % (2 ^ 32 : Nat)).toNat * 2 ^ i % 2 ^ 32 : Nat) := by
      push_cast
      rw [Int.toNat_of_nonneg (by exact_mod_cast h0)]
      exact (Int.ModEq.mul_right _ (Int.mod_modEq x _)).symm
    rw [this, Int.toNat_natCast]
  · apply BitVec.eq_of_toNat_eq
    rw [BitVec.toNat_ofNat, BitVec.toNat_ushiftRight, Nat.mod_eq_of_lt]
    exact lt_of_le_of_lt (Nat.shiftRight_le _ _) (w32 x).isLt

/-- The words of a state. -/
def abs (s : St) : State := ⟨w32 s.a, w32 s.b, w32 s.c, w32 s.d, w32 s.e⟩

theorem w32_fi (x y z : Int) (i : Nat) (hi : i < 5) : w32 (fi x y z i) = f i (w32 x) (w32 y) (w32 z) := by
  match i, hi with
  | 0, _ => simp [fi, f, w32_xor]
  | 1, _ => simp [fi, f, w32_land, w32_lor, w32_lnot]
  | 2, _ => simp [fi, f, w32_xor, w32_lor, w32_lnot]
  | 3, _ => simp [fi, f, w32_land, w32_lor, w32_lnot]
  | 4, _ => simp [fi, f, w32_xor, w32_lor, w32_lnot]

theorem abs_pathStep (x M R K : List Nat) (g rnd j : Nat) (s : St) (hg : g < 5) (hR : R.getD j 0 < 32) :
    abs (pathStep x M R K g rnd j s)
      = step (f g) (BitVec.ofNat 32 (x.getD (M.getD j 0) 0)) (BitVec.ofNat 32 (K.getD rnd 0)) (R.getD j 0) (abs s) := by
  unfold pathStep step abs
  simp only [w32_add, w32_rol _ _ hR, w32_rol _ 10 (by norm_num), w32_fi _ _ _ _ hg, w32_natCast]

theorem tables : ∀ j < 80, ML.getD j 0 = leftWord (j / 16) (j % 16) ∧ RL.getD j 0 = shift (j / 16) (leftWord (j / 16) (j % 16))
    ∧ MR.getD j 0 = rightWord (j / 16) (j % 16) ∧ RR.getD j 0 = shift (j / 16) (rightWord (j / 16) (j % 16))
    ∧ RL.getD j 0 < 32 ∧ RR.getD j 0 < 32 ∧ ML.getD j 0 < 16 ∧ MR.getD j 0 < 16 := by
  decide +kernel

theorem constants : ∀ r < 5, KL.getD r 0 = leftK r ∧ KR.getD r 0 = rightK r := by decide

theorem word_eq (blk : Bytes) (h : blk.length = 64) (i : Nat) (hi : i < 16) : BitVec.ofNat 32 (word blk i) = wordOf blk i := by
  unfold word wordOf
  have hl : (slice (4 * i) (4 * (i + 1)) blk) = [blk.getD (4 * i) 0, blk.getD (4 * i + 1) 0, blk.getD (4 * i + 2) 0, blk.getD (4 * i + 3) 0] := by
    apply List.ext_getElem
    · simp [slice, h]; omega
    · intro k h1 h2
      simp only [List.length_cons, List.length_nil] at h2
      simp only [slice, List.getElem_drop, List.getElem_take]
      have : 4 * i + 3 < blk.length := by omega
      match k, h2 with
      | 0, _ => simp [List.getD_eq_getElem?_getD, List.getElem?_eq_getElem (show 4 * i < blk.length by omega)]
      | 1, _ => simp [List.getD_eq_getElem?_getD, List.getElem?_eq_getElem (show 4 * i + 1 < blk.length by omega)]
      | 2, _ => simp [List.getD_eq_getElem?_getD, List.getElem?_eq_getElem (show 4 * i + 2 < blk.length by omega)]
      | 3, _ => simp [List.getD_eq_getElem?_getD, List.getElem?_eq_getElem (show 4 * i + 3 < blk.length by omega)]
  rw [hl]
  congr 1
  simp only [List.reverse_cons, List.reverse_nil, List.nil_append, List.cons_append, fromBE_cons, fromBE_nil, List.length_cons, List.length_nil]
  ring

theorem abs_compress (h : St) (blk : Bytes) (hb : blk.length = 64) : abs (Ripemd.compress h blk) = Spec.Ripemd160.compress (abs h) blk := by
  have hx : ∀ i < 16, BitVec.ofNat 32 (((List.range 16).map (word blk)).getD i 0) = wordOf blk i := by
    intro i hi
    rw [List.getD_eq_getElem?_getD, List.getElem?_map, List.getElem?_range hi]
    exact word_eq blk hb i hi
  have hfold : ∀ (l : List Nat), (∀ j ∈ l, j < 80) → ∀ s t : St,
      (let r := l.foldl (fun (st : St × St) j =>
        let rnd := j >>> 4
        (pathStep ((List.range 16).map (word blk)) ML RL KL rnd rnd j st.1, pathStep ((List.range 16).map (word blk)) MR RR KR (4 - rnd) rnd j st.2)) (s, t)
      abs r.1 = l.foldl (leftStep (wordOf blk)) (abs s) ∧ abs r.2 = l.foldl (rightStep (wordOf blk)) (abs t)) := by
    intro l
    induction l with
    | nil => intro _ s t; exact ⟨rfl, rfl⟩
    | cons j l ih =>
      intro hl s t
      have hj := hl j (by simp)
      obtain ⟨t1, t2, t3, t4, t5, t6, t7, t8⟩ := tables j hj
      have hr : j >>> 4 = j / 16 := Nat.shiftRight_eq_div_pow j 4
      have hr5 : j / 16 < 5 := by omega
      obtain ⟨k1, k2⟩ := constants _ hr5
      simp only [List.foldl_cons, hr]
      have e1 : abs (pathStep ((List.range 16).map (word blk)) ML RL KL (j / 16) (j / 16) j s) = leftStep (wordOf blk) (abs s) j := by
        rw [abs_pathStep _ _ _ _ _ _ _ _ hr5 t5, hx _ t7, k1, t2, t1]; rfl
      have e2 : abs (pathStep ((List.range 16).map (word blk)) MR RR KR (4 - j / 16) (j / 16) j t) = rightStep (wordOf blk) (abs t) j := by
        rw [abs_pathStep _ _ _ _ _ _ _ _ (by omega) t6, hx _ t8, k2, t4, t3]; rfl
      have := ih (fun j' h' => hl j' (by simp [h'])) (pathStep ((List.range 16).map (word blk)) ML RL KL (j / 16) (j / 16) j s)
        (pathStep ((List.range 16).map (word blk)) MR RR KR (4 - j / 16) (j / 16) j t)
      rw [← e1, ← e2]
      exact this
  have hf := hfold (List.range 80) (by simp) h h
  unfold Ripemd.compress Spec.Ripemd160.compress
  simp only at hf ⊢
  rw [← hf.1, ← hf.2]
  simp only [abs, w32_add]

theorem slice_block (m : Bytes) (i : Nat) : slice (64 * i) (64 * (i + 1)) m = block m i := by
  unfold slice block
  rw [List.drop_take]
  congr 1
  omega

/-- The words after all the whole blocks of a message. -/
def absBlocks (m : Bytes) (s : State) : State :=
  (List.range (m.length / 64)).foldl (fun s i => Spec.Ripemd160.compress s (block m i)) s

theorem abs_blocks (m : Bytes) (s : St) : abs (blocks m s) = absBlocks m (abs s) := by
  unfold blocks absBlocks
  rw [show m.length >>> 6 = m.length / 64 from Nat.shiftRight_eq_div_pow _ 6]
  have : ∀ l : List Nat, (∀ i ∈ l, i < m.length / 64) → ∀ s : St,
      abs (l.foldl (fun s b => Ripemd.compress s (slice (64 * b) (64 * (b + 1)) m)) s)
        = l.foldl (fun s i => Spec.Ripemd160.compress s (block m i)) (abs s) := by
    intro l
    induction l with
    | nil => intro _ s; rfl
    | cons i l ih =>
      intro hl s
      have hi := hl i (by simp)
      rw [List.foldl_cons, List.foldl_cons, ih (fun j hj => hl j (by simp [hj])), slice_block, abs_compress]
      simp [block]; omega
  exact this _ (by simp) s

theorem absBlocks_append (a b : Bytes) (h : 64 ∣ a.length) (s : State) : absBlocks (a ++ b) s = absBlocks b (absBlocks a s) := by
  obtain ⟨k, hk⟩ := h
  unfold absBlocks
  have e1 : (a ++ b).length / 64 = k + b.length / 64 := by rw [List.length_append, hk]; omega
  have e2 : a.length / 64 = k := by rw [hk]; omega
  rw [e1, e2, List.range_add, List.foldl_append, List.foldl_map]
  have h1 : ∀ (l : List Nat), (∀ i ∈ l, i < k) → ∀ s, l.foldl (fun s i => Spec.Ripemd160.compress s (block (a ++ b) i)) s
      = l.foldl (fun s i => Spec.Ripemd160.compress s (block a i)) s := by
    intro l
    induction l with
    | nil => intro _ s; simp only [List.foldl_nil]
    | cons i l ih =>
      intro hl s
      have hi := hl i (by simp)
      rw [List.foldl_cons, List.foldl_cons, ih (fun j hj => hl j (by simp [hj]))]
      congr 2
      unfold block
      rw [List.drop_append_of_le_length (by omega), List.take_append_of_le_length (by simp; omega)]
  have h2 : ∀ i, block (a ++ b) (k + i) = block b i := by
    intro i
    unfold block
    rw [show 64 * (k + i) = a.length + 64 * i by omega, List.drop_append, List.drop_eq_nil_of_le (by omega)]
    simp
  rw [h1 _ (by simp)]
  simp only [h2]

theorem absBlocks_take (m : Bytes) (s : State) : absBlocks m s = absBlocks (m.take (64 * (m.length / 64))) s := by
  conv_lhs => rw [← List.take_append_drop (64 * (m.length / 64)) m]
  rw [absBlocks_append _ _ (by rw [List.length_take]; omega)]
  generalize absBlocks (m.take (64 * (m.length / 64))) s = t
  unfold absBlocks
  rw [show (m.drop (64 * (m.length / 64))).length / 64 = 0 by rw [List.length_drop]; omega]
  rfl

theorem toLE_eq (k n : Nat) : toLE k n = littleEndian k n := by
  unfold littleEndian
  induction k generalizing n with
  | zero => rfl
  | succ k ih =>
    rw [toLE, ih, List.range_succ_eq_map, List.map_cons, List.map_map]
    congr 1
    · simp
    · apply List.map_congr_left
      intro i _
      simp [Nat.div_div_eq_div_mul, pow_succ, Nat.mul_comm]

theorem land63 (n : Nat) : (((119 : Int) - n).land 63).toNat = padZeros n := by
  have key : ∀ x : Int, x.land 63 = x % 64 := by
    intro x
    cases x with
    | ofNat m =>
      have : (Int.ofNat m).land 63 = ((m &&& 63 : Nat) : Int) := rfl
      rw [this, show (63 : Nat) = 2 ^ 6 - 1 from rfl, Nat.and_two_pow_sub_one_eq_mod]
      simp
    | negSucc m =>
      have : (Int.negSucc m).land 63 = ((Nat.ldiff 63 m : Nat) : Int) := rfl
      rw [this]
      have h2 : Nat.ldiff 63 m = 2 ^ 6 - (m % 2 ^ 6 + 1) := by
        apply Nat.eq_of_testBit_eq
        intro i
        rw [Nat.testBit_ldiff, Nat.testBit_two_pow_sub_succ (Nat.mod_lt _ (by norm_num)), Nat.testBit_mod_two_pow,
          show (63 : Nat) = 2 ^ 6 - 1 from rfl, Nat.testBit_two_pow_sub_one]
        by_cases h : i < 6 <;> simp [h]
      rw [h2]
      omega
  rw [key]
  unfold padZeros
  omega

theorem landNot63 (n : Nat) : ((n : Int).land (Int.lnot 63)).toNat = 64 * (n / 64) := by
  have : (n : Int).land (Int.lnot 63) = ((Nat.ldiff n 63 : Nat) : Int) := rfl
  rw [this, Int.toNat_natCast]
  apply Nat.eq_of_testBit_eq
  intro i
  rw [Nat.testBit_ldiff, show (63 : Nat) = 2 ^ 6 - 1 from rfl, Nat.testBit_two_pow_sub_one, show 64 = 2 ^ 6 from rfl, Nat.mul_comm,
    Nat.testBit_mul_two_pow, Nat.testBit_div_two_pow]
  by_cases h : i < 6
  · simp [h]
  · simp only [not_lt] at h
    simp [h, show ¬ i < 6 by omega, Nat.sub_add_cancel h]

theorem packWord_eq (x : Int) : packWord x = wordBytes (w32 x) := by
  unfold packWord wordBytes
  rw [land_mask, Int.toNat_natCast, toLE_eq]

/-- The bundled function is the standard one. -/
theorem ripemd160_eq (m : Bytes) : Ripemd.ripemd160 m = Spec.Ripemd160.ripemd160 m := by
  unfold Ripemd.ripemd160 Spec.Ripemd160.ripemd160
  simp only [packWord_eq, land63, landNot63, toLE_eq]
  set fin := m.drop (64 * (m.length / 64)) ++ (0x80 :: List.replicate (padZeros m.length) 0) ++ littleEndian 8 (8 * m.length) with hfin
  have h : abs (blocks fin (blocks m init)) = (List.range ((padded m).length / 64)).foldl
      (fun s i => Spec.Ripemd160.compress s (block (padded m) i)) iv := by
    rw [abs_blocks, abs_blocks, absBlocks_take m, ← absBlocks_append _ _ (by simp; omega)]
    have hp : m.take (64 * (m.length / 64)) ++ fin = padded m := by
      rw [hfin, ← List.append_assoc, ← List.append_assoc, List.take_append_drop]
      simp [padded]
    rw [hp, show abs init = iv by decide +kernel]
    rfl
  rw [← h]
  rfl

end Bip38.Ripemd
