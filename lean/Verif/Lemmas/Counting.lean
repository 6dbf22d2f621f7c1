import Mathlib.Algebra.Order.BigOperators.Group.Finset
import Mathlib.Logic.Equiv.Prod
import Mathlib.Data.Fintype.Card
import Mathlib.Data.Fintype.BigOperators
import Mathlib.Data.Fintype.Pi
import Mathlib.Data.Set.Card
import Mathlib.Tactic.Ring
import Mathlib.Tactic.NormNum
import Verif.Spec.Counting
/-!
# Counting functions with two restricted values
-/
namespace Bip38

def byteEquiv : Fin 256 ≃ UInt8 where
  toFun := UInt8.ofFin
  invFun := UInt8.toFin
  left_inv _ := rfl
  right_inv _ := rfl

instance : Fintype UInt8 := Fintype.ofEquiv _ byteEquiv

theorem card_byte : Fintype.card UInt8 = 256 := by
  rw [Fintype.card_congr byteEquiv.symm, Fintype.card_fin]

theorem card_avoid (A : Finset UInt8) : (Finset.univ.filter fun b : UInt8 => b ∉ A).card = 256 - A.card := by
  rw [← card_byte, ← Finset.card_compl]
  congr 1
  ext b
  simp

/-- Functions whose value at `i` is restricted by a condition on the other values. -/
theorem card_split {ι : Type} [DecidableEq ι] [Fintype ι] (i : ι) (p : ({j // j ≠ i} → UInt8) → Prop) [DecidablePred p]
    (B : ({j // j ≠ i} → UInt8) → Finset UInt8) :
    (Finset.univ.filter fun f : ι → UInt8 => p (fun j => f j) ∧ f i ∉ B (fun j => f j)).card
      = ∑ g ∈ Finset.univ.filter p, (256 - (B g).card) := by
  have h1 : (Finset.univ.filter fun f : ι → UInt8 => p (fun j => f j) ∧ f i ∉ B (fun j => f j)).card
      = ((Finset.univ.filter p).sigma fun g => Finset.univ.filter fun b : UInt8 => b ∉ B g).card := by
    refine Finset.card_bij' (fun f _ => ⟨fun j => f j, f i⟩) (fun x _ => (Equiv.funSplitAt i UInt8).symm (x.2, x.1)) ?_ ?_ ?_ ?_
    · intro f hf
      simpa using hf
    · rintro ⟨g, b⟩ h
      have e1 : (fun j : {j // j ≠ i} => (Equiv.funSplitAt i UInt8).symm (b, g) j) = g := by
        funext j; simp [Equiv.funSplitAt, Equiv.piSplitAt, j.2]
      have e2 : (Equiv.funSplitAt i UInt8).symm (b, g) i = b := by simp [Equiv.funSplitAt, Equiv.piSplitAt]
      simp only [Finset.mem_filter, Finset.mem_univ, true_and, Finset.mem_sigma] at h ⊢
      rw [e1, e2]
      exact h
    · intro f _
      exact (Equiv.funSplitAt i UInt8).symm_apply_apply f
    · rintro ⟨g, b⟩ _
      have e1 : (fun j : {j // j ≠ i} => (Equiv.funSplitAt i UInt8).symm (b, g) j) = g := by
        funext j; simp [Equiv.funSplitAt, Equiv.piSplitAt, j.2]
      have e2 : (Equiv.funSplitAt i UInt8).symm (b, g) i = b := by simp [Equiv.funSplitAt, Equiv.piSplitAt]
      simp only [e1, e2]
  rw [h1, Finset.card_sigma]
  exact Finset.sum_congr rfl fun g _ => card_avoid _

/-- Functions that avoid a fixed set at `i`. -/
theorem card_avoid_at {ι : Type} [DecidableEq ι] [Fintype ι] (i : ι) (A : Finset UInt8) :
    (Finset.univ.filter fun f : ι → UInt8 => f i ∉ A).card = (256 - A.card) * 256 ^ (Fintype.card ι - 1) := by
  have := card_split i (fun _ => True) (fun _ => A)
  simp only [true_and, Finset.filter_true, Finset.sum_const, nsmul_eq_mul, Nat.cast_id] at this
  rw [this, Finset.card_univ, Fintype.card_fun, card_byte, Nat.mul_comm]
  congr 2
  simp [Fintype.card_subtype_compl]

theorem ncard_filter {α : Type} [Fintype α] (p : α → Prop) [DecidablePred p] : {a | p a}.ncard = (Finset.univ.filter p).card := by
  rw [← Set.ncard_coe_finset]
  congr 1
  ext dk
  simp

theorem ncard_not {α : Type} [Fintype α] (p : α → Prop) : {a | ¬ p a}.ncard = Fintype.card α - {a | p a}.ncard := by
  rw [← Nat.card_eq_fintype_card, ← Set.ncard_compl]
  rfl

/-- Two restricted values among 64: those at 0 and at 16, the latter by a set that may depend on all other values. -/
theorem count_two (A : Finset UInt8) (B : ({j : Fin 64 // j ≠ 16} → UInt8) → Finset UInt8) (lo hi : Nat)
    (hlo : ∀ g, lo ≤ (B g).card) (hhi : ∀ g, (B g).card ≤ hi) :
    (256 - A.card) * (256 - hi) * 256 ^ 62 ≤ {f : Fin 64 → UInt8 | f 0 ∉ A ∧ f 16 ∉ B (fun j => f j)}.ncard ∧
    {f : Fin 64 → UInt8 | f 0 ∉ A ∧ f 16 ∉ B (fun j => f j)}.ncard ≤ (256 - A.card) * (256 - lo) * 256 ^ 62 := by
  have h := card_split (16 : Fin 64) (fun g => g ⟨0, by decide⟩ ∉ A) B
  have hA := card_avoid_at (⟨0, by decide⟩ : {j : Fin 64 // j ≠ 16}) A
  have hc : Fintype.card {j : Fin 64 // j ≠ 16} - 1 = 62 := by
    simp [Fintype.card_subtype_compl]
  rw [hc] at hA
  rw [ncard_filter, h]
  constructor
  · calc _ = (Finset.univ.filter fun g : {j : Fin 64 // j ≠ 16} → UInt8 => g ⟨0, by decide⟩ ∉ A).card * (256 - hi) := by rw [hA]; ring
      _ ≤ _ := Finset.card_nsmul_le_sum _ _ _ fun g _ => Nat.sub_le_sub_left (hhi g) _
  · calc _ ≤ (Finset.univ.filter fun g : {j : Fin 64 // j ≠ 16} → UInt8 => g ⟨0, by decide⟩ ∉ A).card * (256 - lo) :=
        Finset.sum_le_card_nsmul _ _ _ fun g _ => Nat.sub_le_sub_left (hlo g) _
      _ = _ := by rw [hA]; ring

end Bip38
