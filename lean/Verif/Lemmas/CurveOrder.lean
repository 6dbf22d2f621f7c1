import Verif.Lemmas.Curve
import Mathlib.GroupTheory.Perm.Cycle.Type
import Mathlib.GroupTheory.OrderOfElement
/-! # The curve group has exactly `N` elements -/
namespace Bip38

theorem neg_val_parity (y : Fp) (h : y ≠ 0) : (-y).val % 2 ≠ y.val % 2 := by
  have h1 : (-y).val = fieldP - y.val := by
    have : NeZero y := ⟨h⟩
    exact ZMod.val_neg_of_ne_zero y
  have h2 := val_lt y
  have h3 := fieldP_odd
  omega

theorem eq_or_neg_of_sq {y z : Fp} (h : y ^ 2 = z ^ 2) : y = z ∨ y = -z := sq_eq_sq_iff_eq_or_eq_neg.mp h

theorem eq_of_sq_parity {y z : Fp} (h : y ^ 2 = z ^ 2) (hp : y.val % 2 = z.val % 2) : y = z := by
  rcases eq_or_neg_of_sq h with h | h
  · exact h
  · by_cases hz : z = 0
    · rw [h, hz]; simp
    · rw [h] at hp; exact absurd hp (neg_val_parity z hz)

/-- Abscissa and parity of the ordinate. -/
noncomputable def xpar : E → Option (Fp × Bool)
  | .zero => none
  | .some x y _ => some (x, decide (y.val % 2 = 1))

theorem xpar_injective : Function.Injective xpar := by
  intro a b h
  cases a with
  | zero => cases b with
    | zero => rfl
    | some => exact absurd h (by simp [xpar])
  | some x y hxy => cases b with
    | zero => exact absurd h (by simp [xpar])
    | some x' y' hxy' =>
      simp only [xpar, Option.some.injEq, Prod.mk.injEq, decide_eq_decide] at h
      obtain ⟨rfl, hp⟩ := h
      have e1 := (nonsingular_iff x y).mp hxy
      have e2 := (nonsingular_iff x y').mp hxy'
      have : y = y' := eq_of_sq_parity (e1.trans e2.symm) (by omega)
      subst this; rfl

instance finiteFp : Finite Fp := Nat.finite_of_card_ne_zero (by
  rw [Nat.card_zmod]; exact fieldP_pos.ne')

instance finiteE : Finite E := Finite.of_injective xpar xpar_injective

theorem card_opt : Nat.card (Option (Fp × Bool)) = fieldP * 2 + 1 := by
  rw [Finite.card_option, Nat.card_prod, Nat.card_zmod, Nat.card_eq_two_iff.mpr ⟨true, false, by simp, by ext b; cases b <;> simp⟩]

theorem card_le : Nat.card E ≤ fieldP * 2 + 1 := by
  rw [← card_opt]
  exact Nat.card_le_card_of_injective xpar xpar_injective

/-- `-7` is not a cube (kernel computation of `(-7)^((p-1)/3)`). -/
theorem neg7 : powMod (fieldP - 7) ((fieldP - 1) / 3) fieldP ≠ 1 := by decide +kernel

theorem fieldP_div3 : 3 * ((fieldP - 1) / 3) = fieldP - 1 := by decide +kernel

theorem seven_le : 7 ≤ fieldP := fieldP_gt.le
theorem one_lt_fieldP : 1 < fieldP := by have := fieldP_gt; omega

theorem cast_neg7 : ((fieldP - 7 : Nat) : Fp) = -7 := by
  rw [cast_sub_p seven_le]; norm_num

theorem no_y_zero (x : Fp) (h : (0 : Fp) = x ^ 3 + 7) : False := by
  have hx : x ≠ 0 := by
    rintro rfl
    apply seven_ne
    simpa using h.symm
  have h3 : x ^ 3 = ((fieldP - 7 : Nat) : Fp) := by
    rw [cast_neg7]
    linear_combination -h
  have h1 := ZMod.pow_card_sub_one_eq_one hx
  rw [← fieldP_div3, pow_mul, h3] at h1
  have h4 := powMod_eq (fieldP - 7) ((fieldP - 1) / 3) fieldP fieldP_pos
  have h5 : ((powMod (fieldP - 7) ((fieldP - 1) / 3) fieldP : Nat) : Fp) = ((1 : Nat) : Fp) := by
    rw [h4, cast_mod, Nat.cast_pow, h1, Nat.cast_one]
  have h6 : powMod (fieldP - 7) ((fieldP - 1) / 3) fieldP < fieldP := by
    rw [h4]; exact Nat.mod_lt _ fieldP_pos
  rw [natCast_inj h6 one_lt_fieldP] at h5
  exact neg7 h5

theorem y_ne_zero {x y : Fp} (h : y ^ 2 = x ^ 3 + 7) : y ≠ 0 := by
  rintro rfl
  exact no_y_zero x (by simpa using h)

theorem neg_ne_self {a : E} (h : a ≠ 0) : -a ≠ a := by
  cases a with
  | zero => exact absurd rfl h
  | some x y hxy =>
    rw [WeierstrassCurve.Affine.Point.neg_some]
    intro he
    simp only [WeierstrassCurve.Affine.Point.some.injEq, true_and, negY_eq] at he
    have h2 : (2 : Fp) * y = 0 := by linear_combination -he
    rcases mul_eq_zero.mp h2 with h2 | h2
    · exact two_ne h2
    · exact y_ne_zero ((nonsingular_iff x y).mp hxy) h2

theorem odd_card : ¬ 2 ∣ Nat.card E := by
  intro h2
  have : Fact (Nat.Prime 2) := ⟨Nat.prime_two⟩
  obtain ⟨t, ht⟩ := exists_prime_addOrderOf_dvd_card' 2 h2
  have ht0 : t ≠ 0 := by
    rintro rfl
    rw [addOrderOf_zero] at ht
    exact absurd ht (by norm_num)
  have h2t : 2 • t = 0 := by rw [← ht]; exact addOrderOf_nsmul_eq_zero t
  rw [two_nsmul] at h2t
  exact neg_ne_self ht0 (neg_eq_of_add_eq_zero_left h2t)

theorem card_aux (c n p : Nat) (hn : n ∣ c) (hle : c ≤ p * 2 + 1) (hpos : 0 < c) (h3 : p * 2 + 1 < n * 3) (hodd : ¬ 2 ∣ c) :
    c = n := by
  obtain ⟨k, rfl⟩ := hn
  have hk3 : k < 3 := by
    by_contra h
    have : n * 3 ≤ n * k := Nat.mul_le_mul_left _ (by omega)
    omega
  interval_cases k
  · omega
  · omega
  · exact absurd (Dvd.intro_left n rfl) hodd

theorem bound_N : fieldP * 2 + 1 < N * 3 := by decide +kernel

/-- The curve has exactly `N` points. -/
theorem card_E : Nat.card E = N := by
  have hN : N ∣ Nat.card E := by
    have := addOrderOf_dvd_natCard G
    rwa [addOrderOf_G] at this
  exact card_aux _ _ _ hN card_le Nat.card_pos bound_N odd_card

/-- Every point except infinity has order `N`. -/
theorem addOrderOf_point {a : E} (h : a ≠ 0) : addOrderOf a = N := by
  apply addOrderOf_eq_prime _ h
  have := card_nsmul_eq_zero' (x := a)
  rwa [card_E] at this

theorem nsmul_eq_zero_iff {a : E} (h : a ≠ 0) (k : Nat) : k • a = 0 ↔ N ∣ k := by
  rw [← addOrderOf_point h, addOrderOf_dvd_iff_nsmul_eq_zero]

theorem nsmul_mod (a : E) (k : Nat) : (k % N) • a = k • a := by
  by_cases h : a = 0
  · subst h; simp
  · rw [← addOrderOf_point h]; exact mod_addOrderOf_nsmul a k

theorem nsmul_G_inj {a b : Nat} (ha : a < N) (hb : b < N) (h : a • G = b • G) : a = b := by
  have := nsmul_inj_mod.mp h
  rw [addOrderOf_G, Nat.mod_eq_of_lt ha, Nat.mod_eq_of_lt hb] at this
  exact this

end Bip38
