import Verif.Lemmas.Primes
import Mathlib.AlgebraicGeometry.EllipticCurve.Affine.Point
import Mathlib.FieldTheory.Finite.Basic
import Mathlib.Tactic.LinearCombination
import Mathlib.Tactic.FieldSimp
/-! # The model's point arithmetic is the group law of the elliptic curve `y² = x³ + 7` -/
namespace Bip38

instance : Fact (Nat.Prime fieldP) := ⟨fieldP_prime⟩
instance : Fact (Nat.Prime N) := ⟨N_prime⟩

/-- The field of the curve. -/
abbrev Fp := ZMod fieldP

theorem fieldP_pos : 0 < fieldP := fieldP_prime.pos
theorem fieldP_odd : fieldP % 2 = 1 := by decide +kernel
theorem fieldP_gt : 7 < fieldP := by decide +kernel

/-- secp256k1 as a Weierstrass curve. -/
noncomputable def curve : WeierstrassCurve.Affine Fp := ⟨0, 0, 0, 0, 7⟩

theorem cast_mod (n : Nat) : ((n % fieldP : Nat) : Fp) = n := by
  simp

theorem val_natCast (n : Nat) : ((n : Fp)).val = n % fieldP := ZMod.val_natCast _ _

theorem cast_val (z : Fp) : ((z.val : Nat) : Fp) = z := ZMod.natCast_zmod_val z

theorem val_lt (z : Fp) : z.val < fieldP := ZMod.val_lt z

theorem natCast_inj {a b : Nat} (ha : a < fieldP) (hb : b < fieldP) : ((a : Fp) = b) ↔ a = b := by
  rw [ZMod.natCast_eq_natCast_iff', Nat.mod_eq_of_lt ha, Nat.mod_eq_of_lt hb]

theorem cast_sub_p {x : Nat} (h : x ≤ fieldP) : ((fieldP - x : Nat) : Fp) = -(x : Fp) := by
  rw [Nat.cast_sub h]; simp

theorem cast_invMod (a : Nat) : ((invMod a : Nat) : Fp) = (a : Fp)⁻¹ := by
  rw [invMod, powMod_eq _ _ _ fieldP_pos, cast_mod, Nat.cast_pow]
  by_cases h : (a : Fp) = 0
  · rw [h, inv_zero, zero_pow]
    have := fieldP_gt; omega
  · have h1 := ZMod.pow_card_sub_one_eq_one h
    apply eq_inv_of_mul_eq_one_left
    rw [← pow_succ]
    have : fieldP - 2 + 1 = fieldP - 1 := by have := fieldP_gt; omega
    rw [this, h1]

theorem equation_iff (x y : Fp) : curve.Equation x y ↔ y ^ 2 = x ^ 3 + 7 := by
  rw [WeierstrassCurve.Affine.equation_iff]
  simp [curve]

theorem seven_ne : (7 : Fp) ≠ 0 := by
  have h := natCast_inj fieldP_gt fieldP_pos
  intro h7
  exact absurd (h.mp (by exact_mod_cast h7)) (by decide)

theorem two_ne : (2 : Fp) ≠ 0 := by
  have h := natCast_inj (a := 2) (by have := fieldP_gt; omega) fieldP_pos
  intro h7
  exact absurd (h.mp (by exact_mod_cast h7)) (by decide)

theorem three_ne : (3 : Fp) ≠ 0 := by
  have h := natCast_inj (a := 3) (by have := fieldP_gt; omega) fieldP_pos
  intro h7
  exact absurd (h.mp (by exact_mod_cast h7)) (by decide)

theorem curve_Δ : curve.Δ ≠ 0 := by
  have : curve.Δ = -(2 ^ 4 * 3 ^ 3 * 7 ^ 2) := by
    simp only [WeierstrassCurve.Δ, WeierstrassCurve.b₂, WeierstrassCurve.b₄, WeierstrassCurve.b₆, WeierstrassCurve.b₈, curve]
    ring
  rw [this, neg_ne_zero]
  exact mul_ne_zero (mul_ne_zero (pow_ne_zero _ two_ne) (pow_ne_zero _ three_ne)) (pow_ne_zero _ seven_ne)

theorem nonsingular_iff (x y : Fp) : curve.Nonsingular x y ↔ y ^ 2 = x ^ 3 + 7 := by
  rw [← equation_iff, WeierstrassCurve.Affine.equation_iff_nonsingular_of_Δ_ne_zero curve_Δ]

/-- The group of points of the curve. -/
abbrev E := curve.Point

/-- Coordinates of a group element, as the model represents them. -/
noncomputable def toPt : E → Pt
  | .zero => .inf
  | .some x y _ => .aff x.val y.val

@[simp] theorem toPt_zero : toPt 0 = .inf := rfl
@[simp] theorem toPt_some (x y : Fp) (h) : toPt (.some x y h) = .aff x.val y.val := rfl

theorem toPt_injective : Function.Injective toPt := by
  intro a b h
  cases a <;> cases b
  · rfl
  · exact absurd h (by simp [toPt])
  · exact absurd h (by simp [toPt])
  · simp only [toPt, Pt.aff.injEq] at h
    have h1 := ZMod.val_injective _ h.1
    have h2 := ZMod.val_injective _ h.2
    subst h1; subst h2; rfl

theorem onCurve_iff (x y : Nat) : onCurve x y = true ↔ (y : Fp) ^ 2 = (x : Fp) ^ 3 + 7 := by
  unfold onCurve
  rw [decide_eq_true_eq, ← ZMod.natCast_eq_natCast_iff' (y * y) (x * x * x + 7) fieldP]
  push_cast
  constructor <;> intro h <;> linear_combination h

/-- A point of the model: infinity, or reduced coordinates on the curve. -/
def Pt.Valid : Pt → Prop
  | .inf => True
  | .aff x y => x < fieldP ∧ y < fieldP ∧ onCurve x y = true

theorem valid_toPt (a : E) : (toPt a).Valid := by
  cases a with
  | zero => trivial
  | some x y h =>
    refine ⟨val_lt x, val_lt y, ?_⟩
    rw [onCurve_iff, cast_val, cast_val]
    exact (nonsingular_iff x y).mp h

theorem exists_toPt {p : Pt} (h : p.Valid) : ∃ a : E, toPt a = p := by
  cases p with
  | inf => exact ⟨0, rfl⟩
  | aff x y =>
    obtain ⟨hx, hy, hc⟩ := h
    refine ⟨.some x y ((nonsingular_iff _ _).mpr ((onCurve_iff x y).mp hc)), ?_⟩
    simp [toPt, Nat.mod_eq_of_lt hx, Nat.mod_eq_of_lt hy]

theorem val_eq_iff (n : Nat) (z : Fp) : n % fieldP = z.val ↔ (n : Fp) = z := by
  constructor
  · intro h; rw [← cast_mod, h, cast_val]
  · intro h; rw [← h, val_natCast]

theorem negY_eq (x y : Fp) : curve.negY x y = -y := by
  simp [WeierstrassCurve.Affine.negY, curve]

theorem addX_eq (x₁ x₂ l : Fp) : curve.addX x₁ x₂ l = l ^ 2 - x₁ - x₂ := by
  simp [WeierstrassCurve.Affine.addX, curve]

theorem addY_eq (x₁ x₂ y₁ l : Fp) : curve.addY x₁ x₂ y₁ l = l * (x₁ - (l ^ 2 - x₁ - x₂)) - y₁ := by
  rw [WeierstrassCurve.Affine.addY, negY_eq, WeierstrassCurve.Affine.negAddY, addX_eq]
  ring

theorem chord_eq (l : Nat) (x₁ y₁ x₂ lz : Fp) (hl : (l : Fp) = lz) :
    chord l x₁.val y₁.val x₂.val = .aff (curve.addX x₁ x₂ lz).val (curve.addY x₁ x₂ y₁ lz).val := by
  have h1 := (val_lt x₁).le
  have h2 := (val_lt x₂).le
  have h3 := (val_lt y₁).le
  have hx : ((l * l + (fieldP - x₁.val) + (fieldP - x₂.val) : Nat) : Fp) = curve.addX x₁ x₂ lz := by
    rw [addX_eq]
    push_cast [cast_sub_p h1, cast_sub_p h2, cast_val, hl]
    ring
  have hx' := (val_eq_iff _ _).mpr hx
  unfold chord
  simp only [Pt.aff.injEq]
  refine ⟨hx', ?_⟩
  rw [hx', val_eq_iff]
  have h4 := (val_lt (curve.addX x₁ x₂ lz)).le
  rw [addY_eq]
  push_cast [cast_sub_p h3, cast_sub_p h4, cast_val, hl]
  rw [addX_eq]
  ring

theorem add_toPt (a b : E) : (toPt a).add (toPt b) = toPt (a + b) := by
  cases a with
  | zero =>
    have : (WeierstrassCurve.Affine.Point.zero : E) + b = b := zero_add b
    rw [this]; rfl
  | some x₁ y₁ h₁ =>
    cases b with
    | zero =>
      have : (.some x₁ y₁ h₁ : E) + WeierstrassCurve.Affine.Point.zero = .some x₁ y₁ h₁ := add_zero _
      rw [this]; rfl
    | some x₂ y₂ h₂ =>
      simp only [toPt_some, Pt.add]
      have hval : x₁.val = x₂.val ↔ x₁ = x₂ := (ZMod.val_injective _).eq_iff
      have hyz : (y₁.val + y₂.val) % fieldP = 0 ↔ y₁ = curve.negY x₂ y₂ := by
        have h0 := val_eq_iff (y₁.val + y₂.val) 0
        rw [ZMod.val_zero] at h0
        rw [negY_eq, h0]
        push_cast [cast_val]
        exact add_eq_zero_iff_eq_neg
      by_cases hx : x₁ = x₂
      · rw [if_pos (hval.mpr hx)]
        by_cases hy : y₁ = curve.negY x₂ y₂
        · rw [if_pos (hyz.mpr hy), WeierstrassCurve.Affine.Point.add_of_Y_eq hx hy]; rfl
        · rw [if_neg (fun h => hy (hyz.mp h)), WeierstrassCurve.Affine.Point.add_some (fun h => hy h.2), toPt_some]
          apply chord_eq
          rw [WeierstrassCurve.Affine.slope_of_Y_ne hx hy, cast_mod]
          push_cast [cast_invMod, cast_mod, cast_val]
          rw [negY_eq, div_eq_mul_inv]
          simp only [curve]
          ring
      · rw [if_neg (fun h => hx (hval.mp h)), WeierstrassCurve.Affine.Point.add_some (fun h => hx h.1), toPt_some]
        apply chord_eq
        rw [WeierstrassCurve.Affine.slope_of_X_ne hx, cast_mod]
        push_cast [cast_invMod, cast_mod, cast_val, cast_sub_p (val_lt y₁).le, cast_sub_p (val_lt x₁).le]
        have hne : x₁ - x₂ ≠ 0 := sub_ne_zero.mpr hx
        have hne' : x₂ + -x₁ ≠ 0 := by intro h; apply hx; linear_combination -h
        field_simp
        ring

theorem mulAux_toPt (fuel : Nat) (b : E) (e : Nat) (acc : E) (hf : e < 2 ^ fuel) :
    Pt.mulAux fuel (toPt b) e (toPt acc) = toPt (acc + e • b) := by
  induction fuel generalizing b e acc with
  | zero =>
    have : e = 0 := by simpa using hf
    subst this; simp [Pt.mulAux]
  | succ fuel ih =>
    rw [Pt.mulAux]
    by_cases he : e = 0
    · subst he; simp
    · rw [if_neg he, add_toPt, add_toPt]
      have hf' : e / 2 < 2 ^ fuel := by rw [pow_succ] at hf; omega
      have hdouble : (e / 2) • (b + b) = (2 * (e / 2)) • b := by
        rw [← two_nsmul, mul_comm, mul_nsmul, ← mul_nsmul, mul_comm, mul_nsmul]
      rcases Nat.mod_two_eq_zero_or_one e with h | h
      · rw [if_neg (by omega), ih _ _ _ hf', hdouble]
        have h' : 2 * (e / 2) = e := by omega
        rw [h']
      · rw [if_pos h, ih _ _ _ hf', hdouble, add_assoc, ← succ_nsmul']
        have h' : 2 * (e / 2) + 1 = e := by omega
        rw [h']

theorem mul_toPt (a : E) (k : Nat) : (toPt a).mul k = toPt (k • a) := by
  have := mulAux_toPt (k.log2 + 1) a k 0 Nat.lt_log2_self
  rw [zero_add] at this
  exact this

/-! ### The generator and the group order -/

theorem gen_valid : gen.Valid := by
  refine ⟨by decide +kernel, by decide +kernel, by decide +kernel⟩

/-- The generator as a group element. -/
noncomputable def G : E := (exists_toPt gen_valid).choose

theorem toPt_G : toPt G = gen := (exists_toPt gen_valid).choose_spec

theorem gen_mul (k : Nat) : gen.mul k = toPt (k • G) := by rw [← toPt_G, mul_toPt]

/-- `N` times the generator is the point at infinity (kernel computation). -/
theorem gen_mul_N : gen.mul N = .inf := by decide +kernel

theorem N_nsmul_G : N • G = 0 := by
  apply toPt_injective
  rw [← gen_mul, gen_mul_N]; rfl

theorem G_ne_zero : G ≠ 0 := by
  intro h
  have := toPt_G
  rw [h] at this
  exact absurd this (by simp [gen])

theorem addOrderOf_G : addOrderOf G = N := addOrderOf_eq_prime N_nsmul_G G_ne_zero

end Bip38
