import Verif.Model.Secp256k1
import Mathlib.NumberTheory.LucasPrimality
import Mathlib.Tactic.NormNum.Prime
import Mathlib.Tactic.Linarith
import Mathlib.Tactic.Ring
/-! # `pow(b, e, m)` and primality certificates -/
namespace Bip38

theorem powModAux_eq (m : Nat) (fuel b e acc : Nat) (hf : e < 2 ^ fuel) :
    powModAux m fuel b e acc % m = acc * b ^ e % m := by
  induction fuel generalizing b e acc with
  | zero =>
    have : e = 0 := by simpa using hf
    subst this; simp [powModAux]
  | succ fuel ih =>
    rw [powModAux]
    by_cases he : e = 0
    · subst he; simp
    · rw [if_neg he, ih _ _ _ (by rw [pow_succ] at hf; omega)]
      have hsq : (b * b % m) ^ (e / 2) % m = b ^ (2 * (e / 2)) % m := by
        rw [← Nat.pow_mod, pow_mul, pow_two]
      have e2 : e = 2 * (e / 2) + e % 2 := by omega
      rcases Nat.mod_two_eq_zero_or_one e with h | h
      · have h' : e = 2 * (e / 2) := by omega
        rw [if_neg (by omega), Nat.mul_mod, hsq, ← Nat.mul_mod, ← h']
      · have h' : e = 2 * (e / 2) + 1 := by omega
        rw [if_pos h, Nat.mul_mod, hsq, ← Nat.mul_mod, Nat.mod_mul_mod]
        conv_rhs => rw [h', pow_succ]
        congr 1; ring

theorem powModAux_lt (m : Nat) (hm : 0 < m) (fuel b e acc : Nat) (ha : acc < m) : powModAux m fuel b e acc < m := by
  induction fuel generalizing b e acc with
  | zero => exact ha
  | succ fuel ih =>
    rw [powModAux]
    split
    · exact ha
    · apply ih
      split
      · exact Nat.mod_lt _ hm
      · exact ha

theorem powMod_eq (b e m : Nat) (hm : 0 < m) : powMod b e m = b ^ e % m := by
  have h1 := powModAux_eq m (e.log2 + 1) (b % m) e (1 % m) Nat.lt_log2_self
  have h2 := powModAux_lt m hm (e.log2 + 1) (b % m) e (1 % m) (Nat.mod_lt _ hm)
  rw [Nat.mod_eq_of_lt h2] at h1
  rw [powMod, h1, Nat.mod_mul_mod, one_mul, ← Nat.pow_mod]

/-- Lucas certificate: `a` has order `n - 1` modulo `n`. -/
theorem prime_of_cert (n a : Nat) (fs : List Nat) (hn : 1 < n) (hp : ∀ q ∈ fs, q.Prime) (hprod : fs.prod = n - 1)
    (h1 : powMod a (n - 1) n = 1) (h2 : ∀ q ∈ fs, powMod a ((n - 1) / q) n ≠ 1) : n.Prime := by
  have cast : ∀ e, ((a : ZMod n) ^ e = 1 ↔ powMod a e n = 1) := by
    intro e
    rw [powMod_eq a e n (by omega)]
    have h := ZMod.natCast_eq_natCast_iff' (a ^ e) 1 n
    rw [Nat.mod_eq_of_lt hn] at h
    rw [← h]; push_cast; rfl
  apply lucas_primality n (a : ZMod n) ((cast _).mpr h1)
  intro q hq hd
  have hmem : q ∈ fs := by
    rw [← hprod] at hd
    obtain ⟨r, hr, hdr⟩ := (Prime.dvd_prod_iff hq.prime).mp hd
    rwa [(Nat.prime_dvd_prime_iff_eq hq (hp r hr)).mp hdr]
  exact fun h => h2 q hmem ((cast _).mp h)

end Bip38
