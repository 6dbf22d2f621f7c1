import Verif.Lemmas.Hex
import Verif.Spec.Supplies
import Verif.Model.Bip38
/-! # `bytesOrRandom` is `Supplies` -/
namespace Bip38
open Spec

theorem truthy_iff (d : Data) : d.truthy = true ↔ ¬ Absent d := by
  unfold Data.truthy Absent
  cases d <;> simp

theorem supplies_iff (d : Data) (u b : Bytes) : bytesOrRandom d u = .ok b ↔ Supplies d u b := by
  unfold bytesOrRandom Supplies
  by_cases h : d.truthy = true
  · have ha := (truthy_iff d).mp h
    simp only [h, if_true, ha, false_and, false_or, not_false_iff, true_and]
    cases d with
    | none => simp [Data.truthy] at h
    | bytes x => simp [getBytes, h]
    | other => simp [getBytes, h, raise]
    | str s =>
      simp only [getBytes, h, Bool.not_true, Bool.false_eq_true, if_false, if_true, reduceCtorEq, Data.str.injEq, false_or,
        exists_eq_left', ← fromHex_iff]
      cases fromHex s <;> simp [raise]
  · have ha : Absent d := by
      by_contra hn; exact h ((truthy_iff d).mpr hn)
    simp [h, ha, eq_comm]

theorem Spec.Supplies.ok {d : Data} {u b : Bytes} (h : Supplies d u b) : bytesOrRandom d u = .ok b := (supplies_iff d u b).mpr h
theorem supplies {d : Data} {u b : Bytes} (h : bytesOrRandom d u = .ok b) : Supplies d u b := (supplies_iff d u b).mp h

end Bip38
