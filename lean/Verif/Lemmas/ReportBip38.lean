import Verif.Lemmas.Bip38
import Verif.Lemmas.Report
import Verif.Spec.Wif
/-! The texts of the errors of `bip38/bip38.py`. -/
namespace Bip38
open Spec Props

theorem hexText_eq (b : Bytes) : hexText b = hex b := by
  unfold hexText
  rw [bytesToString_bytes]

theorem publicKeyTypeOf_error (type : String) (ht : ¬ IsWifType type) :
    publicKeyTypeOf type = .error ⟨.wifError, report "Invalid wif type" "'wif', 'wif-compressed'" type⟩ := by
  have hq : quotes WIF_TYPES = "'wif', 'wif-compressed'" := by decide
  rw [← hq, ← errText_list _ _ _ (by decide)]
  unfold publicKeyTypeOf
  rw [if_neg (fun h => ht (Or.inl h)), if_neg (fun h => ht (Or.inr h))]
  rfl

theorem newFlag_error (magic : Bytes) (type : String) (h : ∀ lot, magic ≠ magicBytes lot) :
    newFlag magic type = .error ⟨.error, report "Invalid magic" "'2ce9b3e1ff39e251', '2ce9b3e1ff39e253'" (String.ofList (hex magic))⟩ := by
  have h1 : "'" ++ String.ofList (hex (magicBytes true)) ++ "', '" ++ String.ofList (hex (magicBytes false)) ++ "'"
      = "'2ce9b3e1ff39e251', '2ce9b3e1ff39e253'" := by decide +kernel
  unfold newFlag
  rw [c_magicLot, c_magicNo]
  simp only [bind, Except.bind]
  rw [if_neg (h true), if_neg (h false), hexText_eq, hexText_eq, hexText_eq, errText_two]
  unfold raise
  rw [← h1]

end Bip38
