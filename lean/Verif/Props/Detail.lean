import Verif.Props.EcExamples
/-!
# Property C55: `detail` only adds information
-/
namespace Bip38.Props
open Bip38 Spec

variable {P : Prims} {obj : BIP38}

/-- Same error, or a pair of values in the relation `R`. -/
inductive SameOr {α : Type} (R : α → α → Prop) (x y : Py α) : Prop
  | value (a b : α) (hx : x = .ok a) (hy : y = .ok b) (h : R a b)
  | error (e : Exc) (hx : x = .error e) (hy : y = .error e)

theorem sameOr_bind {α β : Type} {R : α → α → Prop} (a : Py β) (f g : β → Py α) (h : ∀ b, SameOr R (f b) (g b)) :
    SameOr R (a >>= f) (a >>= g) := by
  cases a with
  | error e => exact .error e rfl rfl
  | ok b => exact h b

theorem sameOr_raise {α : Type} {R : α → α → Prop} (c : ExcClass) (m : String) : SameOr R (raise c m) (raise c m) := .error _ rfl rfl

/-- The plain result of `decrypt` is the `wif` entry of the detailed one. -/
def PlainWif : DecryptOut → DecryptOut → Prop
  | .wif w, .detail d => d.wif = w
  | _, _ => False

/-- The plain result of `confirm_code` is the `address` entry of the detailed one. -/
def PlainAddress : ConfirmOut → ConfirmOut → Prop
  | .address a, .detail d => d.address = a
  | _, _ => False

theorem sameOr_ite {α : Type} {R : α → α → Prop} (p : Prop) [Decidable p] (a b c d : Py α) (h1 : SameOr R a b) (h2 : SameOr R c d) :
    SameOr R (if p then a else c) (if p then b else d) := by
  split <;> assumption

theorem bind_ok' {α β : Type} (a : α) (f : α → Py β) : ((Except.ok a : Py α) >>= f) = f a := rfl

theorem plain_nil (w : Str) (d : DecryptDetail) (h : d.wif = w) : SameOr PlainWif (.ok (.wif w)) (.ok (.detail d)) := .value _ _ rfl rfl h

theorem plain_address (w : Str) (d : ConfirmDetail) (h : d.address = w) : SameOr PlainAddress (.ok (.address w)) (.ok (.detail d)) :=
  .value _ _ rfl rfl h

macro "lockstep" : tactic => `(tactic|
  repeat' first
    | exact sameOr_raise _ _
    | exact plain_nil _ _ rfl
    | exact plain_address _ _ rfl
    | refine sameOr_bind _ _ _ fun _ => ?_
    | refine sameOr_ite _ _ _ _ _ ?_ ?_)

theorem decryptNoEc_detail (decoded : Bytes) (pass : Str) (network : String) :
    SameOr PlainWif (obj.decryptNoEc P decoded pass network false) (obj.decryptNoEc P decoded pass network true) := by
  unfold BIP38.decryptNoEc
  simp only [Bool.false_eq_true, if_false, if_true, bytesToString_bytes, bind_ok']
  lockstep

theorem decryptEc_detail (decoded : Bytes) (pass : Str) (network : String) :
    SameOr PlainWif (obj.decryptEc P decoded pass network false) (obj.decryptEc P decoded pass network true) := by
  unfold BIP38.decryptEc
  simp only [Bool.false_eq_true, if_false, if_true, bytesToString_bytes, bind_ok']
  lockstep

theorem decrypt_detail (e pass : Str) (network : Option String) :
    SameOr PlainWif (obj.decrypt P e pass network false) (obj.decrypt P e pass network true) := by
  unfold BIP38.decrypt
  repeat' first
    | exact decryptNoEc_detail _ _ _
    | exact decryptEc_detail _ _ _
    | exact sameOr_raise _ _
    | refine sameOr_bind _ _ _ fun _ => ?_
    | refine sameOr_ite _ _ _ _ _ ?_ ?_

theorem confirm_detail (e pass : Str) (network : Option String) :
    SameOr PlainAddress (obj.confirmCode P pass e network false) (obj.confirmCode P pass e network true) := by
  unfold BIP38.confirmCode
  simp only [Bool.false_eq_true, if_false, if_true, bytesToString_bytes, bind_ok']
  lockstep

/-- C55: `decrypt` with and without `detail` raise the same errors, and the text returned without is the `wif` entry of the dictionary
returned with it (for every object, text, passphrase and network argument). -/
theorem C55_decrypt_detail (P : Prims) (obj : BIP38) (e pass : Str) (network : Option String) :
    (∃ d, obj.decrypt P e pass network false = .ok (.wif d.wif) ∧ obj.decrypt P e pass network true = .ok (.detail d))
      ∨ ∃ x, obj.decrypt P e pass network false = .error x ∧ obj.decrypt P e pass network true = .error x := by
  rcases decrypt_detail (P := P) (obj := obj) e pass network with ⟨a, b, ha, hb, h⟩ | ⟨x, hx, hy⟩
  · left
    cases a with
    | detail => cases h
    | wif w =>
      cases b with
      | wif => cases h
      | detail d => exact ⟨d, by rw [ha, show d.wif = w from h], hb⟩
  · exact .inr ⟨x, hx, hy⟩

/-- C55: the same for `confirm_code` and the `address` entry. -/
theorem C55_confirm_detail (P : Prims) (obj : BIP38) (code pass : Str) (network : Option String) :
    (∃ d, obj.confirmCode P pass code network false = .ok (.address d.address) ∧ obj.confirmCode P pass code network true = .ok (.detail d))
      ∨ ∃ x, obj.confirmCode P pass code network false = .error x ∧ obj.confirmCode P pass code network true = .error x := by
  rcases confirm_detail (P := P) (obj := obj) code pass network with ⟨a, b, ha, hb, h⟩ | ⟨x, hx, hy⟩
  · left
    cases a with
    | detail => cases h
    | address w =>
      cases b with
      | address => cases h
      | detail d => exact ⟨d, by rw [ha, show d.address = w from h], hb⟩
  · exact .inr ⟨x, hx, hy⟩

end Bip38.Props
