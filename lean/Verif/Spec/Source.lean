import Verif.Src.Values
/-!
# How a call of the repository's text ends

`Src/*.lean` (generated) is the text of the repository, `Src/Sem.lean` says what running it means: `f args kw : Run Val` is the call of
the function `f` with positional and keyword arguments.
-/
namespace Bip38.Spec

open Bip38 Src

/-- The call returns the value `v`. -/
def Returns (r : Run Val) (v : Val) : Prop := r = some (.ok v)

/-- The call raises an exception of class `c` with the text `m`. -/
def Raises (r : Run Val) (c : ExcClass) (m : String) : Prop := r = some (.error ⟨c, m⟩)

/-- The call ends: it returns a value or raises an exception. -/
def Halts (r : Run Val) : Prop := (∃ v, Returns r v) ∨ ∃ c m, Raises r c m

/-- The call ends as the function of the model does: with the same value (written as a Python value) or with the same exception, text
included. -/
def EndsAs {α : Type} (r : Run Val) (x : Py α) (value : α → Val) : Prop :=
  (∀ a, x = .ok a → Returns r (value a)) ∧ (∀ e, x = .error e → Raises r e.cls e.msg)

theorem endsAs {α : Type} {r : Run Val} {x : Py α} {value : α → Val} (h : r = Run.ofPy x >>= fun a => pure (value a)) :
    EndsAs r x value := by
  subst h
  exact ⟨by rintro a rfl; rfl, by rintro e rfl; rfl⟩

/-- A call ends in one way only: it does not return two values, nor return and raise. -/
theorem EndsAs.ends {α : Type} {r : Run Val} {x : Py α} {value : α → Val} (h : EndsAs r x value) : Halts r := by
  cases x with
  | ok a => exact Or.inl ⟨_, h.1 a rfl⟩
  | error e => exact Or.inr ⟨_, _, h.2 e rfl⟩

theorem EndsAs.returned {α : Type} {r : Run Val} {x : Py α} {value : α → Val} (h : EndsAs r x value) {v : Val} (hv : Returns r v) :
    ∃ a, x = .ok a ∧ value a = v := by
  cases x with
  | ok a =>
    have h1 := h.1 a rfl
    unfold Returns at h1 hv
    rw [hv] at h1
    exact ⟨a, rfl, by injection h1 with h1; injection h1 with h1; exact h1.symm⟩
  | error e =>
    have h1 := h.2 e rfl
    unfold Raises at h1
    unfold Returns at hv
    rw [hv] at h1
    injection h1 with h1
    cases h1

theorem EndsAs.raised {α : Type} {r : Run Val} {x : Py α} {value : α → Val} (h : EndsAs r x value) {c : ExcClass} {m : String}
    (hv : Raises r c m) : x = .error ⟨c, m⟩ := by
  cases x with
  | ok a =>
    have h1 := h.1 a rfl
    unfold Returns at h1
    unfold Raises at hv
    rw [hv] at h1
    injection h1 with h1
    cases h1
  | error e =>
    have h1 := h.2 e rfl
    unfold Raises at h1 hv
    rw [hv] at h1
    injection h1 with h1
    injection h1 with h1
    rw [h1]

end Bip38.Spec
