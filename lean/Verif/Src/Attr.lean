import Lean.Meta.Tactic.Simp.RegisterCommand
/-!
# The simp set that runs the text of the repository
-/

/-- Equations of the combinators of `Verif/Src/Sem.lean` and of the statements of the repository. -/
register_simp_attr src
