import Verif.Py.Meaning
import Mathlib.Tactic.Eval
/-!
# Terms and proofs about texts, without computation by the elaborator

`chars%` writes out the characters of a text, `by_kernel` closes an equation whose sides are the same for the kernel: the kernel alone computes.
-/
namespace Bip38.Py
open Lean Elab Term Meta

/-- `chars% name`: the list of the characters of the text that the constant `name` is defined as. -/
elab "chars% " n:ident : term => do
  let n ← realizeGlobalConstNoOverloadWithInfo n
  let some (.lit (.strVal s)) := ((← getEnv).find? n).bind (·.value?) | throwError "not a text"
  let ty := Lean.mkConst ``Char
  return s.toList.foldr (fun c r => mkApp3 (Lean.mkConst ``List.cons [.zero]) ty (mkApp (Lean.mkConst ``Char.ofNat) (mkRawNatLit c.toNat)) r)
    (mkApp (Lean.mkConst ``List.nil [.zero]) ty)

/-- Proves `a = b` by `rfl`, which only the kernel checks. -/
elab "by_kernel" : tactic => do
  let g ← Tactic.getMainGoal
  let t ← instantiateMVars (← g.getType)
  let some (ty, a, _) := t.eq? | throwError "not an equation"
  g.assign (mkApp2 (Lean.mkConst ``Eq.refl [← getLevel ty]) ty a)

/-- The tokens, the tree, and that it is the tree of the text. -/
theorem parseModule_eq {s : String} {cs : List Char} (h : s = String.ofList cs) {ts : List Tok} (hl : lex (cs.map Char.toNat) = some ts)
    {tree : List PS} (hp : ps depth (.stmts []) ts = some (tree, [])) : parseModule (s.toList.map Char.toNat) = some tree := by
  subst h
  rw [String.toList_ofList]
  simp only [parseModule, hl, hp, Option.bind_eq_bind, Option.bind_some]

end Bip38.Py
