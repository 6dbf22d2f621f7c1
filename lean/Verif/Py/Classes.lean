import Verif.Py.Meaning
import Verif.Src.Class
/-!
# What a module of class statements means

The classes of a module whose classes only assign attributes, as `Verif/Src/Class.lean` has them: name, base classes, and the assignments of the
body in order, with the meaning of the assigned expressions (`Verif/Py/Meaning.lean`; they use no names, so the context is empty).
-/
namespace Bip38.Py
open Bip38.Src

/-- No names. -/
def noNames : Ctx := { lib := ⟨[], [], [], [], []⟩, scope := [], methods := [], str := fun _ _ => .stuck }

/-- The characters of a name. -/
def nameText (n : Nat) : String := text (expr.unspell n)

/-- The assignments of a class body; an annotation without a value assigns nothing. -/
def classBody : List PS → Option (List (String × Expr))
  | [] => some []
  | s :: l => do
    let rest ← classBody l
    match s with
    | .ann (.name _) _ .missing => return rest
    | .ann (.name n) _ e | .assign (.name n) e => return (nameText n, ← expr fuel noNames e) :: rest
    | .expr (.str _) | .pass => return rest
    | _ => none

/-- The class statements of a module that consists of imports and class statements. -/
def classTexts : List PS → Option (List ClassText)
  | [] => some []
  | s :: l => do
    let rest ← classTexts l
    match s with
    | .import _ | .from _ _ _ => return rest
    | .cls n bases b =>
      let bases ← mapOpt (fun e => match e with | .name m => some (nameText m) | _ => none) bases
      return ⟨nameText n, bases, ← classBody b⟩ :: rest
    | _ => none

/-- The text of a module consists of these class statements. -/
def DefinesClasses (source : String) (classes : List ClassText) : Prop :=
  ∃ tree, parseModule (source.toList.map Char.toNat) = some tree ∧ classTexts tree = some classes

end Bip38.Py
