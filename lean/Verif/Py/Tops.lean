import Verif.Py.Meaning
import Verif.Py.Classes
import Verif.Model.Import
/-!
# The module level of a file

The statements at module level, as `Verif/Model/Import.lean` has them: imports, and statements that bind a name or only run, with the names that
they read while the module is imported, in the order of the text: decorators, defaults and annotations of functions, bases and bodies of classes,
values and annotations.  The bodies of functions are not read.
-/
namespace Bip38.Py

/-- Without the names that occur before. -/
def once : List Nat → List Nat → List Nat
  | [], _ => []
  | n :: l, seen => if memNat n seen then once l seen else n :: once l (n :: seen)
def without (n : Nat) : List Nat → List Nat
  | [] => []
  | m :: l => if Nat.beq m n then without n l else m :: without n l

/-- The names that an expression reads, in the order of the text. -/
def reads : Nat → PE → List Nat
  | 0, _ => []
  | f + 1, e => match e with
    | .name n => [n]
    | .fstr es | .list es | .tuple es | .dict es => flat (reads f) es
    | .fval e | .attr e _ | .kw _ e | .star e | .not e | .neg e | .invert e | .cmpOp _ e | .cmpIs _ e => reads f e
    | .index a b | .bin _ a b | .and a b | .or a b | .pair a b => reads f a ++ reads f b
    | .slice a b c d => reads f a ++ reads f b ++ reads f c ++ reads f d
    | .call g as => reads f g ++ flat (reads f) as
    | .cmp a rest => reads f a ++ flat (reads f) rest
    | .ite a b c => reads f a ++ reads f b ++ reads f c
    | .comp e n i => without n (reads f e) ++ reads f i
    | _ => []

/-- What a `def` statement reads. -/
def defReads (ds ps ans : List PE) : List Nat :=
  once (flat (reads fuel) ds ++ flat (fun p => match p with | .kw _ e => reads fuel e | _ => []) ps ++ flat (reads fuel) ans) []

/-- What the body of a class reads from outside: without the names that it has bound itself. -/
def classReads (bound : List Nat) : List PS → Option (List Nat)
  | [] => some []
  | s :: l =>
    let item (own : List Nat) (n : Option Nat) : Option (List Nat) := do
      let rest ← classReads (match n with | some n => n :: bound | none => bound) l
      return own.filter (fun n => !memNat n bound) ++ rest
    match s with
    | .def ds n ps ans _ => item (defReads ds ps ans) (some n)
    | .ann (.name _) t .missing => item (once (reads fuel t) []) none
    | .ann (.name n) t e => item (once (reads fuel e ++ reads fuel t) []) (some n)
    | .assign (.name n) e => item (once (reads fuel e) []) (some n)
    | .expr (.str _) | .pass => item [] none
    | _ => none

def names (l : List Nat) : List String := l.map nameText

/-- The parts of a dotted name. -/
def parts : Nat → PE → Option (List String)
  | _ + 1, .missing => some []
  | _ + 1, .name n => some [nameText n]
  | f + 1, .attr e n => (parts f e).map fun p => p ++ [nameText n]
  | _, _ => none

/-- The statements at module level. -/
def tops : List PS → Option (List Import.Top)
  | [] => some []
  | s :: l => do
    let rest ← tops l
    match s with
    | .expr (.str _) => return rest
    | .from level m ns => do
      let ns ← mapOpt (fun p => match p with
        | .pair (.name n) .missing => some (nameText n, nameText n)
        | .pair (.name n) (.name k) => some (nameText n, nameText k)
        | _ => none) ns
      return .from level (← parts fuel m) ns :: rest
    | .import [.pair (.name n) .missing] => return .import (nameText n) :: rest
    | .def ds n ps ans _ => return .bind (nameText n) (names (defReads ds ps ans)) :: rest
    | .cls n bases b => return .bind (nameText n) (names (once (flat (reads fuel) bases ++ (← classReads [] b)) [])) :: rest
    | .ann (.name n) t e => match e with
      | .missing => none
      | e => return .bind (nameText n) (names (once (reads fuel e ++ reads fuel t) [])) :: rest
    | .assign (.name n) e => return .bind (nameText n) (names (once (reads fuel e) [])) :: rest
    | .ite c [.raise _ _] [] => return .run (names (once (reads fuel c) [])) :: rest
    | _ => none

/-- The module that a file (its path, without `.py`) holds. -/
def moduleOf (path : List String) : Import.Mod := if path.getLast? = some "__init__" then path.dropLast else path

/-- The files, with their paths, are the modules of the program. -/
def Files : List (List String × String) → Import.Program → Prop
  | [], [] => True
  | (path, source) :: fs, (m, t) :: ms => m = moduleOf path ∧ t.isPackage = decide (path.getLast? = some "__init__") ∧
    (∃ tree, parseModule (source.toList.map Char.toNat) = some tree ∧ tops tree = some t.body) ∧ Files fs ms
  | _, _ => False

/-- The names that `except .. as` binds. -/
def handled : Nat → List PS → List Nat
  | 0, _ => []
  | f + 1, b => flat (fun s => match s with
    | .ite _ a b => handled f a ++ handled f b
    | .while _ b | .for _ _ b => handled f b
    | .try b hs => handled f b ++ handled f hs
    | .handler _ (.name n) b => n :: handled f b
    | .handler _ _ b => handled f b
    | _ => []) b

/-- The names in the statements of a function, in the order of the text; annotations of local variables are not read. -/
def named : Nat → List PS → List Nat
  | 0, _ => []
  | f + 1, b => flat (fun s => match s with
    | .expr e | .ret e | .assert e => reads fuel e
    | .raise e c => reads fuel e ++ reads fuel c
    | .assign t e | .ann t _ e | .aug t _ e => reads fuel t ++ reads fuel e
    | .ite c a b => reads fuel c ++ named f a ++ named f b
    | .while c b => reads fuel c ++ named f b
    | .for t e b => reads fuel t ++ reads fuel e ++ named f b
    | .try b hs => named f b ++ named f hs
    | .handler t _ b => reads fuel t ++ named f b
    | _ => []) b

/-- The names that the body of a function takes from outside: those that are neither parameters nor bound in the body. -/
def free (ps : List PE) (b : List PS) : List String :=
  let own := paramNames ps ++ bound fuel b ++ handled fuel b
  names (once ((named fuel b).filter fun n => !memNat n own) [])

/-- The functions of a file, those of classes as `Class.function`, and what their bodies take from outside. -/
def frees : List PS → List (String × List String)
  | [] => []
  | s :: l => (match s with
    | .def _ n ps _ b => [(nameText n, free ps b)]
    | .cls c _ b => flat (fun s => match s with
      | .def _ n ps _ b => [(nameText c ++ "." ++ nameText n, free ps b)]
      | _ => []) b
    | _ => []) ++ frees l

/-- The functions in the files, and what they take from outside. -/
def Frees : List (List String × String) → List (Import.Mod × String × List String) → Prop
  | [], rs => rs = []
  | (path, source) :: fs, rs => ∃ rest, (∃ tree, parseModule (source.toList.map Char.toNat) = some tree ∧
      rs = (frees tree).map (fun r => (moduleOf path, r)) ++ rest) ∧ Frees fs rest

end Bip38.Py
