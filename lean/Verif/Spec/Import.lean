import Verif.Model.ImportText
/-!
# What the names of a module stand for, read off the text

No execution here: a name of a module denotes what the one statement that binds it says, following `from .. import` through the files of
the package.
-/
namespace Bip38.Import

/-- How a statement binds a name. -/
inductive Binding where
  /-- `def`, `class` or assignment in this module -/
  | here
  /-- `import x` of an external module -/
  | module (x : String)
  /-- `from x import n` -/
  | taken (x : Mod) (n : String)
  deriving DecidableEq, Repr

/-- The names that a statement of module `m` binds. -/
def Top.binds (m : Mod) (isPackage : Bool) : Top → List (String × Binding)
  | .from level path names => names.map fun p => (p.2, .taken (target m isPackage level path) p.1)
  | .import x => [(x, .module x)]
  | .bind n _ => [(n, .here)]
  | .run _ => []

/-- The names that the text of module `m` binds, in order. -/
def Text.binds (m : Mod) (t : Text) : List (String × Binding) := t.body.flatMap (Top.binds m t.isPackage)

/-- `Denotes P m n site`: in the text of module `m`, the name `n` stands for what was made at `site`. -/
inductive Denotes (P : Program) : Mod → String → Site → Prop where
  | here {m : Mod} {t : Text} {n : String} :
      P.lookup m = some t → (n, .here) ∈ t.binds m → Denotes P m n (.own m n)
  | module {m : Mod} {t : Text} {n x : String} :
      P.lookup m = some t → (n, .module x) ∈ t.binds m → Denotes P m n (.module x)
  | external {m : Mod} {t : Text} {n : String} {x : Mod} {y : String} :
      P.lookup m = some t → (n, .taken x y) ∈ t.binds m → isInternal x = false → Denotes P m n (.external x y)
  | taken {m : Mod} {t : Text} {n : String} {x : Mod} {y : String} {site : Site} :
      P.lookup m = some t → (n, .taken x y) ∈ t.binds m → isInternal x = true → Denotes P x y site → Denotes P m n site

/-- The module is in `sys.modules`, and its namespace is `ns`. -/
def State.has (s : State) (m : Mod) (ns : Ns) : Prop := s.mods m = some ns

/-- A program tried the import of `m` in state `s`, and it succeeded. -/
def Imported (P : Program) (F : Faults) (m : Mod) (s : State) : Prop := (attempt P F m s).2 = none

end Bip38.Import
