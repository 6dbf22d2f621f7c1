/-!
# Importing the package

How CPython executes `import bip38.x` on the files of `/repo/bip38` (`importlib._bootstrap._find_and_load`, `_load_unlocked`,
`_call_with_frames_removed`, and the instructions `IMPORT_NAME` and `IMPORT_FROM`): modules are found in `sys.modules` or executed, a
package is imported before what it contains, a module is entered in `sys.modules` *before* its statements run and taken out again when one
of them raises, and a module that was executed becomes an attribute of its package.  The statements themselves are data, generated from the
files (`Verif/Model/ImportText.lean`).

Simplifications: importing a name from outside the package gives the same object every time; what else an external import does is
not modelled; a statement may raise for any reason (`Faults`), but evaluating the right-hand sides of the package has no other effect than
reading names; a `from` statement takes names of the module it names, not submodules (`from . import x`, which the package does not use).
-/
namespace Bip38.Import

/-- A dotted module name, `bip38.libs.base58` being `["bip38", "libs", "base58"]`. -/
abbrev Mod := List String

/-- Where an object comes from: an external module itself (`import os`), a name of an external module, a statement of the package that
binds a name, or a module of the package. -/
inductive Site where
  | module (m : String)
  | external (m : Mod) (n : String)
  | own (m : Mod) (n : String)
  | submodule (m : Mod)
  deriving DecidableEq, Repr

/-- An object: where it comes from, and the moment of its creation, so that executing a statement again creates another object. -/
structure Obj where
  site : Site
  serial : Nat
  deriving DecidableEq, Repr

/-- A statement at module level. -/
inductive Top where
  /-- `from ..path import name as alias, ..` with its number of dots -/
  | from (level : Nat) (path : Mod) (names : List (String × String))
  /-- `import m` -/
  | import (m : String)
  /-- a `def`, a `class` or an assignment: binds a name, after reading names -/
  | bind (n : String) (uses : List String)
  /-- an `if` that may raise, after reading names -/
  | run (uses : List String)
  deriving DecidableEq, Repr

/-- A file: whether it is an `__init__.py`, and its statements. -/
structure Text where
  isPackage : Bool
  body : List Top
  deriving Repr

/-- The files of a package. -/
abbrev Program := List (Mod × Text)

/-- The namespace of a module: its `__dict__`. -/
abbrev Ns := String → Option Obj

/-- The interpreter: `sys.modules`, and a counter of created objects. -/
structure State where
  mods : Mod → Option Ns
  next : Nat

/-- An interpreter that has imported nothing. -/
def State.empty : State := ⟨fun _ => none, 0⟩

/-- `sys.modules[m] = ns` -/
def State.put (s : State) (m : Mod) (ns : Ns) : State := { s with mods := fun k => if k = m then some ns else s.mods k }

/-- `del sys.modules[m]` -/
def State.remove (s : State) (m : Mod) : State := { s with mods := fun k => if k = m then none else s.mods k }

/-- `ns[n] = o` -/
def Ns.set (ns : Ns) (n : String) (o : Obj) : Ns := fun k => if k = n then some o else ns k

/-- Binds a name in the namespace of a module. -/
def State.bind (s : State) (m : Mod) (n : String) (o : Obj) : State :=
  match s.mods m with
  | some ns => s.put m (ns.set n o)
  | none => s

/-- Why an import failed. -/
inductive Exc where
  /-- something raised while a statement of a module ran: an external module is missing, memory is exhausted, Ctrl-C was pressed, .. -/
  | fault (m : Mod) (i : Nat)
  /-- `ModuleNotFoundError` for a module of the package -/
  | notFound (m : Mod)
  /-- `ImportError: cannot import name`, also when the module is still being executed -/
  | cannotImport (m : Mod) (n : String)
  /-- `NameError` -/
  | nameError (m : Mod) (n : String)
  /-- modules import each other without end (not possible in CPython, where `sys.modules` stops it) -/
  | depth
  deriving DecidableEq, Repr

/-- What raises from outside during one attempt: before a statement of a module takes effect, or, for a `from` statement, after the module
it names has been imported. -/
structure Faults where
  before : Mod → Nat → Bool
  after : Mod → Nat → Bool

/-- Nothing raises. -/
def Faults.none : Faults := ⟨fun _ _ => false, fun _ _ => false⟩

/-- The state after an import, and the exception if it failed. -/
abbrev Result := State × Option Exc

/-- The absolute name of what `from ..path import` names inside module `m` (`importlib._bootstrap._resolve_name`). -/
def target (m : Mod) (isPackage : Bool) (level : Nat) (path : Mod) : Mod :=
  if level = 0 then path
  else (if isPackage then m else m.dropLast).take ((if isPackage then m else m.dropLast).length - (level - 1)) ++ path

/-- Whether a module name is one of the package (`bip38` or below it). -/
def isInternal (m : Mod) : Bool := m.head? == some "bip38"

/-- The names that the package uses and that Python supplies everywhere (`builtins`). -/
def builtins : List String :=
  ["AttributeError", "Exception", "TypeError", "ValueError", "bool", "bytearray", "bytes", "classmethod", "dict", "divmod", "enumerate", "int",
   "isinstance", "issubclass", "len", "list", "range", "staticmethod", "str", "type"]

/-- `import a.b.c`: first `a`, then `a.b`, then `a.b.c`, each only if it is not in `sys.modules` (`_find_and_load_unlocked` imports the
parent first and then looks again). -/
def importFrom (load : Mod → State → Result) (done : Mod) : List String → State → Result
  | [], s => (s, none)
  | c :: cs, s =>
    match s.mods (done ++ [c]) with
    | some _ => importFrom load (done ++ [c]) cs s
    | none =>
      match load (done ++ [c]) s with
      | (s', none) => importFrom load (done ++ [c]) cs s'
      | (s', some e) => (s', some e)

/-- `IMPORT_FROM` and `STORE_NAME` for each name of a `from` statement whose module is `x`. -/
def takeNames (m x : Mod) : List (String × String) → State → Result
  | [], s => (s, none)
  | (n, alias) :: rest, s =>
    match (s.mods x).bind (· n) with
    | some o => takeNames m x rest (s.bind m alias o)
    | none => (s, some (.cannotImport x n))

/-- The same for an external module. -/
def takeExternal (m x : Mod) : List (String × String) → State → State
  | [], s => s
  | (n, alias) :: rest, s => takeExternal m x rest (s.bind m alias ⟨.external x n, 0⟩)

/-- The first of the names a statement reads that is neither in the namespace nor built in. -/
def missing (s : State) (m : Mod) (uses : List String) : Option String :=
  uses.find? fun n => ((s.mods m).bind (· n)).isNone && !builtins.contains n

/-- One statement of module `m` (the `i`-th). -/
def execTop (load : Mod → State → Result) (F : Faults) (m : Mod) (isPackage : Bool) (i : Nat) (t : Top) (s : State) : Result :=
  if F.before m i then (s, some (.fault m i))
  else match t with
    | .from level path names =>
      if isInternal (target m isPackage level path) then
        match importFrom load [] (target m isPackage level path) s with
        | (s', some e) => (s', some e)
        | (s', none) => if F.after m i then (s', some (.fault m i)) else takeNames m (target m isPackage level path) names s'
      else (takeExternal m (target m isPackage level path) names s, none)
    | .import x => (s.bind m x ⟨.module x, 0⟩, none)
    | .bind n uses =>
      match missing s m uses with
      | some u => (s, some (.nameError m u))
      | none => ({ (s.bind m n ⟨.own m n, s.next⟩) with next := s.next + 1 }, none)
    | .run uses =>
      match missing s m uses with
      | some u => (s, some (.nameError m u))
      | none => (s, none)

/-- The statements of module `m` from the `i`-th on. -/
def execBody (load : Mod → State → Result) (F : Faults) (m : Mod) (isPackage : Bool) : Nat → List Top → State → Result
  | _, [], s => (s, none)
  | i, t :: ts, s =>
    match execTop load F m isPackage i t s with
    | (s', none) => execBody load F m isPackage (i + 1) ts s'
    | (s', some e) => (s', some e)

/-- `_load_unlocked` for a module that is not in `sys.modules`.  The first argument bounds the nesting of imports. -/
def load (P : Program) (F : Faults) : Nat → Mod → State → Result
  | 0, _, s => (s, some .depth)
  | k + 1, m, s =>
    match P.lookup m with
    | none => (s, some (.notFound m))
    | some t =>
      match execBody (load P F k) F m t.isPackage 0 t.body (s.put m fun _ => none) with
      | (s', some e) => (s'.remove m, some e)
      | (s', none) => ({ (s'.bind m.dropLast (m.getLastD "") ⟨.submodule m, s'.next⟩) with next := s'.next + 1 }, none)

/-- `import m` by a program, where imports may nest as deep as there are files. -/
def attempt (P : Program) (F : Faults) (m : Mod) (s : State) : Result := importFrom (load P F P.length) [] m s

/-- The interpreter after a program tried imports one after the other, ignoring those that fail. -/
def after (P : Program) : List (Mod × Faults) → State
  | [] => .empty
  | (m, F) :: earlier => (attempt P F m (after P earlier)).1

end Bip38.Import
