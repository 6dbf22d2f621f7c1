import Verif.Src.Builtin
/-!
# The same fragment of Python, with the calls of external functions as events

`Verif/Src/Sem.lean` gives the result of a text, with the external functions (`hashlib`, `scrypt`, `pyaes`, `unicodedata`, `os`, `ecdsa`) as
total functions.  Here the same constructs are given a meaning in which every call of an external function is an event: a run has the list of
the calls made so far, and at any call the external function may raise an exception of any kind (a lack of memory, an interruption, an
algorithm that is not supported, ...).  Which call raises what is arbitrary (`Faults`); a call that does not raise returns what it returns in
`Verif/Src/Builtin.lean`.

`tools/gen_sim.py` writes the text of the repository a second time, with the constructs of this file (`Verif/SrcX/*.lean`).

Simplification: the built-in functions of Python and `struct` raise what they raise in `Verif/Src`, and nothing else; the attribute
`hashlib.algorithms_available`, the attributes `pubkey` and `point` of the objects of `ecdsa`, and the operators `+` and `*` on its points are
no calls.
-/
namespace Bip38.SrcX

open Bip38.Src

/-- The external functions. -/
inductive Kind
  /-- `os.urandom` -/
  | urandom
  /-- `hashlib.sha256` -/
  | sha256
  /-- `hashlib.new` -/
  | hashNew
  /-- `.digest()` of a hash object -/
  | digest
  /-- `unicodedata.normalize` -/
  | normalize
  /-- `scrypt.hash` -/
  | scrypt
  /-- `pyaes.AESModeOfOperationECB` -/
  | aes
  /-- `.encrypt` of that -/
  | aesEncrypt
  /-- `.decrypt` of that -/
  | aesDecrypt
  /-- any function or method of `ecdsa` -/
  | ecdsa
  deriving DecidableEq

/-- A call of an external function: positional (the receiver of a method first) and keyword arguments. -/
structure Call where
  kind : Kind
  args : List Val
  kw : List (Name × Val)

/-- What goes wrong: the exception raised by the call at a position (0 for the first), if any. -/
abbrev Faults := Nat → Call → Option Exc

/-- A computation: from the faults and the calls made so far to the outcome and the calls made then; `none` as in `Src.Run`. -/
def Run (α : Type) := Faults → List Call → Option (Py α × List Call)

/-- A computation without calls of external functions. -/
def lift {α : Type} (r : Src.Run α) : Run α := fun _ log => match r with
  | some x => some (x, log)
  | none => none

/-- A call of an external function: it is recorded, and raises what the faults say or gives its result. -/
def ask {α : Type} (c : Call) (result : Src.Run α) : Run α := fun F log =>
  match F log.length c with
  | some e => some (.error e, log ++ [c])
  | none => lift result F (log ++ [c])

/-- No meaning. -/
def Run.stuck {α : Type} : Run α := fun _ _ => none

/-- An exception. -/
def Run.raise {α : Type} (c : ExcClass) (msg : String) : Run α := fun _ log => some (.error ⟨c, msg⟩, log)

/-- Sequencing: an exception ends the run. -/
def Run.bind {α β : Type} (x : Run α) (f : α → Run β) : Run β := fun F log =>
  match x F log with
  | some (.ok a, log') => f a F log'
  | some (.error e, log') => some (.error e, log')
  | none => none

instance : Monad Run where
  pure a := fun _ log => some (.ok a, log)
  bind := Run.bind

/-- An expression. -/
abbrev Expr := Env → Run Val

/-- A statement. -/
abbrev Stmt := Env → Run Outcome

/-- A callable: positional and keyword arguments. -/
abbrev Fn := List Val → List (Name × Val) → Run Val

/-! ### Expressions -/

/-- A constant. -/
def eConst (v : Val) : Expr := fun _ => pure v
/-- A global (constant of a module). -/
def eGlobal (r : Run Val) : Expr := fun _ => r
/-- A local variable. -/
def eName (n : Name) : Expr := fun env => match env n with | some v => pure v | Option.none => .stuck
/-- `e.n` -/
def eAttr (e : Expr) (n : Name) : Expr := fun env => do lift (pyAttr (← e env) n)
/-- `e[i]` -/
def eIndex (e i : Expr) : Expr := fun env => do
  let v ← e env
  let w ← i env
  lift (pySubscript v w)

/-- The value of a bound of a slice. -/
def boundOf : Val → Src.Run (Option Int)
  | .int i => pure (some i)
  | .none => pure Option.none
  | _ => .stuck

/-- A bound of a slice; an omitted bound is `none`. -/
def evalBound (e : Option Expr) (env : Env) : Run (Option Int) :=
  match e with
  | Option.none => pure Option.none
  | some e => do lift (boundOf (← e env))

/-- `e[lo:hi]` -/
def eSlice (e : Expr) (lo hi : Option Expr) : Expr := fun env => do
  let v ← e env
  let lo ← evalBound lo env
  let hi ← evalBound hi env
  lift (sliceVal v lo hi)

/-- `e[::-1]` -/
def eReverse (e : Expr) : Expr := fun env => do lift (reverseVal (← e env))

/-- Evaluate expressions from left to right. -/
def evalList : List Expr → Env → Run (List Val)
  | [], _ => pure []
  | e :: es, env => do
    let v ← e env
    let vs ← evalList es env
    pure (v :: vs)

/-- Evaluate keyword arguments from left to right. -/
def evalKw {κ : Type} : List (κ × Expr) → Env → Run (List (κ × Val))
  | [], _ => pure []
  | (n, e) :: es, env => do
    let v ← e env
    let vs ← evalKw es env
    pure ((n, v) :: vs)

/-- `[..]` -/
def eList (es : List Expr) : Expr := fun env => do pure (.list (← evalList es env))
/-- `(..)` -/
def eTuple (es : List Expr) : Expr := fun env => do pure (.tuple (← evalList es env))
/-- `{"key": ..}` and `dict(key=..)` -/
def eDict (es : List (String × Expr)) : Expr := fun env => do
  pure (.dict ((← evalKw es env).map fun p => (p.1.toList, p.2)))

/-- `f(..)` -/
def eCall (f : Fn) (args : List Expr) (kw : List (Name × Expr)) : Expr := fun env => do
  let a ← evalList args env
  let k ← evalKw kw env
  f a k

/-- The method of a class of the repository. -/
def method (table : List (Cls × Fn)) (c : Cls) : Fn :=
  match table with
  | [] => fun _ _ => .stuck
  | p :: rest => if p.1 = c then p.2 else method rest c

/-- `e.m(..)`: the method of the class of the value of `e` if that is a class of the repository (`table`), else the method of the built-in
or external class (`builtin`). -/
def eMethod (table : List (Cls × Fn)) (builtin : Val → Fn) (e : Expr) (args : List Expr) (kw : List (Name × Expr)) : Expr :=
  fun env => do
    let v ← e env
    let a ← evalList args env
    let k ← evalKw kw env
    match v with
    | .obj c _ => method table c (v :: a) k
    | _ => builtin v a k

/-- `a op b`; `table` and `rtable` are the methods `__add__`, `__radd__` (`__mul__`, `__rmul__`) of the classes of the repository. -/
def eBin (table rtable : List (Cls × Fn)) (op : BinOp) (a b : Expr) : Expr := fun env => do
  let v ← a env
  let w ← b env
  match v, w with
  | .obj c _, _ => method table c [v, w] []
  | _, .obj c _ => method rtable c [w, v] []
  | _, _ => lift (op.apply v w)

/-- `not e` -/
def eNot (e : Expr) : Expr := fun env => do pure (.bool (!truthy (← e env)))
/-- The value of `-e`. -/
def negOf : Val → Src.Run Val
  | .int n => pure (.int (-n))
  | _ => .stuck
/-- `-e` -/
def eNeg (e : Expr) : Expr := fun env => do lift (negOf (← e env))
/-- The value of `~e`. -/
def invertOf : Val → Src.Run Val
  | .int n => pure (.int n.lnot)
  | _ => .stuck
/-- `~e` -/
def eInvert (e : Expr) : Expr := fun env => do lift (invertOf (← e env))
/-- `a and b` -/
def eAnd (a b : Expr) : Expr := fun env => do
  let v ← a env
  if truthy v then b env else pure v
/-- `a or b` -/
def eOr (a b : Expr) : Expr := fun env => do
  let v ← a env
  if truthy v then pure v else b env
/-- `a if c else b` -/
def eIf (c a b : Expr) : Expr := fun env => do
  let v ← c env
  if truthy v then a env else b env

/-- The rest of a chain of comparisons. -/
def compareRest (v : Val) : List (CmpOp × Expr) → Env → Run Bool
  | [], _ => pure true
  | (op, e) :: rest, env => do
    let w ← e env
    let b ← lift (op.apply v w)
    if b then compareRest w rest env else pure false

/-- `a op b op c ...` -/
def eCompare (e : Expr) (rest : List (CmpOp × Expr)) : Expr := fun env => do
  let v ← e env
  pure (.bool (← compareRest v rest env))

/-- A part of an f-string. -/
inductive Part
  | lit (s : String)
  | val (e : Expr)

/-- The text of an f-string. -/
def formatParts : List Part → Env → Run Str
  | [], _ => pure []
  | .lit s :: rest, env => do
    let t ← formatParts rest env
    pure (s.toList ++ t)
  | .val e :: rest, env => do
    let v ← e env
    let s ← lift (format v)
    let t ← formatParts rest env
    pure (s ++ t)

/-- `f"..."` -/
def eFormat (parts : List Part) : Expr := fun env => do pure (.str (← formatParts parts env))

/-- The values of an expression for the values of a variable. -/
def forEach (n : Name) (e : Expr) (env : Env) : List Val → Run (List Val)
  | [] => pure []
  | v :: vs => do
    let w ← e (env.set n v)
    let ws ← forEach n e env vs
    pure (w :: ws)

/-- `[e for n in i]` and the generator `(e for n in i)` that is consumed at once. -/
def eComprehension (e : Expr) (n : Name) (i : Expr) : Expr := fun env => do
  let vs ← lift (iterate (← i env))
  pure (.list (← forEach n e env vs))

/-- `f(*e)` -/
def eCallStar (f : Fn) (e : Expr) : Expr := fun env => do
  let vs ← lift (iterate (← e env))
  f vs []

/-- The value of `kwargs.get("name", default)`. -/
def kwargsGet (n : Name) (d : Val) : Val → Src.Run Val
  | .kwargs l => pure ((getField l n).getD d)
  | _ => .stuck

/-- `kwargs.get("name", default)` of the dictionary of remaining keyword arguments. -/
def eKwargsGet (e : Expr) (n : Name) (default : Expr) : Expr := fun env => do
  let v ← e env
  let d ← default env
  lift (kwargsGet n d v)

/-! ### Statements -/

/-- `t = e` -/
def sAssign (t : Target) (e : Expr) : Stmt := fun env => do pure (.next (← lift (t.assign (← e env) env)))
/-- `t1, t2 = e` -/
def sUnpack (ts : List Target) (e : Expr) : Stmt := fun env => do
  let vs ← lift (iterate (← e env))
  pure (.next (← lift (assignAll ts vs env)))
/-- `e` -/
def sExpr (e : Expr) : Stmt := fun env => do
  let _ ← e env
  pure (.next env)
/-- `n.m(..)` for a method that changes its receiver, a local variable; `m` gives the new value. -/
def sMutate (n : Name) (m : Val → List Val → Src.Run Val) (args : List Expr) : Stmt := fun env => do
  let a ← evalList args env
  match env n with
  | some v => pure (.next (env.set n (← lift (m v a))))
  | Option.none => .stuck
/-- `pass` -/
def sPass : Stmt := fun env => pure (.next env)
/-- `return e` -/
def sReturn (e : Expr) : Stmt := fun env => do pure (.ret (← e env))
/-- `assert e` -/
def sAssert (e : Expr) : Stmt := fun env => do
  if truthy (← e env) then pure (.next env) else .raise .assertionError ""

/-- Statements in sequence. -/
def block : List Stmt → Stmt
  | [], env => pure (.next env)
  | s :: ss, env => do
    match ← s env with
    | .next env => block ss env
    | .ret v => pure (.ret v)

/-- `if c: .. else: ..` -/
def sIf (c : Expr) (a b : List Stmt) : Stmt := fun env => do
  if truthy (← c env) then block a env else block b env

/-- Raise with the text of an exception of the repository. -/
def raiseText (c : ExcClass) : Val → Src.Run Outcome
  | .str s => .raise c (String.ofList s)
  | _ => .stuck

/-- The exception of a `raise` statement; `str` is the method `__str__` of the classes of the repository.  The text of an exception of
Python is its argument. -/
def raiseVal (str : Fn) (v : Val) : Run Outcome :=
  match v with
  | .obj (.exc c) fields =>
    if c.isBip38Error then do lift (raiseText c (← str [v] []))
    else match getField fields v!"message" with
      | some (.str s) => .raise c (String.ofList s)
      | _ => .stuck
  | _ => .stuck

/-- `raise e` and `raise e from cause` -/
def sRaise (str : Fn) (e : Expr) : Stmt := fun env => do raiseVal str (← e env)

/-- The handler that runs for an exception. -/
def handle (e : Exc) : List (List Catch × List Stmt) → Stmt
  | [], _ => fun _ log => some (.error e, log)
  | (cs, body) :: rest, env => if cs.any (·.matches e.cls) then block body env else handle e rest env

/-- `try: body except ..: ..` (see `Src.sTry`).  Exceptions of external functions are caught like others. -/
def sTry (assigned : List Name) (body : List Stmt) (handlers : List (List Catch × List Stmt)) : Stmt := fun env F log =>
  match block body env F log with
  | some (.error e, log') => handle e handlers (env.forget assigned) F log'
  | r => r

/-- The iterations of a `for` loop. -/
def forLoop (ts : List Target) (unpack : Bool) (body : List Stmt) : List Val → Stmt
  | [], env => pure (.next env)
  | v :: vs, env => do
    let items ← lift (if unpack then iterate v else pure [v])
    match ← block body (← lift (assignAll ts items env)) with
    | .next env => forLoop ts unpack body vs env
    | .ret w => pure (.ret w)

/-- `for t in e: body` -/
def sFor (t : Name) (e : Expr) (body : List Stmt) : Stmt := fun env => do
  forLoop [.name t] false body (← lift (iterate (← e env))) env
/-- `for (t1, t2) in e: body` -/
def sForUnpack (ts : List Name) (e : Expr) (body : List Stmt) : Stmt := fun env => do
  forLoop (ts.map .name) true body (← lift (iterate (← e env))) env

/-- `while c: body` -/
def sWhile (c : Expr) (body : List Stmt) (env : Env) (F : Faults) (log : List Call) : Option (Py Outcome × List Call) := do
  match ← c env F log with
  | (.error e, log) => some (.error e, log)
  | (.ok v, log) =>
    if truthy v then
      match ← block body env F log with
      | (.error e, log) => some (.error e, log)
      | (.ok (.ret w), log) => some (.ok (.ret w), log)
      | (.ok (.next env), log) => sWhile c body env F log
    else some (.ok (.next env), log)
partial_fixpoint

/-! ### Functions -/

/-- A parameter, with its default value. -/
structure Param where
  name : Name
  default : Option (Run Val) := Option.none

/-- Bind arguments to parameters.  `rest` is the name of the `**kwargs` parameter. -/
def bindParams (rest : Option Name) : List Param → List Val → List (Name × Val) → Env → Run Env
  | [], [], kw, env => match rest, kw with
    | some n, kw => pure (env.set n (.kwargs kw))
    | Option.none, [] => pure env
    | Option.none, _ :: _ => .raise .typeError "unexpected keyword argument"
  | [], _ :: _, _, _ => .raise .typeError "too many positional arguments"
  | p :: ps, a :: as, kw, env => match getField kw p.name with
    | some _ => .raise .typeError "multiple values for argument"
    | Option.none => bindParams rest ps as kw (env.set p.name a)
  | p :: ps, [], kw, env => match getField kw p.name with
    | some v => bindParams rest ps [] (eraseKw kw p.name) (env.set p.name v)
    | Option.none => match p.default with
      | some d => do bindParams rest ps [] kw (env.set p.name (← d))
      | Option.none => .raise .typeError "missing argument"

/-- What a function returns. -/
def returned : Outcome → Val
  | .ret v => v
  | .next _ => .none

/-- `def f(..): body` -/
def defun (params : List Param) (rest : Option Name) (body : List Stmt) : Fn := fun args kw => do
  let env ← bindParams rest params args kw .empty
  pure (returned (← block body env))

/-- The object that a constructor returns. -/
def constructed : Outcome → Src.Run Val
  | .next env => match env v!"self" with
    | some v => pure v
    | Option.none => .stuck
  | .ret _ => .stuck

/-- The constructor of a class with `def __init__(self, ..): body`. -/
def defclass (c : Cls) (params : List Param) (body : List Stmt) : Fn := fun args kw => do
  let env ← bindParams Option.none params args kw (Env.empty.set v!"self" (.obj c []))
  lift (constructed (← block body env))

end Bip38.SrcX
