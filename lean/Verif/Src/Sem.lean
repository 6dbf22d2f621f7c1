import Verif.Model.Bip38
import Verif.Model.Point
import Verif.Model.Base58Any
/-!
# A semantics of the fragment of Python used by the repository

`tools/gen_src.py` translates the text of every function of `/repo/bip38` into a term built from the combinators of this file, one
combinator per syntactic construct; the results are the files `Verif/Src/*.lean` marked as generated.  This file says what the
constructs mean.  It models Python, not the repository, so it cites no line of it.

* A value is a `Val`, an environment of local variables an `Env`.
* A computation (`Run`) returns a value, raises an exception (`Exc`), or is `none`: it does not terminate, or does something
  that this file gives no meaning to.  A theorem that a run is `some ...` therefore shows that neither happens.
* Names are the numbers spelled by their bytes (`v!"name"`).
* Objects are values: the repository never mutates an object that is reachable through two names.  A method that changes its receiver is
  used as a statement only (`sMutate`), an attribute is assigned in constructors only.
* Calls of functions of the repository are resolved when the text is translated (imports, `self`, `cls`); a method call on another
  expression looks at the class of the receiver (`eMethod`).  Subclasses written by users and replaced module globals are not covered.
-/
namespace Bip38.Src

/-- A Python identifier, as the number spelled by its bytes. -/
abbrev Name := Nat

open Lean in
/-- `v!"name"`: the number of an identifier. -/
macro:max "v!" s:str : term => do
  return Syntax.mkNumLit (toString (s.getString.toList.foldl (fun n c => n * 256 + c.toNat) 0))

/-- The classes of the repository that have instances. -/
inductive Cls
  | Point | PublicKey | PrivateKey | BIP38
  /-- exception classes, of the repository and of Python -/
  | exc (c : ExcClass)
  deriving DecidableEq

/-- Types as values. -/
inductive Ty
  | none | bool | int | str | bytes | bytearray | list | tuple | dict | type | other
  | cls (c : Cls)
  deriving DecidableEq

/-- Python values. -/
inductive Val
  | none
  | bool (b : Bool)
  | int (n : Int)
  | str (s : Str)
  | bytes (b : Bytes)
  | bytearray (b : Bytes)
  | list (l : List Val)
  | tuple (l : List Val)
  /-- a dictionary whose keys are texts -/
  | dict (l : List (Str × Val))
  /-- the dictionary of the remaining keyword arguments (`**kwargs`) -/
  | kwargs (l : List (Name × Val))
  /-- an instance of a class of the repository, or an exception, with its attributes -/
  | obj (c : Cls) (fields : List (Name × Val))
  | type (t : Ty)
  /-- a class of `bip38/cryptocurrencies.py`, or what a caller passes instead -/
  | coin (c : CoinArg)
  /-- an object of the module `typing`, with its text -/
  | typing (text : Str)
  /-- a hash object of `hashlib`, with its digest -/
  | hash (digest : Bytes)
  /-- `pyaes.AESModeOfOperationECB` -/
  | aes (a : AES)
  /-- `ecdsa.ellipticcurve.PointJacobi` (affine coordinates, as in `Model/Secp256k1.lean`) -/
  | jacobi (p : Pt)
  /-- `ecdsa.ellipticcurve.Point` -/
  | affine (x y : Nat)
  /-- `ecdsa.VerifyingKey` -/
  | verifyingKey (k : PublicKey)
  /-- `ecdsa.VerifyingKey.pubkey` -/
  | pubkey (k : PublicKey)
  /-- `ecdsa.SigningKey` -/
  | signingKey (k : PrivateKey)
  /-- `ecdsa.ecdsa.curve_secp256k1`, `ecdsa.curves.SECP256k1` -/
  | curve

/-! ### Computations -/

/-- A computation: a value or an exception; `none` if it does not terminate or has no meaning here. -/
def Run (α : Type) := Option (Py α)

/-- A computation of the model. -/
def Run.ofPy {α : Type} (x : Py α) : Run α := some x

/-- No meaning. -/
def Run.stuck {α : Type} : Run α := Option.none

/-- An exception. -/
def Run.raise {α : Type} (c : ExcClass) (msg : String) : Run α := some (.error ⟨c, msg⟩)

/-- Sequencing. -/
def Run.bind {α β : Type} (x : Run α) (f : α → Run β) : Run β :=
  match x with
  | some (.ok a) => f a
  | some (.error e) => some (.error e)
  | Option.none => Option.none

instance : Monad Run where
  pure a := some (.ok a)
  bind := Run.bind

/-- Local variables. -/
abbrev Env := Name → Option Val

/-- `n := v`. -/
def Env.set (env : Env) (n : Name) (v : Val) : Env := fun m => if m = n then some v else env m

/-- No variables. -/
def Env.empty : Env := fun _ => Option.none

/-- An expression. -/
abbrev Expr := Env → Run Val

/-- How a statement ends. -/
inductive Outcome
  | next (env : Env)
  | ret (v : Val)

/-- A statement. -/
abbrev Stmt := Env → Run Outcome

/-- A callable: positional and keyword arguments. -/
abbrev Fn := List Val → List (Name × Val) → Run Val

/-- What the run-time environment supplies: the packages (`Prims`), the random bytes of `os.urandom`, `int(text)`, and whether `ecdsa` is
older than 0.14 (its points have no `to_bytes` and `from_bytes`). -/
structure Host where
  P : Prims
  urandom : Nat → Bytes
  parseInt : Str → Py Int
  oldEcdsa : Bool

/-! ### Values -/

/-- Truth value. -/
def truthy : Val → Bool
  | .none => false
  | .bool b => b
  | .int n => n ≠ 0
  | .str s => !s.isEmpty
  | .bytes b => !b.isEmpty
  | .bytearray b => !b.isEmpty
  | .list l => !l.isEmpty
  | .tuple l => !l.isEmpty
  | .dict l => !l.isEmpty
  | .kwargs l => !l.isEmpty
  | _ => true

/-- `type(v)`. -/
def typeOf : Val → Ty
  | .none => .none
  | .bool _ => .bool
  | .int _ => .int
  | .str _ => .str
  | .bytes _ => .bytes
  | .bytearray _ => .bytearray
  | .list _ => .list
  | .tuple _ => .tuple
  | .dict _ => .dict
  | .kwargs _ => .dict
  | .obj c _ => .cls c
  | .type _ => .type
  | .coin _ => .type
  | _ => .other

/-- The text of a type. -/
def Ty.text : Ty → Run Str
  | .none => pure "<class 'NoneType'>".toList
  | .bool => pure "<class 'bool'>".toList
  | .int => pure "<class 'int'>".toList
  | .str => pure "<class 'str'>".toList
  | .bytes => pure "<class 'bytes'>".toList
  | .bytearray => pure "<class 'bytearray'>".toList
  | .list => pure "<class 'list'>".toList
  | .tuple => pure "<class 'tuple'>".toList
  | .dict => pure "<class 'dict'>".toList
  | .type => pure "<class 'type'>".toList
  | _ => .stuck

/-- `f"{v}"`. -/
def format : Val → Run Str
  | .none => pure "None".toList
  | .bool b => pure (if b then "True".toList else "False".toList)
  | .int n => pure (toString n).toList
  | .str s => pure s
  | .bytes b => pure (bytesRepr b)
  | .type t => t.text
  | .typing s => pure s
  | _ => .stuck

/-- `a == b`, for the kinds of values that the repository compares. -/
def pyEq : Val → Val → Run Bool
  | .int a, .int b => pure (decide (a = b))
  | .str a, .str b => pure (decide (a = b))
  | .bytes a, .bytes b => pure (decide (a = b))
  | .type a, .type b => pure (decide (a = b))
  | .none, .none => pure true
  | .none, .int _ | .none, .str _ | .none, .bytes _ | .int _, .none | .str _, .none | .bytes _, .none => pure false
  | .int _, .str _ | .int _, .bytes _ | .str _, .int _ | .str _, .bytes _ | .bytes _, .int _ | .bytes _, .str _ => pure false
  | .bool _, .str _ | .bytearray _, .str _ | .list _, .str _ | .tuple _, .str _ | .dict _, .str _ | .type _, .str _ | .coin _, .str _ =>
    pure false
  | _, _ => .stuck

/-- `v in [..]`. -/
def memList (v : Val) : List Val → Run Bool
  | [] => pure false
  | w :: ws => do if ← pyEq v w then pure true else memList v ws

/-- `v in w`. -/
def pyIn (v : Val) : Val → Run Bool
  | .list l => memList v l
  | .tuple l => memList v l
  | _ => .stuck

/-- Comparison operators. -/
inductive CmpOp
  | eq | ne | lt | le | gt | ge | isNone | isNotNone | in | notIn

/-- `a op b`.  `is` and `is not` are used with `None` only. -/
def CmpOp.apply : CmpOp → Val → Val → Run Bool
  | .eq, a, b => pyEq a b
  | .ne, a, b => do pure (!(← pyEq a b))
  | .lt, .int a, .int b => pure (decide (a < b))
  | .le, .int a, .int b => pure (decide (a ≤ b))
  | .gt, .int a, .int b => pure (decide (b < a))
  | .ge, .int a, .int b => pure (decide (b ≤ a))
  | .isNone, a, .none => pure (match a with | .none => true | _ => false)
  | .isNotNone, a, .none => pure (match a with | .none => false | _ => true)
  | .in, a, b => pyIn a b
  | .notIn, a, b => do pure (!(← pyIn a b))
  | _, _, _ => .stuck

/-- Arithmetic operators. -/
inductive BinOp
  | add | sub | mul | floordiv | mod | pow | xor | and | or | shl | shr

/-- `a op b` for values that are not instances of classes of the repository. -/
def BinOp.apply : BinOp → Val → Val → Run Val
  | .add, .int a, .int b => pure (.int (a + b))
  | .add, .str a, .str b => pure (.str (a ++ b))
  | .add, .bytes a, .bytes b => pure (.bytes (a ++ b))
  | .add, .list a, .list b => pure (.list (a ++ b))
  | .add, .jacobi a, .jacobi b => pure (.jacobi (a.add b))
  | .sub, .int a, .int b => pure (.int (a - b))
  | .mul, .int a, .int b => pure (.int (a * b))
  | .mul, .str a, .int n => pure (.str (List.replicate n.toNat a).flatten)
  | .mul, .bytes a, .int n => pure (.bytes (List.replicate n.toNat a).flatten)
  | .mul, .jacobi a, .int k => pure (.jacobi (a.zmul k))
  | .floordiv, .int a, .int b =>
    if b = 0 then .raise (.other "ZeroDivisionError") "integer division or modulo by zero" else pure (.int (a.fdiv b))
  | .mod, .int a, .int b =>
    if b = 0 then .raise (.other "ZeroDivisionError") "integer division or modulo by zero" else pure (.int (a.fmod b))
  | .pow, .int a, .int b => if 0 ≤ b then pure (.int (a ^ b.toNat)) else .stuck
  | .xor, .int a, .int b => pure (.int (a.xor b))
  | .and, .int a, .int b => pure (.int (a.land b))
  | .or, .int a, .int b => pure (.int (a.lor b))
  | .shl, .int a, .int b => if 0 ≤ b then pure (.int (a <<< b)) else .raise .valueError "negative shift count"
  | .shr, .int a, .int b => if 0 ≤ b then pure (.int (a >>> b)) else .raise .valueError "negative shift count"
  | _, _, _ => .stuck

/-- An index `i` into a sequence of length `n`, as a natural number. -/
def pyIndex (n : Nat) (i : Int) : Option Nat :=
  if 0 ≤ i then (if i < n then some i.toNat else Option.none)
  else if 0 ≤ i + n then some (i + n).toNat
  else Option.none

/-- `IndexError`. -/
def indexError {α : Type} : Run α := .raise (.other "IndexError") "index out of range"

/-- `d[key]` of a dictionary. -/
def dictGet (l : List (Str × Val)) (key : Str) : Run Val :=
  match l.find? (fun p => p.1 = key) with
  | some p => pure p.2
  | Option.none => .raise .keyError (String.ofList key)

/-- `v[i]`.  A dictionary of the repository has texts as keys, so another object is no key of it. -/
def pySubscript : Val → Val → Run Val
  | .dict l, .str k => dictGet l k
  | .dict _, .none => .raise .keyError "None"
  | .dict _, .bool b => .raise .keyError (if b then "True" else "False")
  | .dict _, .int n => .raise .keyError (toString n)
  | .dict _, .bytes b => .raise .keyError (String.ofList (bytesRepr b))
  | .dict _, .bytearray _ => .raise .typeError "unhashable type: 'bytearray'"
  | .dict _, .list _ => .raise .typeError "unhashable type: 'list'"
  | .dict _, .dict _ => .raise .typeError "unhashable type: 'dict'"
  | .list l, .int i => match (pyIndex l.length i).bind (l[·]?) with | some v => pure v | Option.none => indexError
  | .tuple l, .int i => match (pyIndex l.length i).bind (l[·]?) with | some v => pure v | Option.none => indexError
  | .str s, .int i => match (pyIndex s.length i).bind (s[·]?) with | some c => pure (.str [c]) | Option.none => indexError
  | .bytes b, .int i => match (pyIndex b.length i).bind (b[·]?) with | some c => pure (.int c.toNat) | Option.none => indexError
  | _, _ => .stuck

/-- A slice bound, brought into `0 .. n`. -/
def sliceBound (n : Nat) (default : Nat) : Option Int → Nat
  | Option.none => default
  | some i => if 0 ≤ i then min i.toNat n else (i + n).toNat

/-- `l[lo:hi]`. -/
def pySlice {α : Type} (l : List α) (lo hi : Option Int) : List α :=
  (l.take (sliceBound l.length l.length hi)).drop (sliceBound l.length 0 lo)

/-- `v[lo:hi]`. -/
def sliceVal (v : Val) (lo hi : Option Int) : Run Val :=
  match v with
  | .bytes b => pure (.bytes (pySlice b lo hi))
  | .bytearray b => pure (.bytearray (pySlice b lo hi))
  | .str s => pure (.str (pySlice s lo hi))
  | .list l => pure (.list (pySlice l lo hi))
  | _ => .stuck

/-- `v[::-1]`. -/
def reverseVal : Val → Run Val
  | .bytes b => pure (.bytes b.reverse)
  | .bytearray b => pure (.bytearray b.reverse)
  | .str s => pure (.str s.reverse)
  | .list l => pure (.list l.reverse)
  | .none => .raise .typeError "'NoneType' object is not subscriptable"
  | _ => .stuck

/-- The values that `for` goes through. -/
def iterate : Val → Run (List Val)
  | .bytes b => pure (b.map fun c => .int c.toNat)
  | .bytearray b => pure (b.map fun c => .int c.toNat)
  | .list l => pure l
  | .tuple l => pure l
  | _ => .stuck

/-- An attribute in a list of attributes. -/
def getField (fields : List (Name × Val)) (n : Name) : Option Val :=
  match fields with
  | [] => Option.none
  | (m, v) :: rest => if m = n then some v else getField rest n

/-- Assign an attribute. -/
def setField (fields : List (Name × Val)) (n : Name) (v : Val) : List (Name × Val) :=
  match fields with
  | [] => [(n, v)]
  | (m, w) :: rest => if m = n then (n, v) :: rest else (m, w) :: setField rest n v

/-- One entry of the dictionary `NETWORKS` of a cryptocurrency, as a Python dictionary. -/
def netVal (n : Net) : Val :=
  .dict [("wif_prefix".toList, .int n.wifPrefix), ("address_prefix".toList, .int n.addressPrefix)]

/-- The dictionary `NETWORKS` of a cryptocurrency. -/
def networksVal (c : Coin) : Val := .dict (c.networks.map fun p => (p.1.toList, netVal p.2))

/-- The attribute `ALPHABET` of a cryptocurrency. -/
def alphabetVal (c : Coin) : Val := match c.alphabet with | some a => .str a | Option.none => .none

/-- `v.n`. -/
def pyAttr (v : Val) (n : Name) : Run Val :=
  match v with
  | .obj _ fields => match getField fields n with
    | some w => pure w
    | Option.none => .raise .attributeError "object has no such attribute"
  | .coin (.coin c) => if n = v!"NETWORKS" then pure (networksVal c) else if n = v!"ALPHABET" then pure (alphabetVal c) else .stuck
  | .coin .base =>
    if n = v!"NETWORKS" then .raise .attributeError "type object 'ICryptocurrency' has no attribute 'NETWORKS'"
    else if n = v!"ALPHABET" then pure .none else .stuck
  | .verifyingKey k => if n = v!"pubkey" then pure (.pubkey k) else .stuck
  | .pubkey k => if n = v!"point" then pure (.jacobi k.point) else .stuck
  | _ => .stuck

/-! ### Expressions -/

/-- A constant. -/
def eConst (v : Val) : Expr := fun _ => pure v
/-- A global (constant of a module). -/
def eGlobal (r : Run Val) : Expr := fun _ => r
/-- A local variable. -/
def eName (n : Name) : Expr := fun env => match env n with | some v => pure v | Option.none => .stuck
/-- `e.n` -/
def eAttr (e : Expr) (n : Name) : Expr := fun env => do pyAttr (← e env) n
/-- `e[i]` -/
def eIndex (e i : Expr) : Expr := fun env => do
  let v ← e env
  let w ← i env
  pySubscript v w

/-- A bound of a slice; an omitted bound is `none`. -/
def evalBound (e : Option Expr) (env : Env) : Run (Option Int) :=
  match e with
  | Option.none => pure Option.none
  | some e => do
    match ← e env with
    | .int i => pure (some i)
    | .none => pure Option.none
    | _ => .stuck

/-- `e[lo:hi]` -/
def eSlice (e : Expr) (lo hi : Option Expr) : Expr := fun env => do
  let v ← e env
  let lo ← evalBound lo env
  let hi ← evalBound hi env
  sliceVal v lo hi

/-- `e[::-1]` -/
def eReverse (e : Expr) : Expr := fun env => do reverseVal (← e env)

/-- Evaluate expressions from left to right. -/
def evalList : List Expr → Env → Run (List Val)
  | [], _ => pure []
  | e :: es, env => do
    let v ← e env
    let vs ← evalList es env
    pure (v :: vs)

/-- Evaluate keyword arguments from left to right. -/
def evalKw {κ : Type} : List (κ × Expr) → Env → Run (List (κ × Val))
  | [], _ => pure []
  | (n, e) :: es, env => do
    let v ← e env
    let vs ← evalKw es env
    pure ((n, v) :: vs)

/-- `[..]` -/
def eList (es : List Expr) : Expr := fun env => do pure (.list (← evalList es env))
/-- `(..)` -/
def eTuple (es : List Expr) : Expr := fun env => do pure (.tuple (← evalList es env))
/-- `{"key": ..}` and `dict(key=..)` -/
def eDict (es : List (String × Expr)) : Expr := fun env => do
  pure (.dict ((← evalKw es env).map fun p => (p.1.toList, p.2)))

/-- `f(..)` -/
def eCall (f : Fn) (args : List Expr) (kw : List (Name × Expr)) : Expr := fun env => do
  let a ← evalList args env
  let k ← evalKw kw env
  f a k

/-- `e.m(..)`: the method of the class of the value of `e` if that is a class of the repository (`table`), else the method of the built-in
or external class (`builtin`). -/
def eMethod (table : List (Cls × Fn)) (builtin : Val → Fn) (e : Expr) (args : List Expr) (kw : List (Name × Expr)) : Expr :=
  fun env => do
    let v ← e env
    let a ← evalList args env
    let k ← evalKw kw env
    match v with
    | .obj c _ => match table.find? (fun p => p.1 = c) with
      | some p => p.2 (v :: a) k
      | Option.none => .stuck
    | _ => builtin v a k

/-- `a op b`; `table` and `rtable` are the methods `__add__`, `__radd__` (`__mul__`, `__rmul__`) of the classes of the repository. -/
def eBin (table rtable : List (Cls × Fn)) (op : BinOp) (a b : Expr) : Expr := fun env => do
  let v ← a env
  let w ← b env
  match v, w with
  | .obj c _, _ => match table.find? (fun p => p.1 = c) with
    | some p => p.2 [v, w] []
    | Option.none => .stuck
  | _, .obj c _ => match rtable.find? (fun p => p.1 = c) with
    | some p => p.2 [w, v] []
    | Option.none => .stuck
  | _, _ => op.apply v w

/-- `not e` -/
def eNot (e : Expr) : Expr := fun env => do pure (.bool (!truthy (← e env)))
/-- `-e` -/
def eNeg (e : Expr) : Expr := fun env => do
  match ← e env with
  | .int n => pure (.int (-n))
  | _ => .stuck
/-- `~e` -/
def eInvert (e : Expr) : Expr := fun env => do
  match ← e env with
  | .int n => pure (.int n.lnot)
  | _ => .stuck
/-- `a and b` -/
def eAnd (a b : Expr) : Expr := fun env => do
  let v ← a env
  if truthy v then b env else pure v
/-- `a or b` -/
def eOr (a b : Expr) : Expr := fun env => do
  let v ← a env
  if truthy v then pure v else b env
/-- `a if c else b` -/
def eIf (c a b : Expr) : Expr := fun env => do
  let v ← c env
  if truthy v then a env else b env

/-- The rest of a chain of comparisons. -/
def compareRest (v : Val) : List (CmpOp × Expr) → Env → Run Bool
  | [], _ => pure true
  | (op, e) :: rest, env => do
    let w ← e env
    if ← op.apply v w then compareRest w rest env else pure false

/-- `a op b op c ...` -/
def eCompare (e : Expr) (rest : List (CmpOp × Expr)) : Expr := fun env => do
  let v ← e env
  pure (.bool (← compareRest v rest env))

/-- A part of an f-string. -/
inductive Part
  | lit (s : String)
  | val (e : Expr)

/-- The text of an f-string. -/
def formatParts : List Part → Env → Run Str
  | [], _ => pure []
  | .lit s :: rest, env => do
    let t ← formatParts rest env
    pure (s.toList ++ t)
  | .val e :: rest, env => do
    let v ← e env
    let s ← format v
    let t ← formatParts rest env
    pure (s ++ t)

/-- `f"..."` -/
def eFormat (parts : List Part) : Expr := fun env => do pure (.str (← formatParts parts env))

/-- The values of an expression for the values of a variable. -/
def forEach (n : Name) (e : Expr) (env : Env) : List Val → Run (List Val)
  | [] => pure []
  | v :: vs => do
    let w ← e (env.set n v)
    let ws ← forEach n e env vs
    pure (w :: ws)

/-- `[e for n in i]` and the generator `(e for n in i)` that is consumed at once. -/
def eComprehension (e : Expr) (n : Name) (i : Expr) : Expr := fun env => do
  let vs ← iterate (← i env)
  pure (.list (← forEach n e env vs))

/-- `f(*e)` -/
def eCallStar (f : Fn) (e : Expr) : Expr := fun env => do
  let vs ← iterate (← e env)
  f vs []

/-- `kwargs.get("name", default)` of the dictionary of remaining keyword arguments. -/
def eKwargsGet (e : Expr) (n : Name) (default : Expr) : Expr := fun env => do
  let v ← e env
  let d ← default env
  match v with
  | .kwargs l => pure ((getField l n).getD d)
  | _ => .stuck

/-! ### Statements -/

/-- What an assignment assigns. -/
inductive Target
  | name (n : Name)
  /-- attribute of a local variable -/
  | attr (n : Name) (field : Name)

/-- Assign a value. -/
def Target.assign : Target → Val → Env → Run Env
  | .name n, v, env => pure (env.set n v)
  | .attr n f, v, env => match env n with
    | some (.obj c fields) => pure (env.set n (.obj c (setField fields f v)))
    | _ => .stuck

/-- Assign values from left to right. -/
def assignAll : List Target → List Val → Env → Run Env
  | [], [], env => pure env
  | t :: ts, v :: vs, env => do assignAll ts vs (← t.assign v env)
  | _, _, _ => .raise .valueError "wrong number of values to unpack"

/-- `t = e` -/
def sAssign (t : Target) (e : Expr) : Stmt := fun env => do pure (.next (← t.assign (← e env) env))
/-- `t1, t2 = e` -/
def sUnpack (ts : List Target) (e : Expr) : Stmt := fun env => do
  let vs ← iterate (← e env)
  pure (.next (← assignAll ts vs env))
/-- `e` -/
def sExpr (e : Expr) : Stmt := fun env => do
  let _ ← e env
  pure (.next env)
/-- `n.m(..)` for a method that changes its receiver, a local variable; `m` gives the new value. -/
def sMutate (n : Name) (m : Val → List Val → Run Val) (args : List Expr) : Stmt := fun env => do
  let a ← evalList args env
  match env n with
  | some v => pure (.next (env.set n (← m v a)))
  | Option.none => .stuck
/-- `pass` -/
def sPass : Stmt := fun env => pure (.next env)
/-- `return e` -/
def sReturn (e : Expr) : Stmt := fun env => do pure (.ret (← e env))
/-- `assert e` -/
def sAssert (e : Expr) : Stmt := fun env => do
  if truthy (← e env) then pure (.next env) else .raise .assertionError ""

/-- Statements in sequence. -/
def block : List Stmt → Stmt
  | [], env => pure (.next env)
  | s :: ss, env => do
    match ← s env with
    | .next env => block ss env
    | .ret v => pure (.ret v)

/-- `if c: .. else: ..` -/
def sIf (c : Expr) (a b : List Stmt) : Stmt := fun env => do
  if truthy (← c env) then block a env else block b env

/-- The exception of a `raise` statement; `str` is the method `__str__` of the classes of the repository.  The text of an exception of
Python is its argument. -/
def raiseVal (str : Fn) (v : Val) : Run Outcome :=
  match v with
  | .obj (.exc c) fields =>
    if c.isBip38Error then do
      match ← str [v] [] with
      | .str s => .raise c (String.ofList s)
      | _ => .stuck
    else match getField fields v!"message" with
      | some (.str s) => .raise c (String.ofList s)
      | _ => .stuck
  | _ => .stuck

/-- `raise e` and `raise e from cause` -/
def sRaise (str : Fn) (e : Expr) : Stmt := fun env => do raiseVal str (← e env)

/-- What an `except` clause catches. -/
inductive Catch
  | valueError | typeError | attributeError
  /-- a class of `bip38/exceptions.py` without subclasses -/
  | only (c : ExcClass)
  | malformedPoint

/-- `isinstance(e, cls)` for the class of an `except` clause (`UnicodeEncodeError` is a `ValueError`). -/
def Catch.matches : Catch → ExcClass → Bool
  | .valueError, c => c.isValueError
  | .typeError, c => c = .typeError
  | .attributeError, c => c = .attributeError
  | .only d, c => c = d
  | .malformedPoint, c => c = .other "MalformedPointError"

/-- Forget the values of variables. -/
def Env.forget (env : Env) (ns : List Name) : Env := fun m => if m ∈ ns then Option.none else env m

/-- The handler that runs for an exception. -/
def handle (e : Exc) : List (List Catch × List Stmt) → Stmt
  | [], _ => some (.error e)
  | (cs, body) :: rest, env => if cs.any (·.matches e.cls) then block body env else handle e rest env

/-- `try: body except ..: ..`.  `assigned` are the variables that the body assigns; whether they have a value in the handler depends on
where the exception was raised, so a handler that reads them has no meaning here. -/
def sTry (assigned : List Name) (body : List Stmt) (handlers : List (List Catch × List Stmt)) : Stmt := fun env =>
  match block body env with
  | some (.error e) => handle e handlers (env.forget assigned)
  | r => r

/-- The iterations of a `for` loop. -/
def forLoop (ts : List Target) (unpack : Bool) (body : List Stmt) : List Val → Stmt
  | [], env => pure (.next env)
  | v :: vs, env => do
    let items ← if unpack then iterate v else pure [v]
    match ← block body (← assignAll ts items env) with
    | .next env => forLoop ts unpack body vs env
    | .ret w => pure (.ret w)

/-- `for t in e: body` -/
def sFor (t : Name) (e : Expr) (body : List Stmt) : Stmt := fun env => do
  forLoop [.name t] false body (← iterate (← e env)) env
/-- `for (t1, t2) in e: body` -/
def sForUnpack (ts : List Name) (e : Expr) (body : List Stmt) : Stmt := fun env => do
  forLoop (ts.map .name) true body (← iterate (← e env)) env

/-- `while c: body` -/
def sWhile (c : Expr) (body : List Stmt) (env : Env) : Option (Py Outcome) := do
  match ← (c env : Option (Py Val)) with
  | .error e => some (.error e)
  | .ok v =>
    if truthy v then
      match ← (block body env : Option (Py Outcome)) with
      | .error e => some (.error e)
      | .ok (.ret w) => some (.ok (.ret w))
      | .ok (.next env) => sWhile c body env
    else some (.ok (.next env))
partial_fixpoint

/-! ### Functions -/

/-- A parameter, with its default value. -/
structure Param where
  name : Name
  default : Option (Run Val) := Option.none

/-- Remove a keyword argument. -/
def eraseKw (kw : List (Name × Val)) (n : Name) : List (Name × Val) :=
  match kw with
  | [] => []
  | (m, v) :: rest => if m = n then rest else (m, v) :: eraseKw rest n

/-- Bind arguments to parameters.  `rest` is the name of the `**kwargs` parameter. -/
def bindParams (rest : Option Name) : List Param → List Val → List (Name × Val) → Env → Run Env
  | [], [], kw, env => match rest, kw with
    | some n, kw => pure (env.set n (.kwargs kw))
    | Option.none, [] => pure env
    | Option.none, _ :: _ => .raise .typeError "unexpected keyword argument"
  | [], _ :: _, _, _ => .raise .typeError "too many positional arguments"
  | p :: ps, a :: as, kw, env => match getField kw p.name with
    | some _ => .raise .typeError "multiple values for argument"
    | Option.none => bindParams rest ps as kw (env.set p.name a)
  | p :: ps, [], kw, env => match getField kw p.name with
    | some v => bindParams rest ps [] (eraseKw kw p.name) (env.set p.name v)
    | Option.none => match p.default with
      | some d => do bindParams rest ps [] kw (env.set p.name (← d))
      | Option.none => .raise .typeError "missing argument"

/-- `def f(..): body` -/
def defun (params : List Param) (rest : Option Name) (body : List Stmt) : Fn := fun args kw => do
  let env ← bindParams rest params args kw .empty
  match ← block body env with
  | .ret v => pure v
  | .next _ => pure .none

/-- The constructor of a class with `def __init__(self, ..): body`. -/
def defclass (c : Cls) (params : List Param) (body : List Stmt) : Fn := fun args kw => do
  let env ← bindParams Option.none params args kw (Env.empty.set v!"self" (.obj c []))
  match ← block body env with
  | .next env => match env v!"self" with
    | some v => pure v
    | Option.none => .stuck
  | .ret _ => .stuck

end Bip38.Src
