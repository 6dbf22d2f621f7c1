import Verif.Py.Syntax
import Verif.SrcX.Builtin
/-!
# What a module of Python means, with the calls of external functions as events

`Verif/Py/Meaning.lean` with the constructs of `Verif/SrcX/Sem.lean` in place of those of `Verif/Src/Sem.lean`, otherwise word for word (written by
`tools/gen_text.py`).
-/
set_option linter.style.longLine false
namespace Bip38.SrcX.Text
open Bip38.Src Bip38.Py

/-! ### What a name stands for -/

/-- Members of a class. -/
inductive Mem
  /-- the class called, by its `__init__` -/
  | ctor (f : Fn)
  | method (f : Fn)
  /-- class method or static method -/
  | fn (f : Fn)
  | attr (r : Run Val)

inductive Ent
  /-- a name of a library, by its dotted name, or a built-in -/
  | ext (path : Nat)
  | fn (f : Fn)
  | value (e : Expr)
  | cls (c : Option Cls) (members : List (Nat × Mem))
  /-- an exception class, with `__init__` for each class and `__str__` -/
  | exc (c : ExcClass) (init : ExcClass → Fn) (str : Fn)

abbrev Scope := List (Nat × Ent)

def find? {α : Type} (n : Nat) : List (Nat × α) → Option α
  | [] => none
  | (m, x) :: l => if Nat.beq m n then some x else find? n l

/-- The standard library, the built-ins and the dependencies. -/
structure Library where
  fns : List (Nat × Fn)
  vals : List (Nat × Expr)
  methods : List (Nat × (Val → Fn))
  /-- methods that change their receiver -/
  mutators : List (Nat × (Val → List Val → Src.Run Val))
  catches : List (Nat × Catch)

def library (H : Host) : Library where
  fns := [(v!"hashlib.sha256", xSha256 H), (v!"hashlib.new", xHashNew H), (v!"scrypt.hash", xScrypt H), (v!"unicodedata.normalize", xNormalize H),
    (v!"os.urandom", xUrandom H), (v!"pyaes.AESModeOfOperationECB", xAes), (v!"ecdsa.SigningKey.from_string", xSigningFromString),
    (v!"ecdsa.VerifyingKey.from_string", xVerifyingFromString), (v!"ecdsa.VerifyingKey.from_public_point", xVerifyingFromPoint),
    (v!"ecdsa.ellipticcurve.Point", xPoint), (v!"ecdsa.ellipticcurve.PointJacobi.from_bytes", xPointFromBytes H),
    (v!"ecdsa.ellipticcurve.PointJacobi.from_affine", xFromAffine), (v!"struct.pack", xPack), (v!"struct.unpack", xUnpack),
    (v!"len", pyLen), (v!"isinstance", pyIsinstance), (v!"issubclass", pyIssubclass), (v!"type", pyType), (v!"int", SrcX.pyInt H), (v!"list", pyList),
    (v!"range", pyRange), (v!"enumerate", pyEnumerate), (v!"divmod", pyDivmod), (v!"bytes", pyBytes), (v!"bytearray", pyBytearray),
    (v!"bytes.fromhex", pyFromhex), (v!"int.from_bytes", pyFromBytes), (v!"ValueError", pyException .valueError), (v!"TypeError", pyException .typeError)]
  vals := [(v!"hashlib.algorithms_available", eGlobal (xAlgorithms H)), (v!"six.binary_type", eConst (.type .bytes)),
    (v!"six.string_types", eConst (.tuple [.type .str])), (v!"ecdsa.ecdsa.curve_secp256k1", eConst .curve), (v!"ecdsa.curves.SECP256k1", eConst .curve),
    (v!"bytes", eConst (.type .bytes)), (v!"str", eConst (.type .str)), (v!"list", eConst (.type .list))]
  methods := [(v!"hex", mHex), (v!"bit_length", mBitLength), (v!"to_bytes", mToBytes H), (v!"decode", mDecode), (v!"encode", mEncode), (v!"find", mFind),
    (v!"lstrip", mLstrip), (v!"startswith", mStartswith), (v!"keys", mKeys), (v!"join", mJoin), (v!"digest", mDigest), (v!"encrypt", mEncrypt H),
    (v!"decrypt", mDecrypt H), (v!"x", mX), (v!"y", mY), (v!"to_string", mToString), (v!"get_verifying_key", mGetVerifyingKey)]
  mutators := [(v!"append", uAppend), (v!"extend", uExtend), (v!"reverse", uReverse)]
  catches := [(v!"ValueError", .valueError), (v!"TypeError", .typeError), (v!"AttributeError", .attributeError), (v!"ecdsa.keys.MalformedPointError", .malformedPoint)]

/-- The kind of a function. -/
inductive Kind
  | function | method | classmethod
  deriving DecidableEq

/-- Where a piece of text stands. -/
structure Ctx where
  lib : Library
  /-- the namespace of the module -/
  scope : Scope
  /-- the methods of classes of the repository: name, class, function -/
  methods : List (Nat × Cls × Fn)
  /-- `Error.__str__` -/
  str : Fn
  /-- the class whose body this is -/
  members : List (Nat × Mem) := []
  kind : Kind := .function
  locals : List Nat := []
  /-- the `**kwargs` parameter -/
  kwargs : Option Nat := none

/-! ### Names -/

/-- The number of characters of a name. -/
def nameLen (n : Nat) : Nat := if Nat.beq n 0 then 0 else n.log2 / 8 + 1
/-- `a.b` -/
def dot (a b : Nat) : Nat := (a * 256 + 46) * 256 ^ nameLen b + b
/-- The order of texts, for names of at most 64 characters. -/
def nameLe (a b : Nat) : Bool := Nat.ble (a * 256 ^ (64 - nameLen a)) (b * 256 ^ (64 - nameLen b))
/-- The name that a text spells. -/
def spell : List Nat → Nat → Nat
  | [], n => n
  | c :: r, n => spell r (n * 256 + c)
def insertName (n : Nat) : List Nat → List Nat
  | [] => [n]
  | m :: l => if Nat.beq n m then m :: l else if nameLe n m then n :: m :: l else m :: insertName n l
/-- In the order of texts, without repetitions. -/
def sortNames : List Nat → List Nat
  | [] => []
  | n :: l => insertName n (sortNames l)

def mapOpt {α β : Type} (f : α → Option β) : List α → Option (List β)
  | [] => some []
  | a :: l => match f a with
    | some b => match mapOpt f l with
      | some bs => some (b :: bs)
      | none => none
    | none => none
def flat {α β : Type} (f : α → List β) : List α → List β
  | [] => []
  | a :: l => f a ++ flat f l

/-- The variables of comprehensions in an expression. -/
def boundE : Nat → PE → List Nat
  | 0, _ => []
  | f + 1, e => match e with
    | .fstr es | .list es | .tuple es | .dict es => flat (boundE f) es
    | .fval e | .attr e _ | .kw _ e | .star e | .not e | .neg e | .invert e | .cmpOp _ e | .cmpIs _ e => boundE f e
    | .index a b | .bin _ a b | .and a b | .or a b | .pair a b => boundE f a ++ boundE f b
    | .slice a b c d => boundE f a ++ boundE f b ++ boundE f c ++ boundE f d
    | .call g as => boundE f g ++ flat (boundE f) as
    | .cmp a rest => boundE f a ++ flat (boundE f) rest
    | .ite a b c => boundE f a ++ boundE f b ++ boundE f c
    | .comp e n i => n :: (boundE f e ++ boundE f i)
    | _ => []
/-- The names that a target assigns. -/
def boundT : PE → List Nat
  | .name n => [n]
  | .tuple es => flat (fun e => match e with | .name n => [n] | _ => []) es
  | _ => []
/-- The names that statements assign. -/
def bound : Nat → List PS → List Nat
  | 0, _ => []
  | f + 1, b => flat (fun s => match s with
    | .expr e | .ret e | .assert e | .raise e _ => boundE f e
    | .assign t e | .ann t _ e | .aug t _ e => boundT t ++ boundE f e
    | .ite c a b => boundE f c ++ bound f a ++ bound f b
    | .while c b => boundE f c ++ bound f b
    | .for t e b => boundT t ++ boundE f e ++ bound f b
    | .try b hs => bound f b ++ bound f hs
    | .handler _ _ b => bound f b
    | _ => []) b

/-! ### Expressions -/

/-- What a name or dotted name of the module stands for; `none` for a local variable and for what hangs on a value. -/
def resolve (ctx : Ctx) : Nat → PE → Option (Ent ⊕ Mem)
  | _ + 1, .name n =>
    if memNat n ctx.locals then none
    else match find? n ctx.scope with
      | some e => some (.inl e)
      | none => some (.inl (.ext n))
  | f + 1, .attr e n => match resolve ctx f e with
    | some (.inl (.ext p)) => some (.inl (.ext (dot p n)))
    | some (.inl (.cls _ ms)) => match find? n ms with
      | some m => some (.inr m)
      | none => none
    | _ => none
  | _, _ => none

/-- The value of what a name stands for. -/
def entVal (ctx : Ctx) : Ent ⊕ Mem → Option Expr
  | .inl (.ext p) => find? p ctx.lib.vals
  | .inl (.value e) => some e
  | .inl (.cls (some c) _) => some (eConst (.type (.cls c)))
  | .inr (.attr r) => some (eGlobal r)
  | _ => none
/-- The function that is called. -/
def entFn (ctx : Ctx) : Ent ⊕ Mem → Option Fn
  | .inl (.ext p) => find? p ctx.lib.fns
  | .inl (.fn f) => some f
  | .inl (.cls _ ms) => match find? v!"__init__" ms with
    | some (.ctor f) => some f
    | _ => none
  | .inl (.exc c init _) => some (init c)
  | .inr (.fn f) => some f
  | _ => none
/-- The methods with a name. -/
def table (n : Nat) : List (Nat × Cls × Fn) → List (Cls × Fn)
  | [] => []
  | (m, c, f) :: l => if Nat.beq m n then (c, f) :: table n l else table n l

def text (s : List Nat) : String := String.ofList (s.map Char.ofNat)

/-- The positional arguments. -/
def positional : List PE → List PE
  | [] => []
  | .kw _ _ :: l => positional l
  | e :: l => e :: positional l
/-- The keyword arguments. -/
def keywordArgs : List PE → List (Nat × PE)
  | [] => []
  | .kw n e :: l => (n, e) :: keywordArgs l
  | _ :: l => keywordArgs l

def expr : Nat → Ctx → PE → Option Expr
  | 0, _, _ => none
  | f + 1, ctx, e =>
    let kws (as : List PE) : Option (List (Nat × Expr)) := mapOpt (fun p => (expr f ctx p.2).map fun e => (p.1, e)) (keywordArgs as)
    let call (g : Option Fn) (as : List PE) : Option Expr := do return eCall (← g) (← mapOpt (expr f ctx) (positional as)) (← kws as)
    match e with
    | .none => some (eConst .none)
    | .bool b => some (eConst (.bool b))
    | .int n => some (eConst (.int (Int.ofNat n)))
    | .str s => some (eConst (.str (text s).toList))
    | .bytes s => some (eConst (.bytes (s.map UInt8.ofNat)))
    | .fstr ps => do
      let ps ← mapOpt (fun p => match p with
        | .str s => some (Part.lit (text s))
        | .fval e => (expr f ctx e).map Part.val
        | _ => none) ps
      return eFormat ps
    | .name n =>
      if memNat n ctx.locals then some (eName n)
      else do entVal ctx (← resolve ctx 1 (.name n))
    | .attr e n =>
      let other : Option Expr := match resolve ctx f (.attr e n) with
        | some r => entVal ctx r
        | none => do return eAttr (← expr f ctx e) n
      match e, ctx.kind with
      | .name m, .classmethod => if Nat.beq m v!"cls" then match find? n ctx.members with
          | some (.attr r) => some (eGlobal r)
          | _ => none
        else other
      | _, _ => other
    | .index e i => match resolve ctx f e, i with
      | some (.inl (.ext p)), .name n =>
        if Nat.beq p v!"typing.Type" && Nat.beq n v!"ICryptocurrency" then
          some (eConst (.typing "typing.Type[bip38.cryptocurrencies.ICryptocurrency]".toList))
        else none
      | _, _ => do return eIndex (← expr f ctx e) (← expr f ctx i)
    | .slice e lo hi step =>
      let bound (b : PE) : Option (Option Expr) := match b with
        | .missing => some none
        | b => (expr f ctx b).map some
      match step with
      | .missing => do return eSlice (← expr f ctx e) (← bound lo) (← bound hi)
      | .neg (.int 1) => match lo, hi with
        | .missing, .missing => do return eReverse (← expr f ctx e)
        | _, _ => none
      | _ => none
    | .call g [.star e] => match resolve ctx f g with
      | some r => do return eCallStar (← entFn ctx r) (← expr f ctx e)
      | none => none
    | .call g as =>
      let other : Option Expr := match resolve ctx f g with
        | some (.inl (.ext p)) =>
          if Nat.beq p v!"dict" then match positional as with
            | [] => do return eDict (← mapOpt (fun p => (expr f ctx p.2).map fun e => (text (unspell p.1), e)) (keywordArgs as))
            | _ => none
          else call (find? p ctx.lib.fns) as
        | some r => call (entFn ctx r) as
        | none => match g with
          | .attr e n =>
            let method : Option Expr := do
              return eMethod (table n ctx.methods) ((find? n ctx.lib.methods).getD noMethod) (← expr f ctx e) (← mapOpt (expr f ctx) (positional as)) (← kws as)
            match e, ctx.kwargs, as with
            | .name m, some k, [.str s, d] =>
              if Nat.beq m k && Nat.beq n v!"get" then do return eKwargsGet (← expr f ctx e) (spell s 0) (← expr f ctx d) else method
            | _, _, _ => method
          | _ => none
      match g, ctx.kind with
      | .name m, .classmethod => if Nat.beq m v!"cls" then call (entFn ctx (.inl (.cls none ctx.members))) as else other
      | .attr (.name m) n, .classmethod => if Nat.beq m v!"cls" then match find? n ctx.members with
          | some (.fn g) => call (some g) as
          | _ => none
        else other
      | .attr (.name m) n, .method => if Nat.beq m v!"self" then
          if Nat.beq n v!"__class__" then call (entFn ctx (.inl (.cls none ctx.members))) as
          else match find? n ctx.members with
            | some (.method g) => call (some g) (.name m :: as)
            | some _ => none
            | none => other
        else other
      | _, _ => other
    | .bin op a b => do
      let (t, u) := match op with
        | .add => (table v!"__add__" ctx.methods, table v!"__radd__" ctx.methods)
        | .mul => (table v!"__mul__" ctx.methods, table v!"__rmul__" ctx.methods)
        | _ => ([], [])
      return eBin t u op (← expr f ctx a) (← expr f ctx b)
    | .not e => (expr f ctx e).map eNot
    | .neg e => (expr f ctx e).map eNeg
    | .invert e => (expr f ctx e).map eInvert
    | .and a b => do return eAnd (← expr f ctx a) (← expr f ctx b)
    | .or a b => do return eOr (← expr f ctx a) (← expr f ctx b)
    | .cmp e rest => do
      let rest ← mapOpt (fun p => match p with
        | .cmpOp o e => (expr f ctx e).map fun e => (o, e)
        | .cmpIs b .none => some (if b then .isNotNone else .isNone, eConst .none)
        | _ => none) rest
      return eCompare (← expr f ctx e) rest
    | .ite c a b => do return eIf (← expr f ctx c) (← expr f ctx a) (← expr f ctx b)
    | .list es => (mapOpt (expr f ctx) es).map eList
    | .tuple es => (mapOpt (expr f ctx) es).map eTuple
    | .dict es => do
      let es ← mapOpt (fun p => match p with
        | .pair (.str k) v => (expr f ctx v).map fun e => (text k, e)
        | _ => none) es
      return eDict es
    | .comp e n i => do return eComprehension (← expr f { ctx with locals := n :: ctx.locals } e) n (← expr f ctx i)
    | _ => none
where
  /-- the characters of a name -/
  unspell (n : Nat) : List Nat := go (nameLen n) n []
  go : Nat → Nat → List Nat → List Nat
    | 0, _, acc => acc
    | k + 1, n, acc => go k (n / 256) (n % 256 :: acc)

/-! ### Statements -/

def target (ctx : Ctx) : PE → Option Target
  | .name n => some (.name n)
  | .attr (.name m) n => if memNat m ctx.locals then some (.attr m n) else none
  | _ => none

def isDoc : PS → Bool
  | .expr (.str _) => true
  | _ => false

def catchOf (ctx : Ctx) (t : PE) : Option Catch :=
  match resolve ctx 5 t with
  | some (.inl (.ext p)) => find? p ctx.lib.catches
  | some (.inl (.exc c _ _)) => if c = .error then none else some (.only c)
  | _ => none

def stmt : Nat → Ctx → PS → Option Stmt
  | 0, _, _ => none
  | f + 1, ctx, s =>
    let ex := expr f ctx
    let body (b : List PS) : Option (List Stmt) := mapOpt (stmt f ctx) (b.filter fun s => !isDoc s)
    let assign (t e : PE) : Option Stmt := match t with
      | .tuple ts => do return sUnpack (← mapOpt (target ctx) ts) (← ex e)
      | t => do return sAssign (← target ctx t) (← ex e)
    match s with
    | .assign t e | .ann t _ e => assign t e
    | .aug t op e => do return sAssign (← target ctx t) (← ex (.bin op t e))
    | .expr e =>
      let other := (ex e).map sExpr
      match e with
      | .call (.attr (.name n) m) as => match find? m ctx.lib.mutators, keywordArgs as with
        | some u, [] => if memNat n ctx.locals then do return sMutate n u (← mapOpt ex as) else other
        | _, _ => other
      | _ => other
    | .pass => some sPass
    | .ret .missing => some (sReturn (eConst .none))
    | .ret e => (ex e).map sReturn
    | .assert e => (ex e).map sAssert
    | .ite c a b => do return sIf (← ex c) (← body a) (← body b)
    | .while c b => do return sWhile (← ex c) (← body b)
    | .for (.tuple ts) e b => do
      return sForUnpack (← mapOpt (fun t => match t with | .name n => some n | _ => none) ts) (← ex e) (← body b)
    | .for (.name n) e b => do return sFor n (← ex e) (← body b)
    | .raise e _ => (ex e).map (sRaise ctx.str)
    | .try b hs => do
      let hs ← mapOpt (fun h => match h with
        | .handler t _ b => do return (← mapOpt (catchOf ctx) (match t with | .tuple ts => ts | t => [t]), ← body b)
        | _ => none) hs
      return sTry (sortNames (bound f b)) (← body b) hs
    | _ => none

/-! ### Definitions -/

/-- Larger than the depth of every tree of the repository. -/
def fuel : Nat := 1000

/-- The parameters, and the `**kwargs` parameter. -/
def parameters (ctx : Ctx) : List PE → Option (List Param × Option Nat)
  | [] => some ([], none)
  | [.kwargs n] => some ([], some n)
  | .name n :: l => do
    let (ps, k) ← parameters ctx l
    return (⟨n, none⟩ :: ps, k)
  | .kw n d :: l => do
    let e ← expr fuel { ctx with locals := [] } d
    let (ps, k) ← parameters ctx l
    return (⟨n, some (e Env.empty)⟩ :: ps, k)
  | _ => none
def paramNames : List PE → List Nat
  | [] => []
  | .name n :: l | .kw n _ :: l | .kwargs n :: l => n :: paramNames l
  | _ :: l => paramNames l

/-- The parameters and the statements of a function; `drop` leaves out the first parameter. -/
def function (ctx : Ctx) (kind : Kind) (drop : Bool) (ps : List PE) (b : List PS) : Option (List Param × Option Nat × List Stmt) := do
  let locals := paramNames ps ++ bound fuel b
  let locals := if kind = .classmethod then locals.filter fun n => !Nat.beq n v!"cls" else locals
  let (params, k) ← parameters { ctx with kind } (if drop then ps.drop 1 else ps)
  let b ← mapOpt (stmt fuel { ctx with kind, locals, kwargs := k }) (b.filter fun s => !isDoc s)
  return (params, k, b)

/-- The first parameter has the name that Python programmers give it (`self`, `cls`), which `expr` relies on. -/
def firstIs (n : Nat) : List PE → Bool
  | .name m :: _ => Nat.beq m n
  | _ => false

/-- The methods before a method, in the order in which the functions of a class are listed (`none`: not a method).  A method call looks at
these methods only; where it would need another one, the run has no meaning (`eMethod`), so a shorter list never makes up a result. -/
def methodsBefore (n : Nat) : List (Nat × Option (Cls × Fn)) → List (Nat × Cls × Fn)
  | [] => []
  | (m, x) :: l => if Nat.beq m n then [] else match x with
    | some p => (m, p) :: methodsBefore n l
    | none => methodsBefore n l
/-- All methods of the list. -/
def allMethods : List (Nat × Option (Cls × Fn)) → List (Nat × Cls × Fn)
  | [] => []
  | (m, some p) :: l => (m, p) :: allMethods l
  | (_, none) :: l => allMethods l

/-- The members of a class: `init` makes the constructor from the parameters and the statements of `__init__`. -/
def classMembers (ctx : Ctx) (methodsFor : Nat → List (Nat × Cls × Fn)) (init : List Param → List Stmt → Fn) : List PS → Option (List (Nat × Mem))
  | [] => some []
  | s :: l => do
    let rest ← classMembers ctx methodsFor init l
    match s with
    | .expr (.str _) => return rest
    | .ann _ _ .missing => return rest
    | .ann (.name n) _ e => return (n, .attr ((← expr fuel { ctx with members := [] } e) Env.empty)) :: rest
    | .def ds n ps _ b =>
      let ctx := { ctx with methods := methodsFor n }
      match ds with
      | [] =>
        if firstIs v!"self" ps then
          if Nat.beq n v!"__init__" then do
            let (ps, k, b) ← function ctx .method true ps b
            match k with
            | none => return (n, .ctor (init ps b)) :: rest
            | some _ => none
          else do
            let (ps, k, b) ← function ctx .method false ps b
            return (n, .method (defun ps k b)) :: rest
        else none
      | [.name d] =>
        if Nat.beq d v!"classmethod" then
          if firstIs v!"cls" ps then do
            let (ps, k, b) ← function ctx .classmethod true ps b
            return (n, .fn (defun ps k b)) :: rest
          else none
        else if Nat.beq d v!"staticmethod" then do
          let (ps, k, b) ← function ctx .function false ps b
          return (n, .fn (defun ps k b)) :: rest
        else none
      | _ => none
    | _ => none

/-- Which class of the model a class of the repository is. -/
def clsOf (n : Nat) : Option Cls :=
  if Nat.beq n v!"Point" then some .Point else if Nat.beq n v!"PublicKey" then some .PublicKey
  else if Nat.beq n v!"PrivateKey" then some .PrivateKey else if Nat.beq n v!"BIP38" then some .BIP38 else none
def excOf (n : Nat) : Option ExcClass :=
  if Nat.beq n v!"Error" then some .error else if Nat.beq n v!"CryptocurrencyError" then some .cryptocurrencyError
  else if Nat.beq n v!"NetworkError" then some .networkError else if Nat.beq n v!"Secp256k1Error" then some .secp256k1Error
  else if Nat.beq n v!"AddressError" then some .addressError else if Nat.beq n v!"WIFError" then some .wifError
  else if Nat.beq n v!"PassphraseError" then some .passphraseError else none

/-- What the definitions of a module mean under a namespace.  Imports are read by `imports`, the unit tests and the check of the sizes of
`struct` in `libs/ripemd160.py` are left out. -/
def definitions (ctx : Ctx) (methodsFor : Nat → List (Nat × Cls × Fn)) : List PS → Option Scope
  | [] => some []
  | s :: l => do
    let rest ← definitions ctx methodsFor l
    match s with
    | .import _ | .from _ _ _ => return rest
    | .expr (.str _) => return rest
    | .ite _ [.raise _ _] [] => return rest
    | .assign (.name n) e | .ann (.name n) _ e => return (n, .value (eGlobal ((← expr fuel ctx e) Env.empty))) :: rest
    | .def [] n ps _ b =>
      let (ps, k, b) ← function ctx .function false ps b
      return (n, .fn (defun ps k b)) :: rest
    | .cls n [] b =>
      let members := match find? n ctx.scope with
        | some (.cls _ ms) => ms
        | _ => []
      let init := match clsOf n with
        | some c => defclass c
        | none => fun _ _ _ _ => .stuck
      return (n, .cls (clsOf n) (← classMembers { ctx with members } methodsFor init b)) :: rest
    | .cls n [.name m] b =>
      if Nat.beq m v!"Exception" then
        let ms (c : ExcClass) := classMembers ctx methodsFor (defclass (.exc c)) b
        let str ← match ← ms .error with
          | [_, (_, .method str)] => some str
          | _ => none
        return (n, .exc (← excOf n) (fun c => match ms c with | some [(_, .ctor g), _] => g | _ => fun _ _ => .stuck) str) :: rest
      else match find? m ctx.scope, b with
        | some (.exc _ init str), [.pass] => return (n, .exc (← excOf n) init str) :: rest
        | _, _ => none
    | .cls _ [.attr (.name m) k] _ => if Nat.beq m v!"unittest" && Nat.beq k v!"TestCase" then return rest else none
    | _ => none

/-- The dotted name. -/
def dottedName : Nat → PE → Option Nat
  | _ + 1, .name n => some n
  | f + 1, .attr e n => (dottedName f e).map fun p => dot p n
  | _, _ => none

/-- What the imports of a module bring in.  `packages` are the packages around the module, `world` the modules of the repository. -/
def imports (packages : List Nat) (world : List (Nat × Scope)) : List PS → Option Scope
  | [] => some []
  | s :: l => do
    let rest ← imports packages world l
    match s with
    | .import ns => do
      let ns ← mapOpt (fun p => match p with
        | .pair (.name n) .missing => some (n, Ent.ext n)
        | .pair e (.name n) => (dottedName fuel e).map fun p => (n, .ext p)
        | _ => none) ns
      return ns ++ rest
    | .from 0 m ns => do
      let m ← dottedName fuel m
      let ns ← mapOpt (fun p => match p with
        | .pair (.name n) .missing => some (n, Ent.ext (dot m n))
        | .pair (.name n) (.name k) => some (k, .ext (dot m n))
        | _ => none) ns
      return ns ++ rest
    | .from (i + 1) m ns => do
      let p ← packages[i]?
      let p ← match m with
        | .missing => some p
        | m => (dottedName fuel m).map (dot p)
      let w ← find? p world
      let ns ← mapOpt (fun p => match p with
        | .pair (.name n) .missing => (find? n w).map fun e => (n, e)
        | .pair (.name n) (.name k) => (find? n w).map fun e => (k, e)
        | _ => none) ns
      return ns ++ rest
    | _ => return rest

/-- The text of a module defines `defs`: under the namespace that consists of `defs` and of what the text imports, the definitions in the text mean `defs`. -/
def Defines (H : Host) (str : Fn) (packages : List Nat) (world : List (Nat × Scope)) (methodsFor : Nat → List (Nat × Cls × Fn)) (source : String) (defs : Scope) : Prop :=
  ∃ tree ins, parseModule (source.toList.map Char.toNat) = some tree ∧ imports packages world tree = some ins ∧
    definitions { lib := library H, scope := defs ++ ins, methods := methodsFor 0, str } methodsFor tree = some defs

end Bip38.SrcX.Text
