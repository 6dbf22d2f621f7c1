import Verif.Src.Sem
import Lean.ToExpr
/-!
# The syntax of Python, as far as the repository uses it

From the characters of a file to tokens (`lex`), from the tokens to a tree (`parseModule`).  The lexical rules and the grammar are those
of the Python reference: comments, line joining inside brackets, indentation as tokens, string, bytes and formatted literals, the
precedence of the operators.  A construct that the repository does not use makes the parser return `none`.

Characters are their code points, names and operators the numbers spelled by their characters (`v!"name"`, as in `Verif/Src/Sem.lean`).
This file models Python, not the repository, so it cites no line of it.
-/
set_option linter.style.longLine false
namespace Bip38.Py
open Bip38.Src (Name BinOp CmpOp)

/-! ### Tokens -/

inductive Tok
  | name (n : Nat)
  | int (n : Nat)
  | str (s : List Nat)
  | bytes (s : List Nat)
  /-- the text between the quotes of a formatted string -/
  | fstr (s : List Nat)
  /-- operators and delimiters -/
  | op (n : Nat)
  | newline | indent | dedent
  deriving DecidableEq, Lean.ToExpr

def isDigit (c : Nat) : Bool := Nat.ble 48 c && Nat.ble c 57
def isLetter (c : Nat) : Bool := Nat.ble 97 c && Nat.ble c 122 || Nat.ble 65 c && Nat.ble c 90 || Nat.beq c 95
def isIdent (c : Nat) : Bool := isLetter c || isDigit c
/-- the value of a hexadecimal digit -/
def hexVal (c : Nat) : Option Nat :=
  if isDigit c then some (c - 48) else if Nat.ble 97 c && Nat.ble c 102 then some (c - 87) else if Nat.ble 65 c && Nat.ble c 70 then some (c - 55) else none

/-- An identifier and the rest. -/
def takeName : List Nat → Nat → Nat × List Nat
  | [], n => (n, [])
  | c :: r, n => if isIdent c then takeName r (n * 256 + c) else (n, c :: r)
/-- Decimal digits and the rest. -/
def takeDec : List Nat → Nat → Nat × List Nat
  | [], n => (n, [])
  | c :: r, n => if isDigit c then takeDec r (n * 10 + (c - 48)) else (n, c :: r)
/-- Hexadecimal digits and the rest. -/
def takeHex : List Nat → Nat → Nat × List Nat
  | [], n => (n, [])
  | c :: r, n => match hexVal c with
    | some d => takeHex r (n * 16 + d)
    | none => (n, c :: r)
/-- The text of a string literal up to the closing quote, escapes not yet replaced, and the rest. -/
def takeString (q : Nat) : List Nat → List Nat → Option (List Nat × List Nat)
  | [], _ => none
  | c :: r, acc =>
    if Nat.beq c q then some (acc.reverse, r)
    else if Nat.beq c 92 then match r with
      | [] => none
      | d :: r => takeString q r (d :: c :: acc)
    else if Nat.beq c 10 then none
    else takeString q r (c :: acc)
/-- The same for three quotes. -/
def takeTriple (q : Nat) : List Nat → List Nat → Option (List Nat × List Nat)
  | a :: b :: c :: r, acc =>
    if Nat.beq a q && Nat.beq b q && Nat.beq c q then some (acc.reverse, r) else takeTriple q (b :: c :: r) (a :: acc)
  | _, _ => none
/-- Replace the escapes. -/
def unescape : List Nat → Option (List Nat)
  | [] => some []
  | 92 :: 120 :: a :: b :: r => do return ((← hexVal a) * 16 + (← hexVal b)) :: (← unescape r)
  | 92 :: c :: r => do
    let d ← if Nat.beq c 110 then some 10 else if Nat.beq c 92 then some 92 else if Nat.beq c 34 then some 34 else if Nat.beq c 39 then some 39
      else if Nat.beq c 48 && !(match r with | d :: _ => isDigit d | [] => false) then some 0 else none
    return d :: (← unescape r)
  | [92] => none
  | c :: r => do return c :: (← unescape r)
def dropSpaces : List Nat → Nat → Nat × List Nat
  | [], n => (n, [])
  | c :: r, n => if Nat.beq c 32 then dropSpaces r (n + 1) else (n, c :: r)
/-- The rest from the end of the line on. -/
def dropLine : List Nat → List Nat
  | [] => []
  | c :: r => if Nat.beq c 10 then c :: r else dropLine r
/-- The indentations that are closed by a line with indentation `n`. -/
def popIndent (n : Nat) : List Nat → List Tok → Option (List Nat × List Tok)
  | [], _ => none
  | i :: ind, acc => if Nat.beq i n then some (i :: ind, acc) else popIndent n ind (.dedent :: acc)

def twoCharOps : List Nat := [v!"==", v!"!=", v!"<=", v!">=", v!"<<", v!">>", v!"//", v!"**", v!"+=", v!"-=", v!"*=", v!"^=", v!"|=", v!"&=", v!"->"]
def oneCharOps : List Nat := [v!"+", v!"-", v!"*", v!"%", v!"&", v!"|", v!"^", v!"~", v!"<", v!">", v!"=", v!":", v!",", v!".", v!"@", v!";"]
def memNat (n : Nat) : List Nat → Bool
  | [] => false
  | m :: l => Nat.beq n m || memNat n l

/-- A literal in quotes (`q`), with its prefix (`0`, `b` or `f`). -/
def lexString (pre q : Nat) (r : List Nat) : Option (Tok × List Nat) := do
  let (s, r) ← match r with
    | a :: b :: r' => if Nat.beq a q && Nat.beq b q then takeTriple q r' [] else takeString q (a :: b :: r') []
    | r => takeString q r []
  if Nat.beq pre 102 then return (.fstr s, r)
  let s ← unescape s
  if Nat.beq pre 98 then return (.bytes s, r)
  if Nat.beq pre 0 then return (.str s, r)
  none

/-- The tokens of a text.  `depth` counts the open brackets, `ind` are the open indentations, `bol` says that a line begins. -/
def lexGo : Nat → Nat → List Nat → Bool → List Nat → List Tok → Option (List Tok)
  | 0, _, _, _, _, _ => none
  | fuel + 1, depth, ind, true, cs, acc =>
    match dropSpaces cs 0 with
    | (_, []) => match popIndent 0 ind acc with
      | some (_, acc) => some acc.reverse
      | none => none
    | (n, c :: r) =>
      if Nat.beq c 10 then lexGo fuel depth ind true r acc
      else if Nat.beq c 35 then lexGo fuel depth ind true (dropLine r) acc
      else match ind with
        | [] => none
        | i :: _ =>
          if Nat.beq n i then lexGo fuel depth ind false (c :: r) acc
          else if Nat.ble i n then lexGo fuel depth (n :: ind) false (c :: r) (.indent :: acc)
          else match popIndent n ind acc with
            | some (ind, acc) => lexGo fuel depth ind false (c :: r) acc
            | none => none
  | fuel + 1, depth, ind, false, cs, acc =>
    match cs with
    | [] => if Nat.beq depth 0 then lexGo fuel depth ind true [] (.newline :: acc) else none
    | c :: r =>
      if Nat.beq c 10 then
        if Nat.beq depth 0 then lexGo fuel depth ind true r (.newline :: acc) else lexGo fuel depth ind false r acc
      else if Nat.beq c 32 then lexGo fuel depth ind false r acc
      else if Nat.beq c 35 then lexGo fuel depth ind false (dropLine r) acc
      else if isLetter c then
        match takeName (c :: r) 0 with
        | (n, []) => lexGo fuel depth ind false [] (.name n :: acc)
        | (n, d :: r) =>
          if (Nat.beq d 34 || Nat.beq d 39) && Nat.ble n 255 then
            match lexString n d r with
            | some (t, r) => lexGo fuel depth ind false r (t :: acc)
            | none => none
          else lexGo fuel depth ind false (d :: r) (.name n :: acc)
      else if isDigit c then
        let (n, r) := match c, r with
          | 48, 120 :: r => takeHex r 0
          | c, r => takeDec (c :: r) 0
        lexGo fuel depth ind false r (.int n :: acc)
      else if Nat.beq c 34 || Nat.beq c 39 then
        match lexString 0 c r with
        | some (t, r) => lexGo fuel depth ind false r (t :: acc)
        | none => none
      else if memNat c [40, 91, 123] then lexGo fuel (depth + 1) ind false r (.op c :: acc)
      else if memNat c [41, 93, 125] then
        if Nat.beq depth 0 then none else lexGo fuel (depth - 1) ind false r (.op c :: acc)
      else match r with
        | d :: r' =>
          if memNat (c * 256 + d) twoCharOps then lexGo fuel depth ind false r' (.op (c * 256 + d) :: acc)
          else if memNat c oneCharOps then lexGo fuel depth ind false r (.op c :: acc)
          else none
        | [] => none

def lex (s : List Nat) : Option (List Tok) := lexGo (2 * s.length + 2) 0 [0] true s []

/-! ### Trees -/

deriving instance Lean.ToExpr for BinOp
deriving instance Lean.ToExpr for CmpOp

/-- Expressions, and the parts of expressions that only occur in certain places. -/
inductive PE
  | none | bool (b : Bool) | int (n : Nat) | str (s : List Nat) | bytes (s : List Nat)
  /-- formatted string: strings and `fval` -/
  | fstr (parts : List PE)
  | fval (e : PE)
  | name (n : Nat)
  | attr (e : PE) (n : Nat)
  | index (e i : PE)
  | slice (e lo hi step : PE)
  /-- an absent bound, value, type .. -/
  | missing
  /-- arguments: expressions, `kw`, `star` -/
  | call (f : PE) (args : List PE)
  | kw (n : Nat) (e : PE)
  | star (e : PE)
  | kwargs (n : Nat)
  | bin (op : BinOp) (a b : PE)
  | not (e : PE) | neg (e : PE) | invert (e : PE)
  | and (a b : PE) | or (a b : PE)
  /-- comparison: the rest are `cmpOp` -/
  | cmp (e : PE) (rest : List PE)
  | cmpOp (o : CmpOp) (e : PE)
  /-- `is`, `is not` -/
  | cmpIs (neg : Bool) (e : PE)
  | ite (c a b : PE)
  | list (es : List PE) | tuple (es : List PE)
  /-- items: `pair` -/
  | dict (es : List PE)
  | pair (k v : PE)
  /-- `e for n in i` -/
  | comp (e : PE) (n : Nat) (i : PE)
  deriving Lean.ToExpr

/-- Statements. -/
inductive PS
  | expr (e : PE)
  | assign (t e : PE)
  /-- `t: ty = e` -/
  | ann (t ty e : PE)
  | aug (t : PE) (op : BinOp) (e : PE)
  | pass
  | ret (e : PE)
  | assert (e : PE)
  | ite (c : PE) (a b : List PS)
  | while (c : PE) (b : List PS)
  | for (t e : PE) (b : List PS)
  | raise (e : PE) (cause : PE)
  /-- the handlers are `handler` -/
  | try (b : List PS) (hs : List PS)
  | handler (types : PE) (n : PE) (b : List PS)
  /-- `annotations`: those of the parameters, then that of the result -/
  | def (decorators : List PE) (n : Nat) (params : List PE) (annotations : List PE) (b : List PS)
  | cls (n : Nat) (bases : List PE) (b : List PS)
  /-- `import a.b as c`: pairs of dotted name and name -/
  | import (ns : List PE)
  /-- `from ..m import a as b`: number of dots, module (`missing` or dotted name), pairs -/
  | from (level : Nat) (m : PE) (ns : List PE)
  deriving Lean.ToExpr

/-! ### The parser -/

def keywords : List Nat := [v!"and", v!"or", v!"not", v!"if", v!"else", v!"elif", v!"in", v!"is", v!"for", v!"while", v!"def", v!"class", v!"return",
  v!"raise", v!"try", v!"except", v!"finally", v!"import", v!"from", v!"as", v!"pass", v!"assert", v!"lambda", v!"yield", v!"with", v!"del",
  v!"global", v!"nonlocal", v!"break", v!"continue", v!"async", v!"await", v!"None", v!"True", v!"False"]

/-- The binary operators of a level of precedence: 4 `|`, 5 `^`, 6 `&`, 7 `<<` `>>`, 8 `+` `-`, 9 `*` `//` `%`. -/
def binOpAt (level op : Nat) : Option BinOp :=
  match level with
  | 4 => if Nat.beq op v!"|" then some .or else none
  | 5 => if Nat.beq op v!"^" then some .xor else none
  | 6 => if Nat.beq op v!"&" then some .and else none
  | 7 => if Nat.beq op v!"<<" then some .shl else if Nat.beq op v!">>" then some .shr else none
  | 8 => if Nat.beq op v!"+" then some .add else if Nat.beq op v!"-" then some .sub else none
  | 9 => if Nat.beq op v!"*" then some .mul else if Nat.beq op v!"//" then some .floordiv else if Nat.beq op v!"%" then some .mod else none
  | _ => none

/-- The operator of `x op= e`. -/
def augOp (op : Nat) : Option BinOp :=
  if Nat.beq op v!"+=" then some .add else if Nat.beq op v!"-=" then some .sub else if Nat.beq op v!"*=" then some .mul
  else if Nat.beq op v!"^=" then some .xor else if Nat.beq op v!"|=" then some .or else if Nat.beq op v!"&=" then some .and else none

def cmpOf (op : Nat) : Option CmpOp :=
  if Nat.beq op v!"==" then some .eq else if Nat.beq op v!"!=" then some .ne else if Nat.beq op v!"<" then some .lt
  else if Nat.beq op v!"<=" then some .le else if Nat.beq op v!">" then some .gt else if Nat.beq op v!">=" then some .ge else none

/-- The text up to `{` (or `}`). -/
def takeLit : List Nat → List Nat → List Nat × List Nat
  | [], acc => (acc.reverse, [])
  | c :: r, acc => if Nat.beq c 123 || Nat.beq c 125 then (acc.reverse, c :: r) else takeLit r (c :: acc)

/-- What the parser of expressions is asked for. -/
inductive Goal
  /-- an expression (`a if c else b`) -/
  | expr
  /-- an expression of a level of precedence: 0 `or`, 1 `and`, 2 `not`, 3 comparison, 4-9 binary, 10 unary, 11 power, 12 primary -/
  | level (n : Nat)
  /-- more operands at the level, to the right of an expression -/
  | more (n : Nat) (left : PE)
  /-- more comparisons, in reverse -/
  | cmps (left : PE) (rest : List PE)
  /-- calls, attributes, subscripts to the right of an expression -/
  | trailers (e : PE)
  /-- elements up to the closing bracket, in reverse; the result is a `list` -/
  | items (close : Nat) (acc : List PE)
  /-- arguments of a call up to `)`, in reverse; the result is a `list` -/
  | args (acc : List PE)
  /-- what follows an argument: `for n in i)`, or more arguments -/
  | argEnd (e : PE) (acc : List PE)
  /-- items of a dictionary up to `}`, in reverse -/
  | pairs (acc : List PE)
  /-- a subscript up to `]` -/
  | subscript
  /-- an absent or present bound of a slice -/
  | bound
  /-- expressions separated by commas, without brackets -/
  | tuple
  /-- the parts of a formatted string; tokens are not used -/
  | parts (s : List Nat) (acc : List PE)
  /-- more string literals to the right of one -/
  | strings (acc : PE)

def addString : PE → PE → Option PE
  | .str a, .str b => some (.str (a ++ b))
  | .bytes a, .bytes b => some (.bytes (a ++ b))
  | .fstr a, .str b => some (.fstr (a ++ [.str b]))
  | .str a, .fstr b => some (.fstr (.str a :: b))
  | .fstr a, .fstr b => some (.fstr (a ++ b))
  | _, _ => none

def pe : Nat → Goal → List Tok → Option (PE × List Tok)
  | 0, _, _ => none
  | f + 1, g, ts => match g with
    | .expr => match pe f (.level 0) ts with
      | some (a, .name n :: ts) =>
        if Nat.beq n v!"if" then match pe f (.level 0) ts with
          | some (c, .name m :: ts) => if Nat.beq m v!"else" then match pe f .expr ts with
              | some (b, ts) => some (.ite c a b, ts)
              | none => none
            else none
          | _ => none
        else some (a, .name n :: ts)
      | r => r
    | .level n =>
      if Nat.beq n 2 then match ts with
        | .name m :: ts' => if Nat.beq m v!"not" then match pe f (.level 2) ts' with
            | some (e, ts) => some (.not e, ts)
            | none => none
          else pe f (.level 3) ts
        | ts => pe f (.level 3) ts
      else if Nat.beq n 3 then match pe f (.level 4) ts with
        | some (e, ts) => pe f (.cmps e []) ts
        | none => none
      else if Nat.ble n 9 then match pe f (.level (n + 1)) ts with
        | some (e, ts) => pe f (.more n e) ts
        | none => none
      else if Nat.beq n 10 then match ts with
        | .op o :: ts' =>
          if Nat.beq o v!"-" then match pe f (.level 10) ts' with
            | some (e, ts) => some (.neg e, ts)
            | none => none
          else if Nat.beq o v!"~" then match pe f (.level 10) ts' with
            | some (e, ts) => some (.invert e, ts)
            | none => none
          else pe f (.level 11) ts
        | ts => pe f (.level 11) ts
      else if Nat.beq n 11 then match pe f (.level 12) ts with
        | some (e, .op o :: ts) => if Nat.beq o v!"**" then match pe f (.level 10) ts with
            | some (e', ts) => some (.bin .pow e e', ts)
            | none => none
          else some (e, .op o :: ts)
        | r => r
      else match ts with
        | .name m :: ts =>
          if memNat m keywords then
            if Nat.beq m v!"None" then some (.none, ts)
            else if Nat.beq m v!"True" then some (.bool true, ts)
            else if Nat.beq m v!"False" then some (.bool false, ts)
            else none
          else pe f (.trailers (.name m)) ts
        | .int m :: ts => some (.int m, ts)
        | .str s :: ts => match pe f (.strings (.str s)) ts with
          | some (e, ts) => pe f (.trailers e) ts
          | none => none
        | .bytes s :: ts => match pe f (.strings (.bytes s)) ts with
          | some (e, ts) => pe f (.trailers e) ts
          | none => none
        | .fstr s :: ts => match pe f (.parts s []) [] with
          | some (e, _) => match pe f (.strings e) ts with
            | some (e, ts) => pe f (.trailers e) ts
            | none => none
          | none => none
        | .op o :: ts =>
          if Nat.beq o v!"(" then match pe f (.items v!")" []) ts with
            | some (e, ts) => pe f (.trailers e) ts
            | none => none
          else if Nat.beq o v!"[" then match pe f (.items v!"]" []) ts with
            | some (.tuple es, ts) => pe f (.trailers (.list es)) ts
            | some (e, ts) => pe f (.trailers e) ts
            | none => none
          else if Nat.beq o v!"{" then pe f (.pairs []) ts
          else none
        | _ => none
    | .more n a =>
      if Nat.beq n 0 then match ts with
        | .name m :: ts' => if Nat.beq m v!"or" then match pe f (.level 0) ts' with
            | some (b, ts) => some (.or a b, ts)
            | none => none
          else some (a, ts)
        | ts => some (a, ts)
      else if Nat.beq n 1 then match ts with
        | .name m :: ts' => if Nat.beq m v!"and" then match pe f (.level 1) ts' with
            | some (b, ts) => some (.and a b, ts)
            | none => none
          else some (a, ts)
        | ts => some (a, ts)
      else match ts with
        | .op o :: ts' => match binOpAt n o with
          | some op => match pe f (.level (n + 1)) ts' with
            | some (b, ts) => pe f (.more n (.bin op a b)) ts
            | none => none
          | none => some (a, ts)
        | ts => some (a, ts)
    | .cmps a acc =>
      let done := match acc with | [] => a | acc => .cmp a acc.reverse
      match ts with
      | .op o :: ts' => match cmpOf o with
        | some c => match pe f (.level 4) ts' with
          | some (b, ts) => pe f (.cmps a (.cmpOp c b :: acc)) ts
          | none => none
        | none => some (done, ts)
      | .name m :: ts' =>
        if Nat.beq m v!"in" then match pe f (.level 4) ts' with
          | some (b, ts) => pe f (.cmps a (.cmpOp .in b :: acc)) ts
          | none => none
        else if Nat.beq m v!"not" then match ts' with
          | .name k :: ts' => if Nat.beq k v!"in" then match pe f (.level 4) ts' with
              | some (b, ts) => pe f (.cmps a (.cmpOp .notIn b :: acc)) ts
              | none => none
            else none
          | _ => none
        else if Nat.beq m v!"is" then
          let (neg, ts') := match ts' with
            | .name k :: ts'' => if Nat.beq k v!"not" then (true, ts'') else (false, ts')
            | ts' => (false, ts')
          match pe f (.level 4) ts' with
          | some (b, ts) => pe f (.cmps a (.cmpIs neg b :: acc)) ts
          | none => none
        else some (done, ts)
      | ts => some (done, ts)
    | .trailers e => match ts with
      | .op o :: ts' =>
        if Nat.beq o v!"." then match ts' with
          | .name n :: ts => pe f (.trailers (.attr e n)) ts
          | _ => none
        else if Nat.beq o v!"(" then match pe f (.args []) ts' with
          | some (.list as, ts) => pe f (.trailers (.call e as)) ts
          | _ => none
        else if Nat.beq o v!"[" then match pe f .subscript ts' with
          | some (.slice _ lo hi step, ts) => pe f (.trailers (.slice e lo hi step)) ts
          | some (i, ts) => pe f (.trailers (.index e i)) ts
          | none => none
        else some (e, ts)
      | ts => some (e, ts)
    | .items close acc => match ts with
      | .op o :: ts' =>
        if Nat.beq o close then some (.tuple acc.reverse, ts')
        else match pe f .expr ts with
          | some (e, .op c :: ts) =>
            if Nat.beq c v!"," then pe f (.items close (e :: acc)) ts
            else if Nat.beq c close then match acc with
              | [] => if Nat.beq close v!")" then some (e, ts) else some (.tuple [e], ts)
              | acc => some (.tuple (e :: acc).reverse, ts)
            else none
          | _ => none
      | ts => match pe f .expr ts with
        | some (e, .op c :: ts) =>
          if Nat.beq c v!"," then pe f (.items close (e :: acc)) ts
          else if Nat.beq c close then match acc with
            | [] => if Nat.beq close v!")" then some (e, ts) else some (.tuple [e], ts)
            | acc => some (.tuple (e :: acc).reverse, ts)
          else none
        | some (e, .name m :: .name n :: .name k :: ts) =>
          if Nat.beq m v!"for" && Nat.beq k v!"in" && acc.isEmpty then match pe f (.level 0) ts with
            | some (i, .op c :: ts) => if Nat.beq c close then some (.comp e n i, ts) else none
            | _ => none
          else none
        | _ => none
    | .args acc => match ts with
      | .op o :: ts' =>
        if Nat.beq o v!")" then some (.list acc.reverse, ts')
        else if Nat.beq o v!"," && !acc.isEmpty then pe f (.args acc) ts'
        else if Nat.beq o v!"*" then match pe f .expr ts' with
          | some (e, ts) => pe f (.args (.star e :: acc)) ts
          | none => none
        else match pe f .expr ts with
          | some (e, ts) => pe f (.argEnd e acc) ts
          | none => none
      | .name n :: .op o :: ts' =>
        if Nat.beq o v!"=" then match pe f .expr ts' with
          | some (e, ts) => pe f (.args (.kw n e :: acc)) ts
          | none => none
        else match pe f .expr ts with
          | some (e, ts) => pe f (.argEnd e acc) ts
          | none => none
      | ts => match pe f .expr ts with
        | some (e, ts) => pe f (.argEnd e acc) ts
        | none => none
    | .argEnd e acc => match ts with
      | .name m :: .name n :: .name k :: ts =>
        if Nat.beq m v!"for" && Nat.beq k v!"in" && acc.isEmpty then match pe f (.level 0) ts with
          | some (i, .op c :: ts) => if Nat.beq c v!")" then some (.list [.comp e n i], ts) else none
          | _ => none
        else none
      | .op o :: ts' => if Nat.beq o v!"," || Nat.beq o v!")" then pe f (.args (e :: acc)) (.op o :: ts') else none
      | _ => none
    | .pairs acc => match ts with
      | .op o :: ts' =>
        if Nat.beq o v!"}" then some (.dict acc.reverse, ts')
        else if Nat.beq o v!"," && !acc.isEmpty then pe f (.pairs acc) ts'
        else none
      | ts => match pe f .expr ts with
        | some (k, .op c :: ts) => if Nat.beq c v!":" then match pe f .expr ts with
            | some (v, ts) => pe f (.pairs (.pair k v :: acc)) ts
            | none => none
          else none
        | _ => none
    | .bound => match ts with
      | .op o :: ts' => if Nat.beq o v!":" || Nat.beq o v!"]" then some (.missing, .op o :: ts') else pe f .expr ts
      | ts => pe f .expr ts
    | .subscript => match pe f .bound ts with
      | some (lo, .op c :: ts) =>
        if Nat.beq c v!"]" then (match lo with | .missing => none | lo => some (lo, ts))
        else if Nat.beq c v!"," then match pe f (.items v!"]" [lo]) ts with
          | some (e, ts) => some (e, ts)
          | none => none
        else if Nat.beq c v!":" then match pe f .bound ts with
          | some (hi, .op c :: ts) =>
            if Nat.beq c v!"]" then some (.slice .missing lo hi .missing, ts)
            else if Nat.beq c v!":" then match pe f .bound ts with
              | some (step, .op c :: ts) => if Nat.beq c v!"]" then some (.slice .missing lo hi step, ts) else none
              | _ => none
            else none
          | _ => none
        else none
      | _ => none
    | .tuple => match pe f .expr ts with
      | some (e, .op c :: ts) =>
        if Nat.beq c v!"," then match pe f .tuple ts with
          | some (.tuple es, ts) => some (.tuple (e :: es), ts)
          | some (e', ts) => some (.tuple [e, e'], ts)
          | none => none
        else some (e, .op c :: ts)
      | r => r
    | .parts s acc => match takeLit s [] with
      | (l, r) =>
        let acc := match l with | [] => acc | l => match unescape l with | some l => .str l :: acc | none => .missing :: acc
        match r with
        | [] => some (.fstr acc.reverse, [])
        | c :: r => if Nat.beq c 123 then match takeLit r [] with
            | (e, d :: r) => if Nat.beq d 125 then match lex e with
                | some ts => match pe f .expr ts with
                  | some (e, [.newline]) => pe f (.parts r (.fval e :: acc)) []
                  | _ => none
                | none => none
              else none
            | _ => none
          else none
    | .strings a => match ts with
      | .str s :: ts => match addString a (.str s) with
        | some a => pe f (.strings a) ts
        | none => none
      | .bytes s :: ts => match addString a (.bytes s) with
        | some a => pe f (.strings a) ts
        | none => none
      | .fstr s :: ts => match pe f (.parts s []) [] with
        | some (e, _) => match addString a e with
          | some a => pe f (.strings a) ts
          | none => none
        | none => none
      | ts => some (a, ts)

/-- enough for every expression of the repository -/
def depth : Nat := 100000

/-- A dotted name. -/
def dotted (e : PE) : List Tok → Option (PE × List Tok)
  | .op o :: .name n :: ts => if Nat.beq o v!"." then dotted (.attr e n) ts else some (e, .op o :: .name n :: ts)
  | ts => some (e, ts)

/-- `a as b, c`, in brackets or not, in reverse. -/
def importNames : Nat → List PE → List Tok → Option (List PE × List Tok)
  | 0, _, _ => none
  | f + 1, acc, ts => match ts with
    | .name n :: ts => match dotted (.name n) ts with
      | some (e, .name a :: .name m :: ts) => if Nat.beq a v!"as" then importNames f (.pair e (.name m) :: acc) ts else none
      | some (e, ts) => importNames f (.pair e .missing :: acc) ts
      | none => none
    | .op o :: ts' => if Nat.beq o v!"," then importNames f acc ts' else some (acc.reverse, ts)
    | ts => some (acc.reverse, ts)

/-- The dots of a relative import. -/
def dots : List Tok → Nat → Nat × List Tok
  | .op o :: ts, n => if Nat.beq o v!"." then dots ts (n + 1) else (n, .op o :: ts)
  | ts, n => (n, ts)

/-- Parameters up to `)`, in reverse, and their annotations, in reverse. -/
def params : Nat → List PE → List PE → List Tok → Option (List PE × List PE × List Tok)
  | 0, _, _, _ => none
  | f + 1, acc, ans, ts => match ts with
    | .op o :: ts' =>
      if Nat.beq o v!")" then some (acc.reverse, ans, ts')
      else if Nat.beq o v!"," then params f acc ans ts'
      else if Nat.beq o v!"**" then match ts' with
        | .name n :: .op c :: ts => if Nat.beq c v!":" then match pe depth .expr ts with
            | some (a, ts) => params f (.kwargs n :: acc) (a :: ans) ts
            | none => none
          else params f (.kwargs n :: acc) ans (.op c :: ts)
        | _ => none
      else none
    | .name n :: .op c :: ts =>
      match (if Nat.beq c v!":" then match pe depth .expr ts with
          | some (a, ts) => some (a :: ans, ts)
          | none => none
        else some (ans, .op c :: ts)) with
      | some (ans, .op d :: ts) => if Nat.beq d v!"=" then match pe depth .expr ts with
          | some (e, ts) => params f (.kw n e :: acc) ans ts
          | none => none
        else params f (.name n :: acc) ans (.op d :: ts)
      | _ => none
    | _ => none

/-- What the parser of statements is asked for. -/
inductive SGoal
  /-- a statement; the result is one statement -/
  | stmt
  /-- statements up to the end of the indentation, in reverse -/
  | stmts (acc : List PS)
  /-- `:` and a block -/
  | block
  /-- what follows the block of an `if` -/
  | orelse
  /-- the `except` clauses, in reverse -/
  | handlers (acc : List PS)
  /-- decorators and a function, in reverse -/
  | decorated (acc : List PE)

/-- The end of a simple statement. -/
def endLine (s : PS) : List Tok → Option (List PS × List Tok)
  | .newline :: ts => some ([s], ts)
  | _ => none

def ps : Nat → SGoal → List Tok → Option (List PS × List Tok)
  | 0, _, _ => none
  | f + 1, g, ts => match g with
    | .stmts acc => match ts with
      | [] => some (acc.reverse, [])
      | .dedent :: ts => some (acc.reverse, ts)
      | ts => match ps f .stmt ts with
        | some ([s], ts) => ps f (.stmts (s :: acc)) ts
        | _ => none
    | .block => match ts with
      | .op o :: .newline :: .indent :: ts => if Nat.beq o v!":" then ps f (.stmts []) ts else none
      | _ => none
    | .orelse => match ts with
      | .name n :: ts' =>
        if Nat.beq n v!"else" then ps f .block ts'
        else if Nat.beq n v!"elif" then match pe depth .expr ts' with
          | some (c, ts) => match ps f .block ts with
            | some (a, ts) => match ps f .orelse ts with
              | some (b, ts) => some ([.ite c a b], ts)
              | none => none
            | none => none
          | none => none
        else some ([], ts)
      | ts => some ([], ts)
    | .handlers acc => match ts with
      | .name n :: ts' => if Nat.beq n v!"except" then match pe depth .expr ts' with
          | some (t, ts) =>
            let (n, ts) := match ts with
              | .name a :: .name n :: ts' => if Nat.beq a v!"as" then (PE.name n, ts') else (.missing, ts)
              | ts => (.missing, ts)
            match ps f .block ts with
            | some (b, ts) => ps f (.handlers (.handler t n b :: acc)) ts
            | none => none
          | none => none
        else if Nat.beq n v!"else" || Nat.beq n v!"finally" then none
        else some (acc.reverse, ts)
      | ts => some (acc.reverse, ts)
    | .decorated acc => match ts with
      | .op _ :: .name n :: .newline :: .op o :: ts => if Nat.beq o v!"@" then ps f (.decorated (.name n :: acc)) (.op o :: ts) else none
      | .op _ :: .name n :: .newline :: ts => match ps f .stmt ts with
        | some ([.def _ m p ans b], ts) => some ([.def (PE.name n :: acc).reverse m p ans b], ts)
        | _ => none
      | _ => none
    | .stmt => match ts with
      | .op o :: ts' =>
        if Nat.beq o v!"@" then ps f (.decorated []) (.op o :: ts')
        else match pe depth .tuple ts with
          | some (e, ts) => endLine (.expr e) ts
          | none => none
      | .name k :: ts' =>
        if Nat.beq k v!"if" then match pe depth .expr ts' with
          | some (c, ts) => match ps f .block ts with
            | some (a, ts) => match ps f .orelse ts with
              | some (b, ts) => some ([.ite c a b], ts)
              | none => none
            | none => none
          | none => none
        else if Nat.beq k v!"while" then match pe depth .expr ts' with
          | some (c, ts) => match ps f .block ts with
            | some (a, ts) => some ([.while c a], ts)
            | none => none
          | none => none
        else if Nat.beq k v!"for" then match pe depth (.level 4) ts' with
          | some (t, .op c :: ts) => if Nat.beq c v!"," then match pe depth (.level 4) ts with
              | some (t', .name n :: ts) => if Nat.beq n v!"in" then match pe depth .tuple ts with
                  | some (e, ts) => match ps f .block ts with
                    | some (b, ts) => some ([.for (.tuple [t, t']) e b], ts)
                    | none => none
                  | none => none
                else none
              | _ => none
            else none
          | some (t, .name n :: ts) => if Nat.beq n v!"in" then match pe depth .tuple ts with
              | some (e, ts) => match ps f .block ts with
                | some (b, ts) => some ([.for t e b], ts)
                | none => none
              | none => none
            else none
          | _ => none
        else if Nat.beq k v!"try" then match ps f .block ts' with
          | some (b, ts) => match ps f (.handlers []) ts with
            | some (hs, ts) => some ([.try b hs], ts)
            | none => none
          | none => none
        else if Nat.beq k v!"def" then match ts' with
          | .name n :: .op o :: ts => if Nat.beq o v!"(" then match params depth [] [] ts with
              | some (p, ans, ts) =>
                match (match ts with
                  | .op a :: ts' => if Nat.beq a v!"->" then match pe depth .expr ts' with
                      | some (r, ts) => some (r :: ans, ts)
                      | none => none
                    else some (ans, ts)
                  | _ => none) with
                | some (ans, ts) => match ps f .block ts with
                  | some (b, ts) => some ([.def [] n p ans.reverse b], ts)
                  | none => none
                | none => none
              | none => none
            else none
          | _ => none
        else if Nat.beq k v!"class" then match ts' with
          | .name n :: .op o :: ts =>
            match (if Nat.beq o v!"(" then match pe depth (.args []) ts with
                | some (.list bs, ts) => some (bs, ts)
                | _ => none
              else some ([], .op o :: ts)) with
            | some (bs, ts) => match ps f .block ts with
              | some (b, ts) => some ([.cls n bs b], ts)
              | none => none
            | none => none
          | _ => none
        else if Nat.beq k v!"return" then match ts' with
          | .newline :: ts => some ([.ret .missing], ts)
          | ts => match pe depth .tuple ts with
            | some (e, ts) => endLine (.ret e) ts
            | none => none
        else if Nat.beq k v!"raise" then match pe depth .expr ts' with
          | some (e, .name a :: ts) => if Nat.beq a v!"from" then match pe depth .expr ts with
              | some (c, ts) => endLine (.raise e c) ts
              | none => none
            else none
          | some (e, ts) => endLine (.raise e .missing) ts
          | none => none
        else if Nat.beq k v!"assert" then match pe depth .expr ts' with
          | some (e, ts) => endLine (.assert e) ts
          | none => none
        else if Nat.beq k v!"pass" then endLine .pass ts'
        else if Nat.beq k v!"import" then match importNames depth [] ts' with
          | some (ns, ts) => endLine (.import ns) ts
          | none => none
        else if Nat.beq k v!"from" then match dots ts' 0 with
          | (l, .name n :: ts) =>
            match (if Nat.beq n v!"import" then some (PE.missing, .name n :: ts) else dotted (.name n) ts) with
            | some (m, .name _ :: .op o :: ts) => if Nat.beq o v!"(" then match importNames depth [] ts with
                | some (ns, .op _ :: ts) => endLine (.from l m ns) ts
                | _ => none
              else none
            | some (m, .name _ :: ts) => match importNames depth [] ts with
              | some (ns, ts) => endLine (.from l m ns) ts
              | none => none
            | _ => none
          | _ => none
        else match pe depth .tuple ts with
          | some (t, .op o :: ts) =>
            if Nat.beq o v!"=" then match pe depth .tuple ts with
              | some (e, ts) => endLine (.assign t e) ts
              | none => none
            else if Nat.beq o v!":" then match pe depth .expr ts with
              | some (ty, .op q :: ts) => if Nat.beq q v!"=" then match pe depth .tuple ts with
                  | some (e, ts) => endLine (.ann t ty e) ts
                  | none => none
                else none
              | some (ty, ts) => endLine (.ann t ty .missing) ts
              | none => none
            else match augOp o with
              | some op => match pe depth .tuple ts with
                | some (e, ts) => endLine (.aug t op e) ts
                | none => none
              | none => none
          | some (e, ts) => endLine (.expr e) ts
          | none => none
      | ts => match pe depth .tuple ts with
        | some (e, ts) => endLine (.expr e) ts
        | none => none

/-- The tree of the text of a module. -/
def parseModule (s : List Nat) : Option (List PS) := do
  let (b, r) ← ps depth (.stmts []) (← lex s)
  match r with
  | [] => some b
  | _ => none

end Bip38.Py
