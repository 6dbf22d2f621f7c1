import Verif.Src.Builtin
import Verif.Src.Attr
/-!
# Equations of the semantics
-/
namespace Bip38.Src

open Run

/-- Evaluate: simplify with the equations of the semantics and the given ones.  (The kernel replays the equations one by one; it does
not have to evaluate terms by itself.) -/
syntax "ev" "[" (Lean.Parser.Tactic.simpErase <|> Lean.Parser.Tactic.simpLemma),* "]" : tactic
macro_rules
  | `(tactic| ev [$args,*]) => `(tactic| try simp -implicitDefEqProofs only [src, $args,*])

theorem run_pure_bind {α β : Type} (a : α) (f : α → Run β) : (pure a : Run α) >>= f = f a := rfl

theorem run_bind_pure {α : Type} (x : Run α) : x >>= pure = x := by
  rcases x with _ | (_ | _) <;> rfl

theorem run_assoc {α β γ : Type} (x : Run α) (f : α → Run β) (g : β → Run γ) :
    x >>= f >>= g = x >>= fun a => f a >>= g := by
  rcases x with _ | (_ | _) <;> rfl

theorem raise_bind {α β : Type} (c : ExcClass) (m : String) (f : α → Run β) : (Run.raise c m : Run α) >>= f = Run.raise c m := rfl

theorem stuck_bind {α β : Type} (f : α → Run β) : (Run.stuck : Run α) >>= f = Run.stuck := rfl

theorem ofPy_ok {α : Type} (a : α) : Run.ofPy (.ok a : Py α) = pure a := rfl

theorem ofPy_pure {α : Type} (a : α) : Run.ofPy (pure a : Py α) = pure a := rfl

theorem ofPy_raise {α : Type} (c : ExcClass) (m : String) : Run.ofPy (Bip38.raise c m : Py α) = Run.raise c m := rfl

theorem ofPy_error {α : Type} (e : Exc) : Run.ofPy (.error e : Py α) = Run.raise e.cls e.msg := rfl

theorem ofPy_bind {α β : Type} (x : Py α) (f : α → Py β) : Run.ofPy (x >>= f) = Run.ofPy x >>= fun a => Run.ofPy (f a) := by
  cases x <;> rfl

/-- Step through a computation that both sides begin with. -/
theorem step {α β : Type} {x : Py α} {f : α → Run β} {g : α → Run β} (h : ∀ a, x = .ok a → f a = g a) :
    Run.ofPy x >>= f = Run.ofPy x >>= g := by
  cases x with
  | error e => rfl
  | ok a => exact h a rfl

theorem ite_bind {α β : Type} (c : Prop) [Decidable c] (x y : Run α) (f : α → Run β) :
    (if c then x else y) >>= f = if c then x >>= f else y >>= f := by
  split <;> rfl

theorem ofPy_ite {α : Type} (c : Prop) [Decidable c] (x y : Py α) :
    Run.ofPy (if c then x else y) = if c then Run.ofPy x else Run.ofPy y := by
  split <;> rfl

theorem ofPy_raiseIf {β : Type} (c : Prop) [Decidable c] (k : ExcClass) (m : String) (f : Unit → Run β) :
    Run.ofPy (raiseIf c k m) >>= f = if c then Run.raise k m else f () := by
  unfold raiseIf
  split <;> rfl

attribute [src] run_pure_bind run_assoc raise_bind stuck_bind ofPy_ok ofPy_pure ofPy_raise

/-! ### Environments -/

@[src] theorem env_set (env : Env) (n m : Name) (v : Val) : env.set n v m = if m = n then some v else env m := rfl

@[src] theorem env_empty (m : Name) : Env.empty m = none := rfl

theorem env_set_set (env : Env) (n : Name) (v w : Val) : (env.set n v).set n w = env.set n w := by
  funext m
  simp only [env_set]
  split <;> rfl

theorem env_set_comm (env : Env) {n m : Name} (h : n ≠ m) (v w : Val) : (env.set n v).set m w = (env.set m w).set n v := by
  funext k
  simp only [env_set]
  by_cases h1 : k = m <;> by_cases h2 : k = n <;> simp_all

attribute [src] env_set_set

/-! ### Expressions -/

section
variable (env : Env)

@[src] theorem x_const (v : Val) : eConst v env = pure v := rfl
@[src] theorem x_global (r : Run Val) : eGlobal r env = r := rfl
@[src] theorem x_name (n : Name) : eName n env = match env n with | some v => pure v | none => .stuck := rfl
@[src] theorem x_attr (e : Expr) (n : Name) : eAttr e n env = e env >>= fun v => pyAttr v n := rfl
@[src] theorem x_index (e i : Expr) : eIndex e i env = e env >>= fun v => i env >>= fun w => pySubscript v w := rfl
@[src] theorem x_slice (e : Expr) (lo hi : Option Expr) :
    eSlice e lo hi env = e env >>= fun v => evalBound lo env >>= fun lo => evalBound hi env >>= fun hi => sliceVal v lo hi := rfl
@[src] theorem x_bound_none : evalBound none env = pure none := rfl
/-- The value of a bound. -/
def boundVal : Val → Run (Option Int)
  | .int i => pure (some i)
  | .none => pure none
  | _ => .stuck
@[src] theorem x_bound_some (e : Expr) : evalBound (some e) env = e env >>= boundVal := rfl
@[src] theorem boundVal_int (i : Int) : boundVal (.int i) = pure (some i) := rfl
@[src] theorem x_reverse (e : Expr) : eReverse e env = e env >>= reverseVal := rfl
@[src] theorem x_list_nil : evalList [] env = pure [] := rfl
@[src] theorem x_list_cons (e : Expr) (es : List Expr) :
    evalList (e :: es) env = e env >>= fun v => evalList es env >>= fun vs => pure (v :: vs) := rfl
@[src] theorem x_kw_nil {κ : Type} : evalKw ([] : List (κ × Expr)) env = pure [] := rfl
@[src] theorem x_kw_cons {κ : Type} (n : κ) (e : Expr) (es : List (κ × Expr)) :
    evalKw ((n, e) :: es) env = e env >>= fun v => evalKw es env >>= fun vs => pure ((n, v) :: vs) := rfl
@[src] theorem x_list (es : List Expr) : eList es env = evalList es env >>= fun vs => pure (.list vs) := rfl
@[src] theorem x_tuple (es : List Expr) : eTuple es env = evalList es env >>= fun vs => pure (.tuple vs) := rfl
@[src] theorem x_dict (es : List (String × Expr)) :
    eDict es env = evalKw es env >>= fun vs => pure (.dict (vs.map fun p => (p.1.toList, p.2))) := rfl
@[src] theorem x_call (f : Fn) (args : List Expr) (kw : List (Name × Expr)) :
    eCall f args kw env = evalList args env >>= fun a => evalKw kw env >>= fun k => f a k := rfl
/-- The call of a method, after the evaluation of receiver and arguments. -/
def callMethod (table : List (Cls × Fn)) (builtin : Val → Fn) (v : Val) (a : List Val) (k : List (Name × Val)) : Run Val :=
  match v with
  | .obj c _ => match table.find? (fun p => p.1 = c) with
    | some p => p.2 (v :: a) k
    | none => .stuck
  | _ => builtin v a k
@[src] theorem x_method (table : List (Cls × Fn)) (builtin : Val → Fn) (e : Expr) (args : List Expr) (kw : List (Name × Expr)) :
    eMethod table builtin e args kw env
      = e env >>= fun v => evalList args env >>= fun a => evalKw kw env >>= fun k => callMethod table builtin v a k := rfl
/-- A binary operation, after the evaluation of the operands. -/
def callBin (table rtable : List (Cls × Fn)) (op : BinOp) (v w : Val) : Run Val :=
  match v, w with
  | .obj c _, _ => match table.find? (fun p => p.1 = c) with
    | some p => p.2 [v, w] []
    | none => .stuck
  | _, .obj c _ => match rtable.find? (fun p => p.1 = c) with
    | some p => p.2 [w, v] []
    | none => .stuck
  | _, _ => op.apply v w
@[src] theorem x_bin (table rtable : List (Cls × Fn)) (op : BinOp) (a b : Expr) :
    eBin table rtable op a b env = a env >>= fun v => b env >>= fun w => callBin table rtable op v w := rfl
@[src] theorem x_not (e : Expr) : eNot e env = e env >>= fun v => pure (.bool (!truthy v)) := rfl
/-- `-v` -/
def negVal : Val → Run Val
  | .int n => pure (.int (-n))
  | _ => .stuck
@[src] theorem x_neg (e : Expr) : eNeg e env = e env >>= negVal := rfl
@[src] theorem negVal_int (n : Int) : negVal (.int n) = pure (.int (-n)) := rfl
/-- `~v` -/
def invertVal : Val → Run Val
  | .int n => pure (.int n.lnot)
  | _ => .stuck
@[src] theorem x_invert (e : Expr) : eInvert e env = e env >>= invertVal := rfl
@[src] theorem invertVal_int (n : Int) : invertVal (.int n) = pure (.int n.lnot) := rfl
@[src] theorem x_and (a b : Expr) : eAnd a b env = a env >>= fun v => if truthy v then b env else pure v := rfl
@[src] theorem x_or (a b : Expr) : eOr a b env = a env >>= fun v => if truthy v then pure v else b env := rfl
@[src] theorem x_if (c a b : Expr) : eIf c a b env = c env >>= fun v => if truthy v then a env else b env := rfl
@[src] theorem x_compare (e : Expr) (rest : List (CmpOp × Expr)) :
    eCompare e rest env = e env >>= fun v => compareRest v rest env >>= fun b => pure (.bool b) := rfl
@[src] theorem x_compare_one (v : Val) (op : CmpOp) (e : Expr) :
    compareRest v [(op, e)] env = e env >>= fun w => op.apply v w := by
  simp only [compareRest]
  congr 1
  funext w
  rcases op.apply v w with _ | (_ | (_ | _)) <;> rfl
@[src] theorem x_compare_cons (v : Val) (op : CmpOp) (e : Expr) (r : CmpOp × Expr) (rest : List (CmpOp × Expr)) :
    compareRest v ((op, e) :: r :: rest) env
      = e env >>= fun w => op.apply v w >>= fun b => if b then compareRest w (r :: rest) env else pure false := rfl
@[src] theorem x_format (parts : List Part) : eFormat parts env = formatParts parts env >>= fun s => pure (.str s) := rfl
@[src] theorem x_parts_nil : formatParts [] env = pure [] := rfl
@[src] theorem x_parts_lit (s : String) (rest : List Part) :
    formatParts (.lit s :: rest) env = formatParts rest env >>= fun t => pure (s.toList ++ t) := rfl
@[src] theorem x_parts_val (e : Expr) (rest : List Part) :
    formatParts (.val e :: rest) env = e env >>= fun v => format v >>= fun s => formatParts rest env >>= fun t => pure (s ++ t) := rfl
@[src] theorem x_comprehension (e : Expr) (n : Name) (i : Expr) :
    eComprehension e n i env = i env >>= fun v => iterate v >>= fun vs => forEach n e env vs >>= fun l => pure (.list l) := rfl
@[src] theorem x_callStar (f : Fn) (e : Expr) : eCallStar f e env = e env >>= fun v => iterate v >>= fun vs => f vs [] := rfl
/-- `kwargs.get`, after the evaluation. -/
def kwargsGet (n : Name) (v d : Val) : Run Val :=
  match v with
  | .kwargs l => pure ((getField l n).getD d)
  | _ => .stuck
@[src] theorem x_kwargsGet (e : Expr) (n : Name) (default : Expr) :
    eKwargsGet e n default env = e env >>= fun v => default env >>= fun d => kwargsGet n v d := rfl
@[src] theorem kwargsGet_kwargs (n : Name) (l : List (Name × Val)) (d : Val) :
    kwargsGet n (.kwargs l) d = pure ((getField l n).getD d) := rfl

/-! ### Statements -/

@[src] theorem x_assign (t : Target) (e : Expr) :
    sAssign t e env = e env >>= fun v => t.assign v env >>= fun env => pure (.next env) := rfl
@[src] theorem x_target_name (n : Name) (v : Val) : (Target.name n).assign v env = pure (env.set n v) := rfl
/-- Assign an attribute of a value. -/
def assignAttr (env : Env) (n f : Name) (v : Val) : Option Val → Run Env
  | some (.obj c fields) => pure (env.set n (.obj c (setField fields f v)))
  | _ => .stuck
@[src] theorem x_target_attr (n f : Name) (v : Val) : (Target.attr n f).assign v env = assignAttr env n f v (env n) := rfl
@[src] theorem assignAttr_obj (n f : Name) (v : Val) (c : Cls) (fields : List (Name × Val)) :
    assignAttr env n f v (some (.obj c fields)) = pure (env.set n (.obj c (setField fields f v))) := rfl
@[src] theorem x_assignAll_nil : assignAll [] [] env = pure env := rfl
@[src] theorem x_assignAll_cons (t : Target) (ts : List Target) (v : Val) (vs : List Val) :
    assignAll (t :: ts) (v :: vs) env = t.assign v env >>= fun env => assignAll ts vs env := rfl
@[src] theorem x_unpack (ts : List Target) (e : Expr) :
    sUnpack ts e env = e env >>= fun v => iterate v >>= fun vs => assignAll ts vs env >>= fun env => pure (.next env) := rfl
@[src] theorem x_expr (e : Expr) : sExpr e env = e env >>= fun _ => pure (.next env) := rfl
/-- Change the value of a variable. -/
def mutateVal (env : Env) (n : Name) (m : Val → List Val → Run Val) (a : List Val) : Option Val → Run Outcome
  | some v => m v a >>= fun w => pure (.next (env.set n w))
  | none => .stuck
@[src] theorem x_mutate (n : Name) (m : Val → List Val → Run Val) (args : List Expr) :
    sMutate n m args env = evalList args env >>= fun a => mutateVal env n m a (env n) := rfl
@[src] theorem mutateVal_some (n : Name) (m : Val → List Val → Run Val) (a : List Val) (v : Val) :
    mutateVal env n m a (some v) = m v a >>= fun w => pure (.next (env.set n w)) := rfl
@[src] theorem x_pass : sPass env = pure (.next env) := rfl
@[src] theorem x_return (e : Expr) : sReturn e env = e env >>= fun v => pure (.ret v) := rfl
@[src] theorem x_assert (e : Expr) :
    sAssert e env = e env >>= fun v => if truthy v then pure (.next env) else .raise .assertionError "" := rfl
@[src] theorem x_raise (str : Fn) (e : Expr) : sRaise str e env = e env >>= raiseVal str := rfl
@[src] theorem x_sIf (c : Expr) (a b : List Stmt) :
    sIf c a b env = c env >>= fun v => if truthy v then block a env else block b env := rfl
@[src] theorem x_for (t : Name) (e : Expr) (body : List Stmt) :
    sFor t e body env = e env >>= fun v => iterate v >>= fun vs => forLoop [.name t] false body vs env := rfl
@[src] theorem x_forUnpack (ts : List Name) (e : Expr) (body : List Stmt) :
    sForUnpack ts e body env = e env >>= fun v => iterate v >>= fun vs => forLoop (ts.map .name) true body vs env := rfl

/-- The statements after one that ended in `r`. -/
def runRest (ss : List Stmt) : Outcome → Run Outcome
  | .next env => block ss env
  | .ret v => pure (.ret v)

theorem block_cons (s : Stmt) (ss : List Stmt) : block (s :: ss) env = s env >>= runRest ss := rfl
@[src] theorem block_nil : block [] env = pure (.next env) := rfl
@[src] theorem runRest_next (ss : List Stmt) : runRest ss (.next env) = block ss env := rfl
@[src] theorem runRest_ret (ss : List Stmt) (v : Val) : runRest ss (.ret v) = pure (.ret v) := rfl

end

@[src] theorem for_nil (ts : List Target) (u : Bool) (body : List Stmt) (env : Env) : forLoop ts u body [] env = pure (.next env) := rfl
/-- The remaining iterations. -/
def forRest (ts : List Target) (unpack : Bool) (body : List Stmt) (vs : List Val) : Outcome → Run Outcome
  | .next env => forLoop ts unpack body vs env
  | .ret w => pure (.ret w)
@[src] theorem forRest_next (ts : List Target) (u : Bool) (body : List Stmt) (vs : List Val) (env : Env) :
    forRest ts u body vs (.next env) = forLoop ts u body vs env := rfl
theorem for_cons (ts : List Target) (body : List Stmt) (v : Val) (vs : List Val) (env : Env) :
    forLoop ts false body (v :: vs) env
      = assignAll ts [v] env >>= fun env => block body env >>= forRest ts false body vs := rfl
theorem for_cons_unpack (ts : List Target) (body : List Stmt) (v : Val) (vs : List Val) (env : Env) :
    forLoop ts true body (v :: vs) env
      = iterate v >>= fun items => assignAll ts items env >>= fun env => block body env >>= forRest ts true body vs := rfl

/-- The remaining iterations of a `while` loop. -/
def whileRest (c : Expr) (body : List Stmt) : Outcome → Run Outcome
  | .next env => sWhile c body env
  | .ret w => pure (.ret w)
@[src] theorem whileRest_next (c : Expr) (body : List Stmt) (env : Env) : whileRest c body (.next env) = sWhile c body env := rfl
theorem while_eq (c : Expr) (body : List Stmt) (env : Env) :
    (sWhile c body env : Run Outcome)
      = c env >>= fun v => if truthy v then block body env >>= whileRest c body else pure (.next env) := by
  rw [sWhile]
  rcases c env with _ | (_ | v)
  · rfl
  · rfl
  · show _ = ite _ _ _
    simp only [Option.bind_eq_bind, Option.bind_some]
    by_cases h : truthy v = true
    · refine (if_pos h).trans (Eq.trans ?_ (if_pos h).symm)
      rcases block body env with _ | (_ | (_ | _)) <;> rfl
    · exact (if_neg h).trans (if_neg h).symm

/-- What `try` makes of the run of its body. -/
def tryRun (assigned : List Name) (handlers : List (List Catch × List Stmt)) (env : Env) (r : Run Outcome) : Run Outcome :=
  match r with
  | some (.error e) => handle e handlers (env.forget assigned)
  | r => r
@[src] theorem x_try (assigned : List Name) (body : List Stmt) (handlers : List (List Catch × List Stmt)) (env : Env) :
    sTry assigned body handlers env = tryRun assigned handlers env (block body env) := rfl
@[src] theorem try_pure (assigned : List Name) (handlers : List (List Catch × List Stmt)) (env : Env) (o : Outcome) :
    tryRun assigned handlers env (pure o) = pure o := rfl
@[src] theorem try_raise (assigned : List Name) (handlers : List (List Catch × List Stmt)) (env : Env) (c : ExcClass) (m : String) :
    tryRun assigned handlers env (.raise c m) = handle ⟨c, m⟩ handlers (env.forget assigned) := rfl
@[src] theorem handle_nil (e : Exc) (env : Env) : handle e [] env = .raise e.cls e.msg := rfl
@[src] theorem handle_cons (e : Exc) (cs : List Catch) (body : List Stmt) (rest : List (List Catch × List Stmt)) (env : Env) :
    handle e ((cs, body) :: rest) env = if cs.any (·.matches e.cls) then block body env else handle e rest env := rfl
@[src] theorem catch_value (c : ExcClass) : Catch.valueError.matches c = c.isValueError := rfl
@[src] theorem catch_type (c : ExcClass) : Catch.typeError.matches c = decide (c = .typeError) := rfl
@[src] theorem catch_attribute (c : ExcClass) : Catch.attributeError.matches c = decide (c = .attributeError) := rfl
@[src] theorem catch_only (d c : ExcClass) : (Catch.only d).matches c = decide (c = d) := rfl
@[src] theorem catch_malformed (c : ExcClass) : Catch.malformedPoint.matches c = decide (c = .other "MalformedPointError") := rfl
@[src] theorem forget_nil (env : Env) : env.forget [] = env := by
  funext m
  simp [Env.forget]
@[src] theorem forget_at (env : Env) (ns : List Name) (m : Name) : env.forget ns m = if m ∈ ns then none else env m := rfl
attribute [src] List.any_cons List.any_nil Bool.or_false Bool.false_or Bool.or_true Bool.true_or

/-! ### Functions -/

/-- The value of a function whose body ended in the outcome. -/
def finish : Outcome → Run Val
  | .ret v => pure v
  | .next _ => pure .none

@[src] theorem finish_ret (v : Val) : finish (.ret v) = pure v := rfl
@[src] theorem finish_next (env : Env) : finish (.next env) = pure .none := rfl

theorem defun_eq (ps : List Param) (rest : Option Name) (body : List Stmt) (args : List Val) (kw : List (Name × Val)) :
    defun ps rest body args kw = bindParams rest ps args kw .empty >>= fun env => block body env >>= finish := rfl

/-- The object made by a constructor whose body ended in the outcome. -/
def finishInit : Outcome → Run Val
  | .next env => match env v!"self" with
    | some v => pure v
    | none => .stuck
  | .ret _ => .stuck

@[src] theorem finishInit_next (env : Env) : finishInit (.next env) = match env v!"self" with | some v => pure v | none => .stuck := rfl

theorem defclass_eq (c : Cls) (ps : List Param) (body : List Stmt) (args : List Val) (kw : List (Name × Val)) :
    defclass c ps body args kw
      = bindParams none ps args kw (Env.empty.set v!"self" (.obj c [])) >>= fun env => block body env >>= finishInit := rfl

@[src] theorem bind_nil_none (env : Env) : bindParams none [] [] [] env = pure env := rfl
@[src] theorem bind_nil_some (n : Name) (kw : List (Name × Val)) (env : Env) :
    bindParams (some n) [] [] kw env = pure (env.set n (.kwargs kw)) := rfl
@[src] theorem bind_pos (r : Option Name) (n : Name) (d : Option (Run Val)) (ps : List Param) (a : Val) (as : List Val) (kw : List (Name × Val)) (env : Env) :
    bindParams r (⟨n, d⟩ :: ps) (a :: as) kw env = match getField kw n with
      | some _ => .raise .typeError "multiple values for argument"
      | none => bindParams r ps as kw (env.set n a) := rfl
@[src] theorem bind_kw (r : Option Name) (n : Name) (d : Option (Run Val)) (ps : List Param) (kw : List (Name × Val)) (env : Env) :
    bindParams r (⟨n, d⟩ :: ps) [] kw env = match getField kw n with
      | some v => bindParams r ps [] (eraseKw kw n) (env.set n v)
      | none => match d with
        | some d => d >>= fun d => bindParams r ps [] kw (env.set n d)
        | none => .raise .typeError "missing argument" := by
  cases d <;> rfl

@[src] theorem getField_nil (n : Name) : getField [] n = none := rfl
@[src] theorem getField_cons (m n : Name) (v : Val) (rest : List (Name × Val)) :
    getField ((m, v) :: rest) n = if m = n then some v else getField rest n := rfl
@[src] theorem setField_nil (n : Name) (v : Val) : setField [] n v = [(n, v)] := rfl
@[src] theorem setField_cons (m n : Name) (v w : Val) (rest : List (Name × Val)) :
    setField ((m, w) :: rest) n v = if m = n then (n, v) :: rest else (m, w) :: setField rest n v := rfl
@[src] theorem eraseKw_cons (m n : Name) (v : Val) (rest : List (Name × Val)) :
    eraseKw ((m, v) :: rest) n = if m = n then rest else (m, v) :: eraseKw rest n := rfl

/-! ### Values -/

attribute [src] Option.getD_some Option.getD_none List.append_nil
@[src] theorem t_none : truthy .none = false := rfl
@[src] theorem t_bool (b : Bool) : truthy (.bool b) = b := rfl
@[src] theorem t_int (n : Int) : truthy (.int n) = decide (n ≠ 0) := rfl
@[src] theorem t_str (s : Str) : truthy (.str s) = !s.isEmpty := rfl
@[src] theorem t_bytes (s : Bytes) : truthy (.bytes s) = !s.isEmpty := rfl
@[src] theorem ty_none : typeOf .none = .none := rfl
@[src] theorem ty_bool (b : Bool) : typeOf (.bool b) = .bool := rfl
@[src] theorem ty_int (b : Int) : typeOf (.int b) = .int := rfl
@[src] theorem ty_str (b : Str) : typeOf (.str b) = .str := rfl
@[src] theorem ty_bytes (b : Bytes) : typeOf (.bytes b) = .bytes := rfl
@[src] theorem ty_bytearray (b : Bytes) : typeOf (.bytearray b) = .bytearray := rfl
@[src] theorem ty_list (b : List Val) : typeOf (.list b) = .list := rfl
@[src] theorem ty_obj (c : Cls) (f : List (Name × Val)) : typeOf (.obj c f) = .cls c := rfl
@[src] theorem f_none : format .none = pure "None".toList := rfl
@[src] theorem f_int (n : Int) : format (.int n) = pure (toString n).toList := rfl
@[src] theorem f_str (s : Str) : format (.str s) = pure s := rfl
@[src] theorem f_bytes (b : Bytes) : format (.bytes b) = pure (bytesRepr b) := rfl
@[src] theorem f_type (t : Ty) : format (.type t) = t.text := rfl
@[src] theorem f_typing (s : Str) : format (.typing s) = pure s := rfl
@[src] theorem i_bytes (b : Bytes) : iterate (.bytes b) = pure (b.map fun c => .int c.toNat) := rfl
@[src] theorem i_list (l : List Val) : iterate (.list l) = pure l := rfl
@[src] theorem i_tuple (l : List Val) : iterate (.tuple l) = pure l := rfl
@[src] theorem rev_bytes (b : Bytes) : reverseVal (.bytes b) = pure (.bytes b.reverse) := rfl
@[src] theorem rev_bytearray (b : Bytes) : reverseVal (.bytearray b) = pure (.bytearray b.reverse) := rfl
@[src] theorem slice_bytes (b : Bytes) (lo hi : Option Int) : sliceVal (.bytes b) lo hi = pure (.bytes (pySlice b lo hi)) := rfl
@[src] theorem slice_str (b : Str) (lo hi : Option Int) : sliceVal (.str b) lo hi = pure (.str (pySlice b lo hi)) := rfl
@[src] theorem slice_list (b : List Val) (lo hi : Option Int) : sliceVal (.list b) lo hi = pure (.list (pySlice b lo hi)) := rfl
@[src] theorem attr_obj (c : Cls) (fields : List (Name × Val)) (n : Name) : pyAttr (.obj c fields) n = match getField fields n with
    | some w => pure w
    | none => .raise .attributeError "object has no such attribute" := rfl

@[src] theorem eq_int (a b : Int) : pyEq (.int a) (.int b) = pure (decide (a = b)) := rfl
@[src] theorem eq_str (a b : Str) : pyEq (.str a) (.str b) = pure (decide (a = b)) := rfl
@[src] theorem eq_bytes (a b : Bytes) : pyEq (.bytes a) (.bytes b) = pure (decide (a = b)) := rfl
@[src] theorem eq_type (a b : Ty) : pyEq (.type a) (.type b) = pure (decide (a = b)) := rfl
@[src] theorem cmp_eq (a b : Val) : CmpOp.eq.apply a b = pyEq a b := by cases a <;> cases b <;> rfl
@[src] theorem cmp_ne (a b : Val) : CmpOp.ne.apply a b = pyEq a b >>= fun x => pure (!x) := by cases a <;> cases b <;> rfl
@[src] theorem cmp_lt (a b : Int) : CmpOp.lt.apply (.int a) (.int b) = pure (decide (a < b)) := rfl
@[src] theorem cmp_le (a b : Int) : CmpOp.le.apply (.int a) (.int b) = pure (decide (a ≤ b)) := rfl
@[src] theorem cmp_gt (a b : Int) : CmpOp.gt.apply (.int a) (.int b) = pure (decide (b < a)) := rfl
@[src] theorem cmp_ge (a b : Int) : CmpOp.ge.apply (.int a) (.int b) = pure (decide (b ≤ a)) := rfl
@[src] theorem cmp_in (a b : Val) : CmpOp.in.apply a b = pyIn a b := by cases a <;> cases b <;> rfl
@[src] theorem cmp_notIn (a b : Val) : CmpOp.notIn.apply a b = pyIn a b >>= fun x => pure (!x) := by cases a <;> cases b <;> rfl
@[src] theorem in_list (a : Val) (l : List Val) : pyIn a (.list l) = memList a l := rfl
@[src] theorem cmp_isNone_none : CmpOp.isNone.apply .none .none = pure true := rfl
@[src] theorem cmp_isNone_int (n : Int) : CmpOp.isNone.apply (.int n) .none = pure false := rfl
@[src] theorem cmp_isNone_str (n : Str) : CmpOp.isNone.apply (.str n) .none = pure false := rfl

@[src] theorem b_add_int (t r) (a b : Int) : callBin t r .add (.int a) (.int b) = pure (.int (a + b)) := rfl
@[src] theorem b_add_str (t r) (a b : Str) : callBin t r .add (.str a) (.str b) = pure (.str (a ++ b)) := rfl
@[src] theorem b_add_bytes (t r) (a b : Bytes) : callBin t r .add (.bytes a) (.bytes b) = pure (.bytes (a ++ b)) := rfl
@[src] theorem b_add_list (t r) (a b : List Val) : callBin t r .add (.list a) (.list b) = pure (.list (a ++ b)) := rfl
@[src] theorem b_add_jacobi (t r) (a b : Pt) : callBin t r .add (.jacobi a) (.jacobi b) = pure (.jacobi (a.add b)) := rfl
@[src] theorem b_sub (t r) (a b : Int) : callBin t r .sub (.int a) (.int b) = pure (.int (a - b)) := rfl
@[src] theorem b_mul_int (t r) (a b : Int) : callBin t r .mul (.int a) (.int b) = pure (.int (a * b)) := rfl
@[src] theorem b_mul_str (t r) (a : Str) (n : Int) : callBin t r .mul (.str a) (.int n) = pure (.str (List.replicate n.toNat a).flatten) := rfl
@[src] theorem b_mul_bytes (t r) (a : Bytes) (n : Int) :
    callBin t r .mul (.bytes a) (.int n) = pure (.bytes (List.replicate n.toNat a).flatten) := rfl
@[src] theorem b_mul_jacobi (t r) (a : Pt) (k : Int) : callBin t r .mul (.jacobi a) (.int k) = pure (.jacobi (a.zmul k)) := rfl
@[src] theorem b_floordiv (t r) (a b : Int) : callBin t r .floordiv (.int a) (.int b)
    = if b = 0 then .raise (.other "ZeroDivisionError") "integer division or modulo by zero" else pure (.int (a.fdiv b)) := rfl
@[src] theorem b_mod (t r) (a b : Int) : callBin t r .mod (.int a) (.int b)
    = if b = 0 then .raise (.other "ZeroDivisionError") "integer division or modulo by zero" else pure (.int (a.fmod b)) := rfl
@[src] theorem b_pow (t r) (a b : Int) : callBin t r .pow (.int a) (.int b) = if 0 ≤ b then pure (.int (a ^ b.toNat)) else .stuck := rfl
@[src] theorem b_xor (t r) (a b : Int) : callBin t r .xor (.int a) (.int b) = pure (.int (a.xor b)) := rfl
@[src] theorem b_and (t r) (a b : Int) : callBin t r .and (.int a) (.int b) = pure (.int (a.land b)) := rfl
@[src] theorem b_or (t r) (a b : Int) : callBin t r .or (.int a) (.int b) = pure (.int (a.lor b)) := rfl
@[src] theorem b_shl (t r) (a b : Int) : callBin t r .shl (.int a) (.int b)
    = if 0 ≤ b then pure (.int (a <<< b)) else .raise .valueError "negative shift count" := rfl
@[src] theorem b_shr (t r) (a b : Int) : callBin t r .shr (.int a) (.int b)
    = if 0 ≤ b then pure (.int (a >>> b)) else .raise .valueError "negative shift count" := rfl

/-- A method of a built-in class. -/
@[src] theorem m_bytes (t) (f : Val → Fn) (b : Bytes) (a k) : callMethod t f (.bytes b) a k = f (.bytes b) a k := rfl
@[src] theorem m_bytearray (t) (f : Val → Fn) (b : Bytes) (a k) : callMethod t f (.bytearray b) a k = f (.bytearray b) a k := rfl
@[src] theorem m_str (t) (f : Val → Fn) (b : Str) (a k) : callMethod t f (.str b) a k = f (.str b) a k := rfl
@[src] theorem m_int (t) (f : Val → Fn) (b : Int) (a k) : callMethod t f (.int b) a k = f (.int b) a k := rfl
@[src] theorem m_none (t) (f : Val → Fn) (a k) : callMethod t f .none a k = f .none a k := rfl
@[src] theorem m_dict (t) (f : Val → Fn) (b) (a k) : callMethod t f (.dict b) a k = f (.dict b) a k := rfl
@[src] theorem m_hash (t) (f : Val → Fn) (b) (a k) : callMethod t f (.hash b) a k = f (.hash b) a k := rfl
@[src] theorem m_aes (t) (f : Val → Fn) (b) (a k) : callMethod t f (.aes b) a k = f (.aes b) a k := rfl
@[src] theorem m_jacobi (t) (f : Val → Fn) (b) (a k) : callMethod t f (.jacobi b) a k = f (.jacobi b) a k := rfl
@[src] theorem m_vk (t) (f : Val → Fn) (b) (a k) : callMethod t f (.verifyingKey b) a k = f (.verifyingKey b) a k := rfl
@[src] theorem m_sk (t) (f : Val → Fn) (b) (a k) : callMethod t f (.signingKey b) a k = f (.signingKey b) a k := rfl

attribute [src] if_true if_false reduceIte Nat.reduceEqDiff Int.reduceLE Int.reduceLT Int.reduceEq Int.reduceToNat decide_true decide_false Bool.not_true Bool.not_false decide_eq_true_eq Bool.not_not reduceCtorEq
  Bool.false_eq_true

@[src] theorem len_bytes (b : Bytes) : pyLen [.bytes b] [] = pure (.int b.length) := rfl
@[src] theorem len_str (b : Str) : pyLen [.str b] [] = pure (.int b.length) := rfl
@[src] theorem isinstance_type (v : Val) (t : Ty) : pyIsinstance [v, .type t] [] = pure (.bool (typeOf v = t)) := rfl
@[src] theorem isinstance_tuple (v : Val) (ts : List Val) :
    pyIsinstance [v, .tuple ts] [] = pure (.bool (ts.any fun | .type t => typeOf v = t | _ => false)) := rfl
@[src] theorem type_eq (v : Val) : pyType [v] [] = pure (.type (typeOf v)) := rfl
@[src] theorem fromhex_str (s : Str) : pyFromhex [.str s] [] = match fromHex s with
      | some b => pure (.bytes b)
      | none => .raise .valueError "non-hexadecimal number found in fromhex() arg" := rfl
@[src] theorem fromhex_bytes (b : Bytes) : pyFromhex [.bytes b] [] = .raise .typeError "fromhex() argument must be str" := rfl
@[src] theorem fromhex_bytearray (b : Bytes) : pyFromhex [.bytearray b] [] = .raise .typeError "fromhex() argument must be str" := rfl

@[src] theorem find_eq (b : Bytes) (c : UInt8) : mFind (.bytes b) [.int c.toNat] [] = pure (.int (bytesFind b c)) := by
  have h := c.toNat_lt
  have h2 : ((c.toNat : Nat) : Int) < 256 := by omega
  simp only [mFind, Int.natCast_nonneg, h2, true_and, if_true, Int.toNat_natCast, UInt8.ofNat_toNat]
@[src] theorem encode_eq (s : Str) : mEncode (.str s) [.str "utf-8".toList] [] = pure (.bytes (utf8 s)) := rfl
@[src] theorem bytes_ascii (s : Str) : pyBytes [.str s, .str "ascii".toList] [] = ofPy (asciiBytes s) >>= fun b => pure (.bytes b) := rfl
@[src] theorem bytes_utf8 (s : Str) : pyBytes [.str s, .str "utf-8".toList] [] = pure (.bytes (utf8 s)) := rfl
@[src] theorem bytes_bytearray (b : Bytes) : pyBytes [.bytearray b] [] = pure (.bytes b) := rfl
@[src] theorem bytearray_nil : pyBytearray [] [] = pure (.bytearray []) := rfl
theorem bytearray_int (n : Nat) : pyBytearray [.int n] [] = pure (.bytearray (List.replicate n 0)) := by
  simp only [pyBytearray, Int.natCast_nonneg, if_true, Int.toNat_natCast]
theorem append_nat (b : Bytes) {n : Nat} (h : n < 256) : uAppend (.bytearray b) [.int n] = pure (.bytearray (b ++ [UInt8.ofNat n])) := by
  have h2 : (n : Int) < 256 := by omega
  simp only [uAppend, Int.natCast_nonneg, h2, true_and, if_true, Int.toNat_natCast]
@[src] theorem extend_eq (b c : Bytes) : uExtend (.bytearray b) [.bytearray c] = pure (.bytearray (b ++ c)) := rfl
theorem divmod_nat (a b : Nat) (h : b ≠ 0) : pyDivmod [.int a, .int b] [] = pure (.tuple [.int (a / b : Nat), .int (a % b : Nat)]) := by
  have h2 : (b : Int) ≠ 0 := by omega
  simp only [pyDivmod, h2, if_false]
  rw [Int.fdiv_eq_ediv_of_nonneg _ (by omega), Int.fmod_eq_emod_of_nonneg _ (by omega)]
  rfl
theorem index_str (s : Str) {n : Nat} (h : n < s.length) (d : Char) : pySubscript (.str s) (.int n) = pure (.str [s.getD n d]) := by
  have h2 : (n : Int) < s.length := by omega
  simp only [pySubscript, pyIndex, Int.natCast_nonneg, h2, if_true, Int.toNat_natCast, Option.bind_some, List.getElem?_eq_getElem h,
    List.getD_eq_getElem?_getD, Option.getD_some]
@[src] theorem lstrip_eq (b c : Bytes) : mLstrip (.bytes b) [.bytes c] [] = pure (.bytes (b.dropWhile (· ∈ c))) := rfl
@[src] theorem sha256_eq (H : Host) (b : Bytes) : xSha256 H [.bytes b] [] = pure (.hash (H.P.sha256 b)) := rfl
@[src] theorem digest_eq (b : Bytes) : mDigest (.hash b) [] [] = pure (.bytes b) := rfl

/-- `l[:n]` -/
theorem slice_to {α : Type} (l : List α) (n : Nat) : pySlice l none (some n) = l.take n := by
  simp only [pySlice, sliceBound, Int.natCast_nonneg, if_true, Int.toNat_natCast, List.drop_zero]
  rcases Nat.le_total n l.length with h | h
  · rw [Nat.min_eq_left h]
  · rw [Nat.min_eq_right h, List.take_of_length_le (le_refl _), List.take_of_length_le h]
/-- `l[a:b]` -/
theorem slice_nat {α : Type} (l : List α) (a b : Nat) : pySlice l (some a) (some b) = slice a b l := by
  simp only [pySlice, sliceBound, Int.natCast_nonneg, if_true, Int.toNat_natCast, slice]
  rcases Nat.le_total b l.length with h | h
  · rw [Nat.min_eq_left h]
    rcases Nat.le_total a l.length with h' | h'
    · rw [Nat.min_eq_left h']
    · rw [Nat.min_eq_right h', List.drop_eq_nil_of_le (by simp; omega), List.drop_eq_nil_of_le (by simp; omega)]
  · rw [Nat.min_eq_right h, List.take_of_length_le (le_refl _), List.take_of_length_le h]
    rcases Nat.le_total a l.length with h' | h'
    · rw [Nat.min_eq_left h']
    · rw [Nat.min_eq_right h', List.drop_eq_nil_of_le (by simp), List.drop_eq_nil_of_le h']
/-- `l[a:]` -/
theorem slice_from {α : Type} (l : List α) (a : Nat) : pySlice l (some a) none = l.drop a := by
  simp only [pySlice, sliceBound, Int.natCast_nonneg, if_true, Int.toNat_natCast, List.take_length]
  rcases Nat.le_total a l.length with h' | h'
  · rw [Nat.min_eq_left h']
  · rw [Nat.min_eq_right h', List.drop_eq_nil_of_le (by simp), List.drop_eq_nil_of_le h']
/-- `l[:-n]` -/
theorem slice_dropLast {α : Type} (l : List α) (n : Nat) (hn : 0 < n) : pySlice l none (some (-(n : Int))) = dropLastN n l := by
  have h : ¬ (0 : Int) ≤ -(n : Int) := by omega
  have e : (-(n : Int) + l.length).toNat = l.length - n := by omega
  simp only [pySlice, sliceBound, h, if_false, e, List.drop_zero, dropLastN]
/-- `l[-n:]` -/
theorem slice_last {α : Type} (l : List α) (n : Nat) (hn : 0 < n) : pySlice l (some (-(n : Int))) none = lastN n l := by
  have h : ¬ (0 : Int) ≤ -(n : Int) := by omega
  have e : (-(n : Int) + l.length).toNat = l.length - n := by omega
  simp only [pySlice, sliceBound, h, if_false, e, List.take_length, lastN]

/-- An exception of Python raised by the repository. -/
theorem raise_py (str : Fn) (c : ExcClass) (h : c.isBip38Error = false) (s : Str) :
    raiseVal str (.obj (.exc c) [(v!"message", .str s)]) = .raise c (String.ofList s) := by
  unfold raiseVal
  simp only [h]
  rfl

theorem exception_eq (c : ExcClass) (s : Str) : pyException c [.str s] [] = pure (.obj (.exc c) [(v!"message", .str s)]) := rfl

end Bip38.Src
