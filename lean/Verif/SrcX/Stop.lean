import Verif.SrcX.SimText
import Verif.Src.EqUtils
import Verif.Spec.Ends
/-!
# What becomes of a fault of an external function

As `Verif/SrcX/Sim.lean`, for a statement that also speaks of exceptions the repository catches: after a call that raises no other external
call is made and no value is returned.
-/
namespace Bip38.SrcX

open Bip38.Src

variable {α β : Type}

/-- Which faults are spoken of, and what exception the caller may get for one. -/
structure Tr where
  passed : Call → Exc → Prop
  becomes : Call → Exc → Exc → Prop
  self : ∀ c e, becomes c e e

variable {T : Tr}

/-- See `Spec/Faults.lean`. -/
def St (T : Tr) (x : Run α) (y : Src.Run α) : Prop := Ends T.passed T.becomes x y

theorem st_lift (r : Src.Run α) : St T (lift r) r := by
  intro F log
  refine .inl ⟨[], quiet_nil _ _, ?_⟩
  simp [lift]

theorem st_pure (a : α) : St T (pure a : Run α) (pure a) := st_lift (pure a)

theorem st_stuck : St T (Run.stuck : Run α) Src.Run.stuck := st_lift Src.Run.stuck

theorem st_raise (c : ExcClass) (s : String) : St T (Run.raise c s : Run α) (Src.Run.raise c s) := st_lift (Src.Run.raise c s)

theorem st_ask (c : Call) (r : Src.Run α) : St T (ask c r) r := by
  intro F log
  cases hF : F log.length c with
  | some e => exact .inr ⟨[], c, e, quiet_nil _ _, hF, fun _ => ⟨e, T.self c e, by simp [ask, hF]⟩⟩
  | none =>
    refine .inl ⟨[c], ?_, ?_⟩
    · intro i d h
      cases i with
      | zero =>
        cases h
        exact hF
      | succ i => simp at h
    · simp only [ask, hF]

theorem st_bind {x : Run α} {y : Src.Run α} {f : α → Run β} {g : α → Src.Run β} (hx : St T x y) (hf : ∀ a, St T (f a) (g a)) :
    St T (x >>= f) (y >>= g) := by
  intro F log
  change (∃ done, _ ∧ Run.bind x f F log = lift (Src.Run.bind y g) _ _) ∨
    ∃ done c e, _ ∧ _ ∧ (_ → ∃ e', _ ∧ Run.bind x f F log = _)
  rcases hx F log with ⟨done, hq, h⟩ | ⟨done, c, e, hq, hF, h⟩
  · unfold Run.bind Src.Run.bind
    rw [h]
    rcases y with _ | (e | a)
    · exact .inl ⟨done, hq, rfl⟩
    · exact .inl ⟨done, hq, rfl⟩
    · rcases hf a F (log ++ done) with ⟨done', hq', h'⟩ | ⟨done', c, e, hq', hF, h'⟩
      · refine .inl ⟨done ++ done', quiet_append hq ?_, ?_⟩
        · rwa [List.length_append] at hq'
        · simp only [lift, List.append_assoc] at h' ⊢
          exact h'
      · refine .inr ⟨done ++ done', c, e, quiet_append hq ?_, ?_, fun hk => ?_⟩
        · rwa [List.length_append] at hq'
        · rw [List.length_append] at hF ⊢
          rwa [← Nat.add_assoc]
        · obtain ⟨e', ht, he⟩ := h' hk
          refine ⟨e', ht, ?_⟩
          simp only [lift, List.append_assoc] at he ⊢
          exact he
  · refine .inr ⟨done, c, e, hq, hF, fun hk => ?_⟩
    obtain ⟨e', ht, he⟩ := h hk
    refine ⟨e', ht, ?_⟩
    unfold Run.bind
    rw [he]

/-- The same, with a property of the value in between. -/
theorem st_bind_post {x : Run α} {y : Src.Run α} {f : α → Run β} {g : α → Src.Run β} (Q : α → Prop) (hx : St T x y)
    (hQ : ∀ F log a log', x F log = some (.ok a, log') → Q a) (hf : ∀ a, Q a → St T (f a) (g a)) : St T (x >>= f) (y >>= g) := by
  intro F log
  change (∃ done, _ ∧ Run.bind x f F log = lift (Src.Run.bind y g) _ _) ∨
    ∃ done c e, _ ∧ _ ∧ (_ → ∃ e', _ ∧ Run.bind x f F log = _)
  rcases hx F log with ⟨done, hq, h⟩ | ⟨done, c, e, hq, hF, h⟩
  · unfold Run.bind Src.Run.bind
    rw [h]
    rcases y with _ | (e | a)
    · exact .inl ⟨done, hq, rfl⟩
    · exact .inl ⟨done, hq, rfl⟩
    · rcases hf a (hQ F log a _ h) F (log ++ done) with ⟨done', hq', h'⟩ | ⟨done', c, e, hq', hF, h'⟩
      · refine .inl ⟨done ++ done', quiet_append hq ?_, ?_⟩
        · rwa [List.length_append] at hq'
        · simp only [lift, List.append_assoc] at h' ⊢
          exact h'
      · refine .inr ⟨done ++ done', c, e, quiet_append hq ?_, ?_, fun hk => ?_⟩
        · rwa [List.length_append] at hq'
        · rw [List.length_append] at hF ⊢
          rwa [← Nat.add_assoc]
        · obtain ⟨e', ht, he⟩ := h' hk
          refine ⟨e', ht, ?_⟩
          simp only [lift, List.append_assoc] at he ⊢
          exact he
  · refine .inr ⟨done, c, e, hq, hF, fun hk => ?_⟩
    obtain ⟨e', ht, he⟩ := h hk
    refine ⟨e', ht, ?_⟩
    unfold Run.bind
    rw [he]

theorem st_ite {c : Prop} [Decidable c] {x x' : Run α} {y y' : Src.Run α} (h : St T x y) (h' : St T x' y') :
    St T (if c then x else x') (if c then y else y') := by
  split
  · exact h
  · exact h'

theorem st_silent {n : Kind → Nat} {x : Run α} {y : Src.Run α} (h : Sim n anything x y) (hn : ∀ k, n k = 0) : St T x y := by
  rw [silent h hn]
  exact st_lift y

/-! ### Expressions -/

/-- What is known of the variables during a function: these hold no `Point`. -/
abbrev Inv := List Name

/-- The variables hold no `Point`. -/
def Inv.holds (I : Inv) (env : Env) : Prop := ∀ a ∈ I, ∀ f, env a ≠ some (.obj .Point f)

theorem holds_empty (I : Inv) : I.holds Env.empty := fun _ _ _ h => nomatch h

theorem holds_forget {I : Inv} {env : Env} (h : I.holds env) (l : List Name) : I.holds (env.forget l) := by
  intro a ha f hf
  unfold Env.forget at hf
  split at hf
  · cases hf
  · exact h a ha f hf

theorem holds_set {I : Inv} {env : Env} (h : I.holds env) (a : Name) (v : Val) (hv : a ∈ I → ∀ f, v ≠ .obj .Point f) : I.holds (env.set a v) := by
  intro b hb f hf
  unfold Env.set at hf
  split at hf
  · rename_i hab
    rw [hab] at hb
    cases hf
    exact hv hb f rfl
  · exact h b hb f hf

/-- The target is none of these variables. -/
def _root_.Bip38.Src.Target.free (I : Inv) : Target → Bool
  | .name a => !I.contains a
  | .attr _ _ => true

theorem holds_assign {I : Inv} {env env' : Env} (h : I.holds env) {t : Target} (ht : t.free I = true) {v : Val} (ha : t.assign v env = some (.ok env')) :
    I.holds env' := by
  cases t with
  | name a =>
    cases ha
    refine holds_set h a v fun hm => ?_
    simp [Target.free, hm] at ht
  | attr a f =>
    simp only [Target.assign] at ha
    rcases hc : env a with _ | w
    · rw [hc] at ha
      cases ha
    · rw [hc] at ha
      cases w <;> cases ha
      refine holds_set h a _ fun hm g hg => ?_
      cases hg
      exact h a hm _ hc

theorem holds_assignAll {I : Inv} {ts : List Target} (ht : ts.all (·.free I) = true) : ∀ {vs : List Val} {env env' : Env}, I.holds env →
    assignAll ts vs env = some (.ok env') → I.holds env' := by
  induction ts with
  | nil =>
    intro vs env env' h ha
    cases vs with
    | nil =>
      cases ha
      exact h
    | cons v vs => cases ha
  | cons t ts ih =>
    intro vs env env' h ha
    cases vs with
    | nil => cases ha
    | cons v vs =>
      simp only [List.all_cons, Bool.and_eq_true] at ht
      change Src.Run.bind (t.assign v env) _ = _ at ha
      unfold Src.Run.bind at ha
      rcases h1 : t.assign v env with _ | (e | env1)
      · rw [h1] at ha
        cases ha
      · rw [h1] at ha
        cases ha
      · rw [h1] at ha
        exact ih ht.2 (holds_assign h ht.1 h1) ha

variable {I : Inv}

/-- Expressions. -/
def StE (T : Tr) (I : Inv) (x : Expr) (y : Src.Expr) : Prop := ∀ env, I.holds env → St T (x env) (y env)

/-- Functions. -/
def StF (T : Tr) (x : Fn) (y : Src.Fn) : Prop := ∀ args kw, St T (x args kw) (y args kw)

/-- Methods of built-in and external classes. -/
def StM (T : Tr) (x : Val → Fn) (y : Val → Src.Fn) : Prop := ∀ v, StF T (x v) (y v)

/-- Lists of expressions. -/
inductive StL (T : Tr) (I : Inv) : List Expr → List Src.Expr → Prop
  | nil : StL T I [] []
  | cons {x : Expr} {y : Src.Expr} {xs : List Expr} {ys : List Src.Expr} :
      StE T I x y → StL T I xs ys → StL T I (x :: xs) (y :: ys)

/-- Keyword arguments. -/
inductive StK {κ : Type} (T : Tr) (I : Inv) : List (κ × Expr) → List (κ × Src.Expr) → Prop
  | nil : StK T I [] []
  | cons {w : κ} {x : Expr} {y : Src.Expr} {xs : List (κ × Expr)} {ys : List (κ × Src.Expr)} :
      StE T I x y → StK T I xs ys → StK T I ((w, x) :: xs) ((w, y) :: ys)

/-- Tables of methods. -/
inductive StT (T : Tr) : List (Cls × Fn) → List (Cls × Src.Fn) → Prop
  | nil : StT T [] []
  | cons {c : Cls} {x : Fn} {y : Src.Fn} {xs : List (Cls × Fn)} {ys : List (Cls × Src.Fn)} :
      StF T x y → StT T xs ys → StT T ((c, x) :: xs) ((c, y) :: ys)

/-- Parts of f-strings. -/
inductive StP (T : Tr) (I : Inv) : List Part → List Src.Part → Prop
  | nil : StP T I [] []
  | lit {s : String} {xs : List Part} {ys : List Src.Part} : StP T I xs ys → StP T I (.lit s :: xs) (.lit s :: ys)
  | val {x : Expr} {y : Src.Expr} {xs : List Part} {ys : List Src.Part} :
      StE T I x y → StP T I xs ys → StP T I (.val x :: xs) (.val y :: ys)

/-- Omitted or given bounds of slices. -/
inductive StO (T : Tr) (I : Inv) : Option Expr → Option Src.Expr → Prop
  | none : StO T I .none .none
  | some {x : Expr} {y : Src.Expr} : StE T I x y → StO T I (.some x) (.some y)

/-- Chains of comparisons. -/
inductive StC (T : Tr) (I : Inv) : List (CmpOp × Expr) → List (CmpOp × Src.Expr) → Prop
  | nil : StC T I [] []
  | cons {o : CmpOp} {x : Expr} {y : Src.Expr} {xs : List (CmpOp × Expr)} {ys : List (CmpOp × Src.Expr)} :
      StE T I x y → StC T I xs ys → StC T I ((o, x) :: xs) ((o, y) :: ys)

theorem st_const (v : Val) : StE T I (eConst v) (Src.eConst v) := fun _ _ => st_pure v

theorem st_global {x : Run Val} {y : Src.Run Val} (h : St T x y) : StE T I (eGlobal x) (Src.eGlobal y) := fun _ _ => h

theorem st_name (a : Name) : StE T I (eName a) (Src.eName a) := by
  intro env hI
  unfold eName Src.eName
  cases env a
  · exact st_stuck
  · exact st_pure _

theorem st_attr {x : Expr} {y : Src.Expr} (h : StE T I x y) (a : Name) : StE T I (eAttr x a) (Src.eAttr y a) :=
  fun env hI => st_bind (h env hI) fun _ => st_lift _

theorem st_index {x x' : Expr} {y y' : Src.Expr} (h : StE T I x y) (h' : StE T I x' y') :
    StE T I (eIndex x x') (Src.eIndex y y') :=
  fun env hI => st_bind (h env hI) fun _ => st_bind (h' env hI) fun _ => st_lift _

theorem st_bound {x : Option Expr} {y : Option Src.Expr} (h : StO T I x y) (env : Env) (hI : I.holds env) :
    St T (evalBound x env) (Src.evalBound y env) := by
  cases h with
  | none => exact st_pure _
  | some h =>
    refine st_bind (h env hI) fun v => ?_
    cases v <;> first | exact st_pure _ | exact st_stuck

theorem st_slice {x : Expr} {y : Src.Expr} {a b : Option Expr} {c d : Option Src.Expr} (h : StE T I x y) (h1 : StO T I a c)
    (h2 : StO T I b d) : StE T I (eSlice x a b) (Src.eSlice y c d) :=
  fun env hI => st_bind (h env hI) fun _ => st_bind (st_bound h1 env hI) fun _ => st_bind (st_bound h2 env hI) fun _ => st_lift _

theorem st_reverse {x : Expr} {y : Src.Expr} (h : StE T I x y) : StE T I (eReverse x) (Src.eReverse y) :=
  fun env hI => st_bind (h env hI) fun _ => st_lift _

theorem st_evalList {xs : List Expr} {ys : List Src.Expr} (h : StL T I xs ys) (env : Env) (hI : I.holds env) : St T (evalList xs env) (Src.evalList ys env) := by
  induction h with
  | nil => exact st_pure _
  | cons h _ ih => exact st_bind (h env hI) fun _ => st_bind ih fun _ => st_pure _

theorem st_evalKw {κ : Type} {xs : List (κ × Expr)} {ys : List (κ × Src.Expr)} (h : StK T I xs ys) (env : Env) (hI : I.holds env) :
    St T (evalKw xs env) (Src.evalKw ys env) := by
  induction h with
  | nil => exact st_pure _
  | cons h _ ih => exact st_bind (h env hI) fun _ => st_bind ih fun _ => st_pure _

theorem st_list {xs : List Expr} {ys : List Src.Expr} (h : StL T I xs ys) : StE T I (eList xs) (Src.eList ys) :=
  fun env hI => st_bind (st_evalList h env hI) fun _ => st_pure _

theorem st_tuple {xs : List Expr} {ys : List Src.Expr} (h : StL T I xs ys) : StE T I (eTuple xs) (Src.eTuple ys) :=
  fun env hI => st_bind (st_evalList h env hI) fun _ => st_pure _

theorem st_dict {xs : List (String × Expr)} {ys : List (String × Src.Expr)} (h : StK T I xs ys) : StE T I (eDict xs) (Src.eDict ys) :=
  fun env hI => st_bind (st_evalKw h env hI) fun _ => st_pure _

theorem st_call {f : Fn} {g : Src.Fn} {xs : List Expr} {ys : List Src.Expr} {as : List (Name × Expr)}
    {bs : List (Name × Src.Expr)} (hf : StF T f g) (h : StL T I xs ys) (h' : StK T I as bs) :
    StE T I (eCall f xs as) (Src.eCall g ys bs) :=
  fun env hI => st_bind (st_evalList h env hI) fun _ => st_bind (st_evalKw h' env hI) fun _ => hf _ _

theorem st_method {xs : List (Cls × Fn)} {ys : List (Cls × Src.Fn)} (h : StT T xs ys) (c : Cls) (v : List Val) (kw : List (Name × Val)) :
    St T (method xs c v kw) (match ys.find? (fun p => p.1 = c) with | some p => p.2 v kw | none => Src.Run.stuck) := by
  induction h with
  | nil => exact st_stuck
  | @cons d x y xs ys h _ ih =>
    unfold method
    rw [List.find?_cons]
    by_cases hd : d = c
    · simp only [hd, decide_true, if_true]
      exact (h v kw)
    · simp only [hd, decide_false, if_false]
      exact ih

theorem st_methodCall {t : List (Cls × Fn)} {t' : List (Cls × Src.Fn)} {b : Val → Fn} {b' : Val → Src.Fn} {x : Expr} {y : Src.Expr}
    {xs : List Expr} {ys : List Src.Expr} {as : List (Name × Expr)} {bs : List (Name × Src.Expr)} (ht : StT T t t')
    (hb : StM T b b') (hx : StE T I x y) (h : StL T I xs ys) (h' : StK T I as bs) :
    StE T I (eMethod t b x xs as) (Src.eMethod t' b' y ys bs) := by
  refine fun env hI => st_bind (hx env hI) fun v => st_bind (st_evalList h env hI) fun a => st_bind (st_evalKw h' env hI) fun kw => ?_
  have hv := hb v a kw
  cases v <;> first | exact hv | exact (st_method ht _ _ _)

theorem st_bin {t s : List (Cls × Fn)} {t' s' : List (Cls × Src.Fn)} {op : BinOp} {x x' : Expr} {y y' : Src.Expr}
    (ht : StT T t t') (hs : StT T s s') (hx : StE T I x y) (hx' : StE T I x' y') :
    StE T I (eBin t s op x x') (Src.eBin t' s' op y y') := by
  refine fun env hI => st_bind (hx env hI) fun v => st_bind (hx' env hI) fun w => ?_
  have hp : St T (lift (op.apply v w)) (op.apply v w) := (st_lift _)
  have hl : ∀ c a kw, St T (method t c a kw) _ := fun c a kw => (st_method ht c a kw)
  have hr : ∀ c a kw, St T (method s c a kw) _ := fun c a kw => (st_method hs c a kw)
  cases v <;> first | exact hl _ _ _ | (cases w <;> first | exact hp | exact hr _ _ _)

theorem st_not {x : Expr} {y : Src.Expr} (h : StE T I x y) : StE T I (eNot x) (Src.eNot y) :=
  fun env hI => st_bind (h env hI) fun _ => st_pure _

theorem st_neg {x : Expr} {y : Src.Expr} (h : StE T I x y) : StE T I (eNeg x) (Src.eNeg y) :=
  fun env hI => st_bind (h env hI) fun v => by cases v <;> first | exact st_pure _ | exact st_stuck

theorem st_invert {x : Expr} {y : Src.Expr} (h : StE T I x y) : StE T I (eInvert x) (Src.eInvert y) :=
  fun env hI => st_bind (h env hI) fun v => by cases v <;> first | exact st_pure _ | exact st_stuck

theorem st_and {x x' : Expr} {y y' : Src.Expr} (h : StE T I x y) (h' : StE T I x' y') :
    StE T I (eAnd x x') (Src.eAnd y y') :=
  fun env hI => st_bind (h env hI) fun _ => (st_ite (h' env hI) (st_pure _))

theorem st_or {x x' : Expr} {y y' : Src.Expr} (h : StE T I x y) (h' : StE T I x' y') :
    StE T I (eOr x x') (Src.eOr y y') :=
  fun env hI => st_bind (h env hI) fun _ => (st_ite (st_pure _) (h' env hI))

theorem st_if {x x' x'' : Expr} {y y' y'' : Src.Expr} (h : StE T I x y) (h' : StE T I x' y') (h'' : StE T I x'' y'') :
    StE T I (eIf x x' x'') (Src.eIf y y' y'') :=
  fun env hI => st_bind (h env hI) fun _ => st_ite (h' env hI) (h'' env hI)

theorem st_compareRest {xs : List (CmpOp × Expr)} {ys : List (CmpOp × Src.Expr)} (h : StC T I xs ys) (v : Val) (env : Env) (hI : I.holds env) :
    St T (compareRest v xs env) (Src.compareRest v ys env) := by
  induction h generalizing v with
  | nil => exact st_pure _
  | cons h _ ih =>
    exact st_bind (h env hI) fun w => st_bind (st_lift _) fun b => (st_ite (ih w) (st_pure _))

theorem st_compare {x : Expr} {y : Src.Expr} {xs : List (CmpOp × Expr)} {ys : List (CmpOp × Src.Expr)} (h : StE T I x y) (h' : StC T I xs ys) :
    StE T I (eCompare x xs) (Src.eCompare y ys) :=
  fun env hI => st_bind (h env hI) fun _ => st_bind (st_compareRest h' _ env hI) fun _ => st_pure _

theorem st_parts {xs : List Part} {ys : List Src.Part} (h : StP T I xs ys) (env : Env) (hI : I.holds env) : St T (formatParts xs env) (Src.formatParts ys env) := by
  induction h with
  | nil => exact st_pure _
  | lit _ ih => exact st_bind ih fun _ => st_pure _
  | val h _ ih => exact st_bind (h env hI) fun _ => st_bind (st_lift _) fun _ => st_bind ih fun _ => st_pure _

theorem st_format {xs : List Part} {ys : List Src.Part} (h : StP T I xs ys) : StE T I (eFormat xs) (Src.eFormat ys) :=
  fun env hI => st_bind (st_parts h env hI) fun _ => st_pure _

theorem st_kwargsGet {x x' : Expr} {y y' : Src.Expr} (h : StE T I x y) (a : Name) (h' : StE T I x' y') :
    StE T I (eKwargsGet x a x') (Src.eKwargsGet y a y') :=
  fun env hI => st_bind (h env hI) fun v => st_bind (h' env hI) fun d => by cases v <;> first | exact st_pure _ | exact st_stuck

/-! ### Statements -/

/-- The variables that hold no `Point` afterwards, if execution goes on. -/
def Keeps (I : Inv) (x : Run Outcome) : Prop := ∀ F log env log', x F log = some (.ok (.next env), log') → I.holds env

theorem lift_ok {r : Src.Run α} {F : Faults} {log l : List Call} {a : α} (h : lift r F log = some (.ok a, l)) : r = some (.ok a) := by
  rcases r with _ | x
  · cases h
  · cases h
    rfl

/-- Statements. -/
def StS (T : Tr) (I : Inv) (x : Stmt) (y : Src.Stmt) : Prop := ∀ env, I.holds env → St T (x env) (y env) ∧ Keeps I (x env)

/-- Blocks. -/
inductive StB (T : Tr) (I : Inv) : List Stmt → List Src.Stmt → Prop
  | nil : StB T I [] []
  | cons {x : Stmt} {y : Src.Stmt} {xs : List Stmt} {ys : List Src.Stmt} :
      StS T I x y → StB T I xs ys → StB T I (x :: xs) (y :: ys)

/-- Handlers. -/
inductive StH (T : Tr) (I : Inv) : List (List Catch × List Stmt) → List (List Catch × List Src.Stmt) → Prop
  | nil : StH T I [] []
  | cons {c : List Catch} {x : List Stmt} {y : List Src.Stmt} {xs : List (List Catch × List Stmt)}
      {ys : List (List Catch × List Src.Stmt)} :
      StB T I x y → StH T I xs ys → StH T I ((c, x) :: xs) ((c, y) :: ys)

theorem st_assign {x : Expr} {y : Src.Expr} (t : Target) (h : StE T I x y) (ht : t.free I = true) : StS T I (sAssign t x) (Src.sAssign t y) := by
  refine fun env hI => ⟨st_bind (h env hI) fun _ => st_bind (st_lift _) fun _ => st_pure _, fun F log env' log' hx => ?_⟩
  obtain ⟨v, l, _, hx⟩ := bind_ok hx
  obtain ⟨env1, l', h1, hx⟩ := bind_ok hx
  cases hx
  exact holds_assign hI ht (lift_ok h1)

theorem st_unpack {x : Expr} {y : Src.Expr} (ts : List Target) (h : StE T I x y) (ht : ts.all (·.free I) = true) :
    StS T I (sUnpack ts x) (Src.sUnpack ts y) := by
  refine fun env hI => ⟨st_bind (h env hI) fun _ => st_bind (st_lift _) fun _ => st_bind (st_lift _) fun _ => st_pure _, fun F log env' log' hx => ?_⟩
  obtain ⟨v, l, _, hx⟩ := bind_ok hx
  obtain ⟨w, l', _, hx⟩ := bind_ok hx
  obtain ⟨env1, l', h1, hx⟩ := bind_ok hx
  cases hx
  exact holds_assignAll ht hI (lift_ok h1)

/-- The expression gives no `Point`. -/
def Other (x : Expr) : Prop := ∀ env F log f log', x env F log ≠ some (.ok (.obj .Point f), log')

theorem st_assign_other {x : Expr} {y : Src.Expr} (a : Name) (h : StE T I x y) (ho : Other x) :
    StS T I (sAssign (.name a) x) (Src.sAssign (.name a) y) := by
  refine fun env hI => ⟨st_bind (h env hI) fun _ => st_bind (st_lift _) fun _ => st_pure _, fun F log env' log' hx => ?_⟩
  obtain ⟨v, l, hv, hx⟩ := bind_ok hx
  obtain ⟨env1, l', h1, hx⟩ := bind_ok hx
  cases hx
  cases lift_ok h1
  exact holds_set hI a v fun _ f hf => ho env F log f l (hf ▸ hv)

theorem st_expr {x : Expr} {y : Src.Expr} (h : StE T I x y) : StS T I (sExpr x) (Src.sExpr y) := by
  refine fun env hI => ⟨st_bind (h env hI) fun _ => st_pure _, fun F log env' log' hx => ?_⟩
  obtain ⟨v, l, hv, hx⟩ := bind_ok hx
  cases hx
  exact hI

theorem st_pass : StS T I sPass Src.sPass := fun env hI => ⟨st_pure _, fun F log env' log' hx => by
  cases hx
  exact hI⟩

theorem st_return {x : Expr} {y : Src.Expr} (h : StE T I x y) : StS T I (sReturn x) (Src.sReturn y) := by
  refine fun env hI => ⟨st_bind (h env hI) fun _ => st_pure _, fun F log env' log' hx => ?_⟩
  obtain ⟨v, l, hv, hx⟩ := bind_ok hx
  cases hx

theorem st_block {xs : List Stmt} {ys : List Src.Stmt} (h : StB T I xs ys) : StS T I (block xs) (Src.block ys) := by
  induction h with
  | nil => exact st_pass
  | @cons x y xs ys h _ ih =>
    intro env hI
    constructor
    · refine st_bind_post (fun o => ∀ env, o = .next env → I.holds env) (h env hI).1 (fun F log o log' ho env' he => (h env hI).2 F log env' log' (he ▸ ho))
        fun o ho => ?_
      cases o with
      | next env => exact (ih env (ho env rfl)).1
      | ret v => exact (st_pure _)
    · intro F log env' log' hx
      obtain ⟨o, l, h1, hx⟩ := bind_ok hx
      cases o with
      | next env1 => exact (ih env1 ((h env hI).2 F log env1 l h1)).2 F l env' log' hx
      | ret v => cases hx

theorem st_sIf {x : Expr} {y : Src.Expr} {a b : List Stmt} {c d : List Src.Stmt} (h : StE T I x y) (h1 : StB T I a c)
    (h2 : StB T I b d) : StS T I (sIf x a b) (Src.sIf y c d) := by
  refine fun env hI => ⟨st_bind (h env hI) fun _ => st_ite (st_block h1 env hI).1 (st_block h2 env hI).1, fun F log env' log' hx => ?_⟩
  obtain ⟨v, l, hv, hx⟩ := bind_ok hx
  split at hx
  · exact (st_block h1 env hI).2 F l env' log' hx
  · exact (st_block h2 env hI).2 F l env' log' hx

theorem st_raiseVal {f : Fn} {g : Src.Fn} (hf : StF T f g) (v : Val) : St T (raiseVal f v) (Src.raiseVal g v) := by
  have hs : St T (Run.stuck : Run Outcome) Src.Run.stuck := st_stuck
  cases v with
  | obj c fields =>
    cases c with
    | exc c =>
      unfold raiseVal Src.raiseVal
      by_cases hc : c.isBip38Error
      · simp only [hc, if_true]
        refine st_bind (hf _ _) fun w => ?_
        cases w <;> first | exact st_raise _ _ | exact st_stuck
      · simp only [hc]
        rcases getField fields v!"message" with _ | w
        · exact hs
        · cases w <;> first | exact hs | exact (st_raise _ _)
    | _ => exact hs
  | _ => exact hs

theorem raiseVal_ends {f : Fn} {v : Val} {F : Faults} {log l : List Call} {o : Outcome} : raiseVal f v F log ≠ some (.ok o, l) := by
  intro h
  cases v with
  | obj c fields =>
    cases c with
    | exc c =>
      unfold raiseVal at h
      by_cases hc : c.isBip38Error
      · simp only [hc, if_true] at h
        obtain ⟨w, l', _, h⟩ := bind_ok h
        cases w <;> cases h
      · simp only [hc] at h
        rcases hg : getField fields v!"message" with _ | w
        · rw [hg] at h
          cases h
        · rw [hg] at h
          cases w <;> cases h
    | _ => cases h
  | _ => cases h

theorem st_sRaise {f : Fn} {g : Src.Fn} {x : Expr} {y : Src.Expr} (hf : StF T f g) (h : StE T I x y) :
    StS T I (sRaise f x) (Src.sRaise g y) := by
  refine fun env hI => ⟨st_bind (h env hI) fun v => st_raiseVal hf v, fun F log env' log' hx => ?_⟩
  obtain ⟨v, l, hv, hx⟩ := bind_ok hx
  exact absurd hx raiseVal_ends

theorem st_handle {xs : List (List Catch × List Stmt)} {ys : List (List Catch × List Src.Stmt)} (h : StH T I xs ys) (e : Exc) :
    StS T I (handle e xs) (Src.handle e ys) := by
  induction h with
  | nil => exact fun env hI => ⟨st_lift (some (.error e)), fun F log env' log' hx => nomatch hx⟩
  | @cons c x y xs ys h _ ih =>
    refine fun env hI => ⟨st_ite (st_block h env hI).1 (ih env hI).1, fun F log env' log' hx => ?_⟩
    change (if c.any (·.matches e.cls) = true then block x env else handle e xs env) F log = _ at hx
    split at hx
    · exact (st_block h env hI).2 F log env' log' hx
    · exact (ih env hI).2 F log env' log' hx

/-- Parameters. -/
inductive StR (T : Tr) : List Param → List Src.Param → Prop
  | nil : StR T [] []
  | none {a : Name} {xs : List Param} {ys : List Src.Param} : StR T xs ys → StR T (⟨a, .none⟩ :: xs) (⟨a, .none⟩ :: ys)
  | some {a : Name} {x : Run Val} {y : Src.Run Val} {xs : List Param} {ys : List Src.Param} :
      St T x y → StR T xs ys → StR T (⟨a, .some x⟩ :: xs) (⟨a, .some y⟩ :: ys)

theorem st_bindParams {xs : List Param} {ys : List Src.Param} (h : StR T xs ys) (rest : Option Name) (args : List Val) (kw : List (Name × Val))
    (env : Env) : St T (bindParams rest xs args kw env) (Src.bindParams rest ys args kw env) := by
  induction h generalizing args kw env with
  | nil =>
    cases args with
    | nil =>
      cases rest with
      | none => cases kw <;> first | exact st_pure _ | exact st_raise _ _
      | some r => exact st_pure _
    | cons a as => exact st_raise _ _
  | @none a xs ys _ ih =>
    cases args with
    | cons v vs =>
      unfold bindParams Src.bindParams
      cases getField kw a
      · exact ih _ _ _
      · exact (st_raise _ _)
    | nil =>
      unfold bindParams Src.bindParams
      cases getField kw a
      · exact (st_raise _ _)
      · exact ih _ _ _
  | @some a x y xs ys h _ ih =>
    cases args with
    | cons v vs =>
      unfold bindParams Src.bindParams
      cases getField kw a
      · exact (ih _ _ _)
      · exact (st_raise _ _)
    | nil =>
      unfold bindParams Src.bindParams
      cases getField kw a
      · exact st_bind h fun _ => ih _ _ _
      · exact (ih _ _ _)

/-- No parameter is one of these variables. -/
def freeParams (I : Inv) (xs : List Param) (rest : Option Name) : Bool := xs.all (fun p => !I.contains p.name) && !(rest.any I.contains)

theorem holds_bindParams {rest : Option Name} : ∀ {xs : List Param} {args : List Val} {kw : List (Name × Val)} {env env' : Env} {F : Faults}
    {log l : List Call}, freeParams I xs rest = true → I.holds env → bindParams rest xs args kw env F log = some (.ok env', l) → I.holds env' := by
  intro xs
  induction xs with
  | nil =>
    intro args kw env env' F log l hf h hx
    cases args with
    | nil =>
      cases rest with
      | none =>
        cases kw <;> cases hx
        exact h
      | some r =>
        cases hx
        refine holds_set h r _ fun _ f hf => nomatch hf
    | cons v vs => cases hx
  | cons p ps ih =>
    intro args kw env env' F log l hf h hx
    have hp : p.name ∉ I ∧ freeParams I ps rest = true := by
      simp only [freeParams, List.all_cons, Bool.and_eq_true] at hf ⊢
      exact ⟨by simpa using hf.1.1, hf.1.2, hf.2⟩
    have hs : ∀ v, I.holds (env.set p.name v) := fun v => holds_set h _ v fun hm => absurd hm hp.1
    cases args with
    | cons v vs =>
      unfold bindParams at hx
      rcases hg : getField kw p.name with _ | w
      · rw [hg] at hx
        exact ih hp.2 (hs _) hx
      · rw [hg] at hx
        cases hx
    | nil =>
      unfold bindParams at hx
      rcases hg : getField kw p.name with _ | w
      · rw [hg] at hx
        obtain ⟨name, _ | d⟩ := p
        · cases hx
        · obtain ⟨v, l', _, hx⟩ := bind_ok hx
          exact ih hp.2 (hs _) hx
      · rw [hg] at hx
        exact ih hp.2 (hs _) hx

theorem st_defun {xs : List Param} {ys : List Src.Param} {a : List Stmt} {b : List Src.Stmt} (rest : Option Name) (h : StR T xs ys)
    (hb : StB T I a b) (hf : freeParams I xs rest = true) : StF T (defun xs rest a) (Src.defun ys rest b) := by
  refine fun args kw => st_bind_post I.holds (st_bindParams h rest args kw _) (fun F log env log' hx => holds_bindParams hf (holds_empty I) hx)
    fun env hI => st_bind (st_block hb env hI).1 fun o => ?_
  cases o <;> exact st_pure _

theorem st_defclass {xs : List Param} {ys : List Src.Param} {a : List Stmt} {b : List Src.Stmt} (c : Cls) (h : StR T xs ys)
    (hb : StB T [] a b) : StF T (defclass c xs a) (Src.defclass c ys b) := by
  refine fun args kw => st_bind (st_bindParams h Option.none args kw _) fun env => st_bind (st_block hb env fun _ h => nomatch h).1 fun o => ?_
  cases o with
  | next env =>
    change St T (lift (match env v!"self" with | some v => pure v | Option.none => .stuck)) _
    exact st_lift _
  | ret v => exact st_stuck

theorem st_pure1 (f : Src.Fn) : StF T (pure1 f) f := fun _ _ => st_lift _

theorem st_pureMethod (f : Val → Src.Fn) : StM T (pureMethod f) f := fun _ _ _ => st_lift _

theorem st_external (k : Kind) (f : Src.Fn) : StF T (external k f) f :=
  fun args kw => st_ask ⟨k, args, kw⟩ _

theorem st_externalMethod (k : Kind) (mine : Val → Bool) (f : Val → Src.Fn) : StM T (externalMethod k mine f) f := by
  intro v args kw
  unfold externalMethod
  split
  · exact st_ask ⟨k, v :: args, kw⟩ _
  · exact (st_lift _)


theorem stF_silent {n : Kind → Nat} {x : Fn} {y : Src.Fn} (h : SimF n anything x y) (hn : ∀ k, n k = 0) : StF T x y :=
  fun args kw => st_silent (h args kw) hn

/-! ### What holds no `Point` -/

/-- The function returns no `Point`. -/
def NoPoint (f : Fn) : Prop := ∀ args kw F log g l, f args kw F log ≠ some (.ok (.obj .Point g), l)

/-- The statement returns no `Point`. -/
def NoPointS (x : Stmt) : Prop := ∀ env F log g l, x env F log ≠ some (.ok (.ret (.obj .Point g)), l)

theorem other_call {f : Fn} {xs : List Expr} {as : List (Name × Expr)} (h : NoPoint f) : Other (eCall f xs as) := by
  intro env F log g l hx
  obtain ⟨a, l1, _, hx⟩ := bind_ok hx
  obtain ⟨k, l2, _, hx⟩ := bind_ok hx
  exact h _ _ _ _ _ _ hx

/-- A method call none of whose implementations returns a `Point`, on an object of the repository. -/
theorem other_method {t : List (Cls × Fn)} {x : Expr} {xs : List Expr} {as : List (Name × Expr)} (h : ∀ p ∈ t, NoPoint p.2) :
    Other (eMethod t noMethod x xs as) := by
  intro env F log g l hx
  obtain ⟨v, l1, _, hx⟩ := bind_ok hx
  obtain ⟨a, l2, _, hx⟩ := bind_ok hx
  obtain ⟨k, l3, _, hx⟩ := bind_ok hx
  cases v with
  | obj c f =>
    clear * - h hx
    change method t c (Val.obj c f :: a) k F l3 = _ at hx
    induction t with
    | nil => cases hx
    | cons p t ih =>
      obtain ⟨d, p⟩ := p
      unfold method at hx
      by_cases hd : d = c
      · simp only [hd, if_true] at hx
        exact h _ (List.mem_cons_self ..) _ _ _ _ _ _ hx
      · simp only [hd, if_false] at hx
        exact ih (fun q hq => h q (List.mem_cons_of_mem _ hq)) hx
  | _ => cases hx

theorem noPoint_return {x : Expr} (h : Other x) : NoPointS (sReturn x) := by
  intro env F log g l hx
  obtain ⟨v, l1, hv, hx⟩ := bind_ok hx
  cases hx
  exact h _ _ _ _ _ hv

theorem noPoint_raise {f : Fn} {x : Expr} : NoPointS (sRaise f x) := by
  intro env F log g l hx
  obtain ⟨v, l1, hv, hx⟩ := bind_ok hx
  exact absurd hx raiseVal_ends

theorem noPoint_one {x : Stmt} (h : NoPointS x) : NoPointS (block [x]) := by
  intro env F log g l hx
  obtain ⟨o, l1, ho, hx⟩ := bind_ok hx
  cases o with
  | next env => cases hx
  | ret v =>
    cases hx
    exact h _ _ _ _ _ ho

theorem noPoint_try {a : List Name} {xs ys : List Stmt} {c : List Catch} (h : NoPointS (block xs)) (h' : NoPointS (block ys)) :
    NoPointS (sTry a xs [(c, ys)]) := by
  intro env F log g l hx
  unfold sTry at hx
  rcases hX : block xs env F log with _ | ⟨e | o, l1⟩
  · rw [hX] at hx
    cases hx
  · rw [hX] at hx
    change (if c.any (·.matches e.cls) = true then block ys (env.forget a) else handle e [] (env.forget a)) F l1 = _ at hx
    split at hx
    · exact h' _ _ _ _ _ hx
    · cases hx
  · rw [hX] at hx
    cases hx
    exact h _ _ _ _ _ hX

theorem noPoint_defun {xs : List Param} {rest : Option Name} {a : List Stmt} (h : NoPointS (block a)) : NoPoint (defun xs rest a) := by
  intro args kw F log g l hx
  obtain ⟨env, l1, _, hx⟩ := bind_ok hx
  obtain ⟨o, l2, ho, hx⟩ := bind_ok hx
  cases o with
  | next env => cases hx
  | ret v =>
    cases v <;> cases hx
    exact h _ _ _ _ _ ho

/-- An object of another class, with one attribute. -/
theorem noPoint_defclass {c : Cls} {xs : List Param} (f a : Name) (hc : c ≠ .Point) (hf : freeParams [v!"self"] xs none = true) :
    NoPoint (defclass c xs [sAssign (.attr v!"self" f) (eName a)]) := by
  intro args kw F log g l hx
  obtain ⟨env, l1, h1, hx⟩ := bind_ok hx
  have hI : Inv.holds [v!"self"] env := by
    refine holds_bindParams hf (fun b hb f hf => ?_) h1
    rw [List.mem_singleton] at hb
    rw [hb] at hf
    simp only [Env.set, if_true, Option.some.injEq, Val.obj.injEq] at hf
    exact hc hf.1
  obtain ⟨o, l2, ho, hx⟩ := bind_ok hx
  have hk := (st_block (T := ⟨fun _ _ => True, fun _ _ _ => True, fun _ _ => trivial⟩) (I := [v!"self"])
    (.cons (st_assign (.attr v!"self" f) (st_name a) rfl) .nil) env hI).2 F l1
  cases o with
  | ret v => cases hx
  | next env' =>
    have hs := hk env' l2 ho v!"self" (List.mem_singleton_self _) g
    have hx := lift_ok hx
    simp only [constructed] at hx
    rcases he : env' v!"self" with _ | v
    · rw [he] at hx
      cases hx
    · rw [he] at hx
      cases hx
      exact hs he

/-- A method of a variable that holds no `Point`. -/
theorem st_methodOther {p : Fn} {p' : Src.Fn} {t : List (Cls × Fn)} {t' : List (Cls × Src.Fn)} {a : Name}
    {xs : List Expr} {ys : List Src.Expr} {as : List (Name × Expr)} {bs : List (Name × Src.Expr)} (ha : I.contains a = true) (ht : StT T t t')
    (h : StL T I xs ys) (h' : StK T I as bs) :
    StE T I (eMethod ((.Point, p) :: t) noMethod (eName a) xs as) (Src.eMethod ((.Point, p') :: t') Src.noMethod (Src.eName a) ys bs) := by
  intro env hI
  have hn : ∀ f, env a ≠ some (.obj .Point f) := hI a (by simpa using ha)
  refine st_bind_post (fun v => env a = some v) (st_name a env hI) ?_ fun v hv => st_bind (st_evalList h env hI) fun b => st_bind (st_evalKw h' env hI) fun kw => ?_
  · intro F log v l hx
    unfold eName at hx
    rcases he : env a with _ | w
    · rw [he] at hx
      cases hx
    · rw [he] at hx
      cases hx
      rfl
  · cases v with
    | obj c f =>
      have hc : Cls.Point ≠ c := by
        rintro rfl
        exact hn f hv
      have := st_method ht c (Val.obj c f :: b) kw
      change St T (method ((.Point, p) :: t) c _ kw) (match List.find? (fun p => decide (p.1 = c)) ((Cls.Point, p') :: t') with | some p => p.2 _ kw | none => Src.Run.stuck)
      unfold method
      rw [List.find?_cons]
      simp only [hc, decide_false, if_false]
      exact this
    | _ => exact (st_pureMethod Src.noMethod : StM T noMethod _) _ _ _

/-! ### `try` -/

/-- The handlers end with an exception, without external calls, for an exception that is raised by the body because of the fault `e` of the call `c`. -/
def Handles (T T' : Tr) (n : Kind → Nat) (hx : List (List Catch × List Stmt)) : Prop :=
  ∀ c e e', n c.kind ≠ 0 → T.passed c e → T'.becomes c e e' → ∀ env F log, ∃ e'', T.becomes c e e'' ∧ handle e' hx env F log = some (.error e'', log)

theorem st_try {T' : Tr} {K : Ctx} {n : Kind → Nat} {xs : List Stmt} {ys : List Src.Stmt} {hx : List (List Catch × List Stmt)}
    {hy : List (List Catch × List Src.Stmt)} (a : List Name) (hp : ∀ c e, T.passed c e → T'.passed c e) (h : StB T' I xs ys)
    (hs : SimS n K (block xs) (Src.block ys)) (h' : StH T I hx hy) (hn : Handles T T' n hx) : StS T I (sTry a xs hx) (Src.sTry a ys hy) := by
  intro env hI
  obtain ⟨hb, hkeep⟩ := st_block h env hI
  have hI' := holds_forget hI a
  constructor
  case right =>
    intro F log env' log' ht
    unfold sTry at ht
    rcases hX : block xs env F log with _ | ⟨e | o, l⟩
    · rw [hX] at ht
      cases ht
    · rw [hX] at ht
      exact (st_handle h' e _ hI').2 F l env' log' ht
    · rw [hX] at ht
      cases ht
      exact hkeep F log env' _ hX
  intro F log
  unfold sTry Src.sTry
  rcases hb F log with ⟨done, hq, hX⟩ | ⟨done, c, e, hq, hF, hX⟩
  · rw [hX]
    rcases hY : Src.block ys env with _ | (e | o)
    · exact .inl ⟨done, hq, rfl⟩
    · rcases (st_handle h' e (env.forget a) hI').1 F (log ++ done) with ⟨done', hq', h'⟩ | ⟨done', c, e', hq', hF, h'⟩
      · refine .inl ⟨done ++ done', quiet_append hq ?_, ?_⟩
        · rwa [List.length_append] at hq'
        · simp only [lift, List.append_assoc] at h' ⊢
          exact h'
      · refine .inr ⟨done ++ done', c, e', quiet_append hq ?_, ?_, fun hk => ?_⟩
        · rwa [List.length_append] at hq'
        · rw [List.length_append] at hF ⊢
          rwa [← Nat.add_assoc]
        · obtain ⟨e'', ht, he⟩ := h' hk
          refine ⟨e'', ht, ?_⟩
          simp only [lift, List.append_assoc] at he ⊢
          exact he
    · exact .inl ⟨done, hq, rfl⟩
  · refine .inr ⟨done, c, e, hq, hF, fun hk => ?_⟩
    obtain ⟨e', ht, he⟩ := hX (hp c e hk)
    obtain ⟨d, hd, hkd⟩ := (hs env).bounded F log _ _ he
    have hne : n c.kind ≠ 0 := by
      have := hkd c.kind
      have hdd : d = done ++ [c] := by
        rw [List.append_assoc] at hd
        exact (List.append_cancel_left hd).symm
      rw [hdd, List.countP_append] at this
      simp only [List.countP_singleton, decide_true, if_true] at this
      omega
    obtain ⟨e'', ht', he'⟩ := hn c e e' hne hk ht (env.forget a) F (log ++ done ++ [c])
    refine ⟨e'', ht', ?_⟩
    rw [he]
    exact he'

/-- A handler that raises `g`. -/
theorem handle_first {n : Kind → Nat} {cs : List Catch} {ss : List Stmt} {ss' : List Src.Stmt} {hx : List (List Catch × List Stmt)} {g : Exc}
    (hs : SimS n anything (block ss) (Src.block ss')) (hn : ∀ k, n k = 0) (hg : ∀ env, Src.block ss' env = some (.error g)) (e : Exc) (env : Env)
    (F : Faults) (log : List Call) (h : cs.any (·.matches e.cls) = true) : handle e ((cs, ss) :: hx) env F log = some (.error g, log) := by
  unfold handle
  rw [h, if_pos rfl, silent (hs env) hn, hg]
  rfl

theorem handle_other {cs : List Catch} {ss : List Stmt} {hx : List (List Catch × List Stmt)} (e : Exc) (env : Env)
    (h : ¬ cs.any (·.matches e.cls) = true) : handle e ((cs, ss) :: hx) env = handle e hx env := by
  change (if cs.any (·.matches e.cls) = true then block ss env else handle e hx env) = handle e hx env
  exact if_neg h

/-! ### Automation -/

/-- These places are provided for. -/
def Covers (T : Tr) (l : List Rule) : Prop := ∀ r ∈ l, ∀ c e, c.kind ∈ r.kinds → r.catches e.cls = true → T.becomes c e r.gives

theorem covers_sub {l l' : List Rule} (h : Covers T l) (hs : ∀ r ∈ l', r ∈ l) : Covers T l' := fun r hr => h r (hs r hr)

/-- No fault that looks like an old release. -/
def NoOld (T : Tr) : Prop := ∀ c e, T.passed c e → NotOld c e

/-- A function that is already known. -/
syntax "st_known" : tactic
macro_rules | `(tactic| st_known) => `(tactic| fail)

theorem st_default {a : Name} {x : Expr} {y : Src.Expr} {xs : List Param} {ys : List Src.Param} (h : StE T [] x y) (h' : StR T xs ys) :
    StR T (⟨a, .some (x Env.empty)⟩ :: xs) (⟨a, .some (y Env.empty)⟩ :: ys) := .some (h _ (holds_empty [])) h'

/-- One rule. -/
macro "st_rule" : tactic => `(tactic| first
  | (with_reducible first
  | exact st_const _ | exact st_name _ | exact st_pass | exact st_lift _
  | exact StL.nil | exact StK.nil | exact StT.nil | exact StP.nil | exact StC.nil | exact StO.none | exact StB.nil | exact StH.nil
  | exact StR.nil
  | apply st_global | apply st_attr | apply st_index | apply st_slice | apply st_reverse | apply st_list | apply st_tuple
  | apply st_dict | apply st_call | (apply st_methodOther; case ha => with_unfolding_all rfl) | apply st_methodCall | apply st_bin | apply st_not | apply st_neg | apply st_invert
  | apply st_and | apply st_or | apply st_if | apply st_compare | apply st_format | apply st_kwargsGet
  | (apply st_assign; case ht => with_unfolding_all rfl) | (apply st_unpack; case ht => with_unfolding_all rfl) | apply st_expr | apply st_return | apply st_sIf
  | apply st_sRaise | apply StL.cons | apply StK.cons | apply StT.cons | apply StP.lit | apply StP.val | apply StC.cons | apply StO.some | apply StB.cons
  | apply StH.cons | apply StR.none | apply st_default
  | st_known)
  | apply StB.cons)

/-- A context in which only the bounds matter. -/
def bounds : Ctx := ⟨fun _ _ => False, fun _ => True, fun _ _ => trivial⟩

/-- What is raised by a body that has no rule of its own. -/
def Tr.plain (T : Tr) : Tr := ⟨T.passed, fun _ e e' => e' = e, fun _ _ => rfl⟩

/-- `raise Error(message)` -/
theorem raises_msg (H : Host) (c : ExcClass) (hc : c.isBip38Error = true) (m : String) (env : Env) :
    Src.block [Src.sRaise (Src.Error_str H) (Src.eCall (Src.Error_init H c) [Src.eConst (.str m.toList)] [])] env = some (.error ⟨c, m⟩) := by
  have h := raise_msg H c hc m.toList (fun o => (match o with | .next env => Src.block [] env | .ret v => pure (.ret v) : Src.Run Outcome))
  rw [String.ofList_toList] at h
  exact h

/-- A `try` whose only handler raises what a rule says, around a body without rules. -/
theorem st_try_rule {n m : Kind → Nat} {K : Ctx} {xs : List Stmt} {ys : List Src.Stmt} {cs : List Catch} {ss : List Stmt} {ss' : List Src.Stmt} (r : Rule)
    (hT : Covers T [r]) (a : List Name) (h : StB T.plain I xs ys) (hs : SimS n K (block xs) (Src.block ys)) (hk : ∀ k, n k ≠ 0 → k ∈ r.kinds)
    (hc : ∀ k, cs.any (·.matches k) = r.catches k) (hm : SimS m anything (block ss) (Src.block ss')) (hm0 : ∀ k, m k = 0) (hb : StB T I ss ss')
    (hg : ∀ env, Src.block ss' env = some (.error r.gives)) : StS T I (sTry a xs [(cs, ss)]) (Src.sTry a ys [(cs, ss')]) := by
  refine st_try (T' := T.plain) a (fun _ _ h => h) h hs (.cons hb .nil) ?_
  intro c e e' hn _ he env F log
  rw [show e' = e from he]
  by_cases hm' : cs.any (·.matches e.cls) = true
  · exact ⟨r.gives, hT r (List.mem_singleton_self _) c e (hk _ hn) ((hc _).symm.trans hm'), handle_first hm hm0 hg e env F log hm'⟩
  · refine ⟨e, T.self c e, ?_⟩
    rw [handle_other e env hm']
    rfl

/-- A `try` that catches `AttributeError`, around calls of `ecdsa`. -/
theorem st_try_old {n : Kind → Nat} {K : Ctx} {xs : List Stmt} {ys : List Src.Stmt} {ss : List Stmt} {ss' : List Src.Stmt} (hO : NoOld T) (a : List Name)
    (h : StB T.plain I xs ys) (hs : SimS n K (block xs) (Src.block ys)) (hk : ∀ k, n k ≠ 0 → k = .ecdsa) (hb : StB T I ss ss') :
    StS T I (sTry a xs [([.attributeError], ss)]) (Src.sTry a ys [([.attributeError], ss')]) := by
  refine st_try (T' := T.plain) a (fun _ _ h => h) h hs (.cons hb .nil) ?_
  intro c e e' hn hp he env F log
  rw [show e' = e from he]
  have hne : ¬ ([Catch.attributeError].any (·.matches e.cls) = true) := by
    have := hO c e hp
    simpa [NotOld, hk _ hn, Catch.matches] using this
  refine ⟨e, T.self c e, ?_⟩
  rw [handle_other e env hne]
  rfl

/-- The same with a rule before. -/
theorem st_try_rule_old {n m : Kind → Nat} {K : Ctx} {xs : List Stmt} {ys : List Src.Stmt} {cs : List Catch} {ss tt : List Stmt} {ss' tt' : List Src.Stmt}
    (r : Rule) (hT : Covers T [r]) (hO : NoOld T) (a : List Name) (h : StB T.plain I xs ys) (hs : SimS n K (block xs) (Src.block ys))
    (hk : ∀ k, n k ≠ 0 → k = .ecdsa ∧ k ∈ r.kinds) (hc : ∀ k, cs.any (·.matches k) = r.catches k) (hm : SimS m anything (block ss) (Src.block ss'))
    (hm0 : ∀ k, m k = 0) (hb : StB T I ss ss') (hg : ∀ env, Src.block ss' env = some (.error r.gives)) (hb' : StB T I tt tt') :
    StS T I (sTry a xs [(cs, ss), ([.attributeError], tt)]) (Src.sTry a ys [(cs, ss'), ([.attributeError], tt')]) := by
  refine st_try (T' := T.plain) a (fun _ _ h => h) h hs (.cons hb (.cons hb' .nil)) ?_
  intro c e e' hn hp he env F log
  rw [show e' = e from he]
  by_cases hm' : cs.any (·.matches e.cls) = true
  · exact ⟨r.gives, hT r (List.mem_singleton_self _) c e (hk _ hn).2 ((hc _).symm.trans hm'), handle_first hm hm0 hg e env F log hm'⟩
  · have hne : ¬ ([Catch.attributeError].any (·.matches e.cls) = true) := by
      have := hO c e hp
      simpa [NotOld, (hk _ hn).1, Catch.matches] using this
    refine ⟨e, T.self c e, ?_⟩
    rw [handle_other e env hm', handle_other e env hne]
    rfl

/-- What is raised by the body of the `try` in `confirm_code` (`bip38.py:440`). -/
def Tr.inner (T : Tr) : Tr := ⟨T.passed, Becomes [.publicBytes, .publicPoint], fun _ _ => .inl rfl⟩

theorem covers_inner (T : Tr) : Covers T.inner [.publicBytes, .publicPoint] := fun r hr _ _ hk hc => .inr ⟨r, hr, hk, hc, rfl⟩

theorem st_try_key {n m : Kind → Nat} {K : Ctx} {xs : List Stmt} {ys : List Src.Stmt} {ss : List Stmt} {ss' : List Src.Stmt} (hT : Covers T [.confirmationKey])
    (a : List Name) (h : StB T.inner I xs ys) (hs : SimS n K (block xs) (Src.block ys)) (hk : ∀ k, n k ≠ 0 → k ∈ Rule.confirmationKey.kinds)
    (hm : SimS m anything (block ss) (Src.block ss')) (hm0 : ∀ k, m k = 0) (hb : StB T I ss ss')
    (hg : ∀ env, Src.block ss' env = some (.error Rule.confirmationKey.gives)) :
    StS T I (sTry a xs [([.only .secp256k1Error], ss)]) (Src.sTry a ys [([.only .secp256k1Error], ss')]) := by
  refine st_try (T' := T.inner) a (fun _ _ h => h) h hs (.cons hb .nil) ?_
  intro c e e' hn _ he env F log
  by_cases hm' : [Catch.only .secp256k1Error].any (·.matches e'.cls) = true
  · refine ⟨_, hT .confirmationKey (List.mem_singleton_self _) c e (hk _ hn) ?_, handle_first hm hm0 hg e' env F log hm'⟩
    rcases he with rfl | ⟨r, hr, _, hcat, rfl⟩
    · simp only [List.any_cons, List.any_nil, Bool.or_false, Catch.matches] at hm'
      simp only [Rule.catches, decide_eq_true_eq] at hm' ⊢
      exact .inl hm'
    · have : e.cls = .other "MalformedPointError" := by
        simp only [List.mem_cons, List.not_mem_nil, or_false] at hr
        rcases hr with rfl | rfl <;> simpa [Rule.catches] using hcat
      simp [Rule.catches, this]
  · refine ⟨e', ?_, ?_⟩
    · rcases he with rfl | ⟨r, hr, _, _, rfl⟩
      · exact T.self c _
      · refine absurd ?_ hm'
        simp only [List.mem_cons, List.not_mem_nil, or_false] at hr
        rcases hr with rfl | rfl <;> rfl
    · rw [handle_other e' env hm']
      rfl

end Bip38.SrcX
