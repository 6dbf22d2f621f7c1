import Verif.SrcX.Sim
/-!
# How many external calls a text makes before it gives a value

For every construct: lower bounds for its parts give one for the construct.
-/
namespace Bip38.SrcX

open Bip38.Src

variable {α β : Type}

/-! ### Bounds -/

/-- A lower bound; `none` where there is no value at all. -/
abbrev Lo := Work → Option Nat

/-- The number reaches the bound. -/
def reach : Option Nat → Nat → Prop
  | none, _ => False
  | some n, k => n ≤ k

/-- One after the other. -/
def oadd : Option Nat → Option Nat → Option Nat
  | some n, some m => some (n + m)
  | _, _ => none

/-- One of two. -/
def omin : Option Nat → Option Nat → Option Nat
  | some n, some m => some (min n m)
  | some n, none => some n
  | none, b => b

/-- Comparison. -/
def ole : Option Nat → Option Nat → Bool
  | _, none => true
  | some n, some m => Nat.ble n m
  | none, some _ => false

theorem reach_add {a b : Option Nat} {n m : Nat} (h : reach a n) (h' : reach b m) : reach (oadd a b) (n + m) := by
  cases a <;> cases b <;> first | exact h | exact h' | exact Nat.add_le_add h h'

theorem reach_left {a b : Option Nat} {n : Nat} (h : reach a n) : reach (omin a b) n := by
  cases a
  · cases h
  · cases b
    · exact h
    · exact (Nat.min_le_left _ _).trans h

theorem reach_right {a b : Option Nat} {n : Nat} (h : reach b n) : reach (omin a b) n := by
  cases b
  · cases h
  · cases a
    · exact h
    · exact (Nat.min_le_right _ _).trans h

theorem reach_le {a b : Option Nat} {n : Nat} (h : reach b n) (hab : ole a b = true) : reach a n := by
  cases b
  · cases h
  · cases a
    · cases hab
    · exact (Nat.le_of_ble_eq_true hab).trans h

theorem reach_zero (n : Nat) : reach (some 0) n := Nat.zero_le n

theorem answered_append (w : Work) (F : Faults) (s : Nat) (a b : List Call) :
    answered w F s (a ++ b) = answered w F s a + answered w F (s + a.length) b := by
  unfold answered
  rw [List.zipIdx_append, List.countP_append]

/-- Before a value is given, at least `a w` calls do the work `w`, and do not raise. -/
def Low (a : Lo) (x : Run α) : Prop :=
  ∀ F log r log', x F log = some (r, log') → ∃ done, log' = log ++ done ∧ ∀ v, r = .ok v → ∀ w, reach (a w) (answered w F log.length done)

variable {a b c d : Lo}

theorem Low.le {x : Run α} (h : Low b x) (hab : ∀ w, ole (a w) (b w) = true) : Low a x := fun F log r log' hx =>
  have ⟨done, hd, hr⟩ := h F log r log' hx
  ⟨done, hd, fun v hv w => reach_le (hr v hv w) (hab w)⟩

theorem low_of_sim {n : Kind → Nat} {K : Ctx} {x : Run α} {y : Src.Run α} (h : Sim n K x y) : Low (fun _ => some 0) x := fun F log r log' hx =>
  have ⟨done, hd, _⟩ := h.tracks F log r log' hx
  ⟨done, hd, fun _ _ _ => reach_zero _⟩

theorem low_lift (r : Src.Run α) : Low (fun _ => some 0) (lift r) := low_of_sim (K := anything) (sim_lift r)

theorem low_pure (v : α) : Low (fun _ => some 0) (pure v : Run α) := low_lift (pure v)

theorem low_stuck : Low (fun _ => none) (Run.stuck : Run α) := by
  intro F log r log' h
  cases h

theorem low_raise (k : ExcClass) (s : String) : Low (fun _ => none) (Run.raise k s : Run α) := by
  intro F log r log' h
  cases h
  refine ⟨[], (List.append_nil _).symm, ?_⟩
  intro v hv
  cases hv

theorem low_ask (k : Call) (r : Src.Run α) (h : ∀ w, a w ≠ some 0 → a w = some 1 ∧ w.Fits k) : Low a (ask k r) := by
  intro F log x log' hx
  refine ⟨[k], ?_, ?_⟩
  · unfold ask at hx
    cases hF : F log.length k with
    | some e =>
      rw [hF] at hx
      cases hx
      rfl
    | none =>
      rw [hF] at hx
      cases r with
      | none => cases hx
      | some r =>
        cases hx
        rfl
  · intro v hv w
    by_cases h0 : a w = some 0
    · rw [h0]
      exact reach_zero _
    · obtain ⟨h1, hw⟩ := h w h0
      rw [h1]
      unfold ask at hx
      cases hF : F log.length k with
      | some e =>
        rw [hF] at hx
        cases hx
        cases hv
      | none =>
        change 1 ≤ answered w F log.length [k]
        unfold answered
        simp [hw, hF]

theorem low_bind_post {x : Run α} {f : α → Run β} (Q : α → Prop) (hx : Low a x) (hQ : ∀ F log v log', x F log = some (.ok v, log') → Q v)
    (hf : ∀ v, Q v → Low b (f v)) : Low (fun w => oadd (a w) (b w)) (x >>= f) := by
  intro F log r log' h
  change Run.bind x f F log = _ at h
  unfold Run.bind at h
  rcases hX : x F log with _ | ⟨e | v, l⟩
  · rw [hX] at h
    cases h
  · rw [hX] at h
    cases h
    obtain ⟨done, hd, _⟩ := hx F log _ _ hX
    exact ⟨done, hd, fun _ hv => nomatch hv⟩
  · rw [hX] at h
    obtain ⟨done, hd, hr⟩ := hx F log _ l hX
    obtain ⟨done', hd', hr'⟩ := hf v (hQ F log v l hX) F l r log' h
    refine ⟨done ++ done', by rw [hd', hd, List.append_assoc], fun u hu w => ?_⟩
    rw [answered_append]
    refine reach_add (hr v rfl w) ?_
    have := hr' u hu w
    rwa [hd, List.length_append] at this

theorem low_bind {x : Run α} {f : α → Run β} (hx : Low a x) (hf : ∀ v, Low b (f v)) : Low (fun w => oadd (a w) (b w)) (x >>= f) :=
  low_bind_post (fun _ => True) hx (fun _ _ _ _ _ => trivial) fun v _ => hf v

theorem ole_zero (o : Option Nat) : ole o (oadd o (some 0)) = true := by
  cases o with
  | none => rfl
  | some n => exact Nat.ble_eq_true_of_le (Nat.le_refl n)

theorem ole_zero_left (o : Option Nat) : ole o (oadd (some 0) o) = true := by
  cases o with
  | none => rfl
  | some n => exact Nat.ble_eq_true_of_le (Nat.zero_add n).ge

theorem low_bind_pure {x : Run α} {f : α → Run β} (hx : Low a x) (hf : ∀ v, Low (fun _ => some 0) (f v)) : Low a (x >>= f) :=
  (low_bind hx hf).le fun w => ole_zero (a w)

theorem low_pure_bind {x : Run α} {f : α → Run β} (hx : Low (fun _ => some 0) x) (hf : ∀ v, Low a (f v)) : Low a (x >>= f) :=
  (low_bind hx hf).le fun w => ole_zero_left (a w)

theorem Low.left {x : Run α} (h : Low a x) : Low (fun w => omin (a w) (b w)) x := fun F log r log' hx =>
  have ⟨done, hd, hr⟩ := h F log r log' hx
  ⟨done, hd, fun v hv w => reach_left (hr v hv w)⟩

theorem Low.right {x : Run α} (h : Low b x) : Low (fun w => omin (a w) (b w)) x := fun F log r log' hx =>
  have ⟨done, hd, hr⟩ := h F log r log' hx
  ⟨done, hd, fun v hv w => reach_right (hr v hv w)⟩

theorem low_ite {p : Prop} [Decidable p] {x y : Run α} (h : Low a x) (h' : Low b y) : Low (fun w => omin (a w) (b w)) (if p then x else y) := by
  split
  · exact h.left
  · exact h'.right

theorem Low.zero {x : Run α} (h : Low a x) : Low (fun _ => some 0) x := fun F log r log' hx =>
  have ⟨done, hd, _⟩ := h F log r log' hx
  ⟨done, hd, fun _ _ _ => reach_zero _⟩

/-! ### Expressions -/

/-- Expressions. -/
def LowE (a : Lo) (x : Expr) : Prop := ∀ env, Low a (x env)

/-- Functions. -/
def LowF (a : Lo) (x : Fn) : Prop := ∀ args kw, Low a (x args kw)

/-- Methods of built-in and external classes. -/
def LowM (a : Lo) (x : Val → Fn) : Prop := ∀ v, LowF a (x v)

/-- Lists of expressions. -/
def LowL (a : Lo) (xs : List Expr) : Prop := ∀ env, Low a (evalList xs env)

/-- Keyword arguments. -/
def LowK {κ : Type} (a : Lo) (xs : List (κ × Expr)) : Prop := ∀ env, Low a (evalKw xs env)

/-- Tables of methods. -/
def LowT (a : Lo) (t : List (Cls × Fn)) : Prop := ∀ k v kw, Low a (method t k v kw)

/-- Parts of f-strings. -/
def LowP (xs : List Part) : Prop := ∀ env, Low (fun _ => some 0) (formatParts xs env)

/-- Bounds of slices. -/
def LowO (a : Lo) (x : Option Expr) : Prop := ∀ env, Low a (evalBound x env)

/-- Chains of comparisons. -/
def LowC (a : Lo) (xs : List (CmpOp × Expr)) : Prop := ∀ v env, Low a (compareRest v xs env)

theorem low_const (v : Val) : LowE (fun _ => some 0) (eConst v) := fun _ => low_pure v

theorem low_global {x : Run Val} (h : Low a x) : LowE a (eGlobal x) := fun _ => h

theorem low_name (n : Name) : LowE (fun _ => some 0) (eName n) := by
  intro env
  unfold eName
  cases env n
  · exact low_stuck.zero
  · exact low_pure _

theorem low_attr {x : Expr} (h : LowE a x) (n : Name) : LowE a (eAttr x n) := fun env => low_bind_pure (h env) fun _ => low_lift _

theorem low_index {x y : Expr} (h : LowE a x) (h' : LowE b y) : LowE (fun w => oadd (a w) (b w)) (eIndex x y) :=
  fun env => low_bind (h env) fun _ => low_bind_pure (h' env) fun _ => low_lift _

theorem lowO_none : LowO (fun _ => some 0) none := fun _ => low_pure _

theorem lowO_some {x : Expr} (h : LowE a x) : LowO a (some x) := fun env => low_bind_pure (h env) fun _ => low_lift _

theorem low_slice {x : Expr} {y z : Option Expr} (h : LowE a x) (h1 : LowO b y) (h2 : LowO c z) :
    LowE (fun w => oadd (a w) (oadd (b w) (c w))) (eSlice x y z) :=
  fun env => low_bind (h env) fun _ => low_bind (h1 env) fun _ => low_bind_pure (h2 env) fun _ => low_lift _

theorem low_reverse {x : Expr} (h : LowE a x) : LowE a (eReverse x) := fun env => low_bind_pure (h env) fun _ => low_lift _

theorem lowL_nil : LowL (fun _ => some 0) [] := fun _ => low_pure _

theorem lowL_cons {x : Expr} {xs : List Expr} (h : LowE a x) (h' : LowL b xs) : LowL (fun w => oadd (a w) (b w)) (x :: xs) :=
  fun env => low_bind (h env) fun _ => low_bind_pure (h' env) fun _ => low_pure _

theorem lowK_nil {κ : Type} : LowK (fun _ => some 0) ([] : List (κ × Expr)) := fun _ => low_pure _

theorem lowK_cons {κ : Type} {n : κ} {x : Expr} {xs : List (κ × Expr)} (h : LowE a x) (h' : LowK b xs) :
    LowK (fun w => oadd (a w) (b w)) ((n, x) :: xs) :=
  fun env => low_bind (h env) fun _ => low_bind_pure (h' env) fun _ => low_pure _

theorem low_list {xs : List Expr} (h : LowL a xs) : LowE a (eList xs) := fun env => low_bind_pure (h env) fun _ => low_pure _

theorem low_tuple {xs : List Expr} (h : LowL a xs) : LowE a (eTuple xs) := fun env => low_bind_pure (h env) fun _ => low_pure _

theorem low_dict {xs : List (String × Expr)} (h : LowK a xs) : LowE a (eDict xs) := fun env => low_bind_pure (h env) fun _ => low_pure _

theorem low_call {f : Fn} {xs : List Expr} {ks : List (Name × Expr)} (hf : LowF c f) (h : LowL a xs) (h' : LowK b ks) :
    LowE (fun w => oadd (a w) (oadd (b w) (c w))) (eCall f xs ks) :=
  fun env => low_bind (h env) fun _ => low_bind (h' env) fun _ => hf _ _

theorem lowT_nil : LowT (fun _ => none) [] := fun _ _ _ => low_stuck

theorem lowT_cons {k : Cls} {f : Fn} {t : List (Cls × Fn)} (h : LowF a f) (h' : LowT b t) : LowT (fun w => omin (a w) (b w)) ((k, f) :: t) := by
  intro k' v kw
  unfold method
  split
  · exact (h _ _).left
  · exact (h' _ _ _).right

theorem low_methodCall {t : List (Cls × Fn)} {m : Val → Fn} {x : Expr} {xs : List Expr} {ks : List (Name × Expr)} {e : Lo} (ht : LowT d t)
    (hm : LowM e m) (hx : LowE a x) (h : LowL b xs) (h' : LowK c ks) :
    LowE (fun w => oadd (a w) (oadd (b w) (oadd (c w) (omin (d w) (e w))))) (eMethod t m x xs ks) := by
  refine fun env => low_bind (hx env) fun v => low_bind (h env) fun as => low_bind (h' env) fun kw => ?_
  have hv := (hm v as kw).right (a := d)
  cases v <;> first | exact hv | exact (ht _ _ _).left

theorem low_bin {t s : List (Cls × Fn)} {op : BinOp} {x y : Expr} (ht : LowT c t) (hs : LowT d s) (hx : LowE a x) (hy : LowE b y) :
    LowE (fun w => oadd (a w) (b w)) (eBin t s op x y) := by
  refine fun env => low_bind (hx env) fun v => low_bind_pure (hy env) fun w => ?_
  cases v <;> first | exact (ht _ _ _).zero | (cases w <;> first | exact low_lift _ | exact (hs _ _ _).zero)

theorem low_not {x : Expr} (h : LowE a x) : LowE a (eNot x) := fun env => low_bind_pure (h env) fun _ => low_pure _

theorem low_neg {x : Expr} (h : LowE a x) : LowE a (eNeg x) := fun env => low_bind_pure (h env) fun _ => low_lift _

theorem low_invert {x : Expr} (h : LowE a x) : LowE a (eInvert x) := fun env => low_bind_pure (h env) fun _ => low_lift _

theorem low_and {x y : Expr} (h : LowE a x) (h' : LowE b y) : LowE a (eAnd x y) :=
  fun env => low_bind_pure (h env) fun _ => (low_ite (h' env) (low_pure _)).zero

theorem low_or {x y : Expr} (h : LowE a x) (h' : LowE b y) : LowE a (eOr x y) :=
  fun env => low_bind_pure (h env) fun _ => (low_ite (low_pure _) (h' env)).zero

theorem low_if {x y z : Expr} (h : LowE a x) (h' : LowE b y) (h'' : LowE c z) : LowE (fun w => oadd (a w) (omin (b w) (c w))) (eIf x y z) :=
  fun env => low_bind (h env) fun _ => low_ite (h' env) (h'' env)

theorem lowC_nil : LowC (fun _ => some 0) [] := fun _ _ => low_pure _

theorem lowC_cons {o : CmpOp} {x : Expr} {xs : List (CmpOp × Expr)} (h : LowE a x) (h' : LowC b xs) : LowC a ((o, x) :: xs) :=
  fun _ env => low_bind_pure (h env) fun w => low_bind_pure (low_lift _) fun _ => (low_ite (h' w env) (low_pure _)).zero

theorem low_compare {x : Expr} {xs : List (CmpOp × Expr)} (h : LowE a x) (h' : LowC b xs) : LowE (fun w => oadd (a w) (b w)) (eCompare x xs) :=
  fun env => low_bind (h env) fun v => low_bind_pure (h' v env) fun _ => low_pure _

theorem lowP_nil : LowP [] := fun _ => low_pure _

theorem lowP_lit {s : String} {xs : List Part} (h : LowP xs) : LowP (.lit s :: xs) := fun env => low_bind_pure (h env) fun _ => low_pure _

theorem lowP_val {x : Expr} {xs : List Part} (h : LowE a x) (h' : LowP xs) : LowP (.val x :: xs) :=
  fun env => low_bind_pure (h env).zero fun _ => low_bind_pure (low_lift _) fun _ => low_bind_pure (h' env) fun _ => low_pure _

theorem low_format {xs : List Part} (h : LowP xs) : LowE (fun _ => some 0) (eFormat xs) := fun env => low_bind_pure (h env) fun _ => low_pure _

theorem low_kwargsGet {x y : Expr} (h : LowE a x) (n : Name) (h' : LowE b y) : LowE (fun w => oadd (a w) (b w)) (eKwargsGet x n y) :=
  fun env => low_bind (h env) fun _ => low_bind_pure (h' env) fun _ => low_lift _

/-! ### Statements -/

/-- Statements: bounds for going on (`a`) and for returning (`b`). -/
def LowS (a b : Lo) (s : Stmt) : Prop :=
  ∀ env F log r log', s env F log = some (r, log') → ∃ done, log' = log ++ done ∧
    (∀ env', r = .ok (.next env') → ∀ w, reach (a w) (answered w F log.length done)) ∧
    ∀ v, r = .ok (.ret v) → ∀ w, reach (b w) (answered w F log.length done)

/-- A statement after which the text goes on. -/
theorem lowS_next {s : Stmt} {x : Env → Run Env} (hs : ∀ env, s env = x env >>= fun e => pure (.next e)) (h : ∀ env, Low a (x env)) :
    LowS a (fun _ => none) s := by
  intro env F log r log' hr
  rw [hs] at hr
  change Run.bind _ _ F log = _ at hr
  unfold Run.bind at hr
  rcases hX : x env F log with _ | ⟨e | v, l⟩ <;> rw [hX] at hr <;> cases hr <;> obtain ⟨done, hd, hr⟩ := h env F log _ _ hX
  · exact ⟨done, hd, fun _ h => (nomatch h), fun _ h => (nomatch h)⟩
  · exact ⟨done, hd, fun _ _ => hr _ rfl, fun _ h => (nomatch h)⟩

theorem run_assoc {γ : Type} (x : Run α) (f : α → Run β) (g : β → Run γ) : x >>= f >>= g = x >>= fun v => f v >>= g := by
  funext F log
  change Run.bind (Run.bind x f) g F log = Run.bind x (fun v => Run.bind (f v) g) F log
  unfold Run.bind
  rcases x F log with _ | ⟨e | v, l⟩ <;> rfl

theorem low_assign {x : Expr} (t : Target) (h : LowE a x) : LowS a (fun _ => none) (sAssign t x) :=
  lowS_next (x := fun env => x env >>= fun v => lift (t.assign v env)) (fun _ => (run_assoc _ _ _).symm)
    fun env => low_bind_pure (h env) fun _ => low_lift _

theorem low_unpack {x : Expr} (ts : List Target) (h : LowE a x) : LowS a (fun _ => none) (sUnpack ts x) :=
  lowS_next (x := fun env => x env >>= fun v => lift (iterate v) >>= fun vs => lift (assignAll ts vs env))
    (fun _ => by
      rw [run_assoc]
      simp only [run_assoc]
      rfl)
    fun env => low_bind_pure (h env) fun _ => low_bind_pure (low_lift _) fun _ => low_lift _

theorem low_expr {x : Expr} (h : LowE a x) : LowS a (fun _ => none) (sExpr x) :=
  lowS_next (x := fun env => x env >>= fun _ => pure env)
    (fun _ => by
      rw [run_assoc]
      rfl)
    fun env => low_bind_pure (h env) fun _ => low_pure _

theorem low_pass : LowS (fun _ => some 0) (fun _ => none) sPass := lowS_next (x := pure) (fun _ => rfl) fun _ => low_pure _

/-- A statement that returns. -/
theorem low_return {x : Expr} (h : LowE a x) : LowS (fun _ => none) a (sReturn x) := by
  intro env F log r log' hr
  change Run.bind (x env) (fun v => pure (Outcome.ret v)) F log = _ at hr
  unfold Run.bind at hr
  rcases hX : x env F log with _ | ⟨e | v, l⟩ <;> rw [hX] at hr <;> cases hr <;> obtain ⟨done, hd, hr⟩ := h env F log _ _ hX
  · exact ⟨done, hd, fun _ h => (nomatch h), fun _ h => (nomatch h)⟩
  · exact ⟨done, hd, fun _ h => (nomatch h), fun _ _ => hr _ rfl⟩

/-- A computation without a value. -/
theorem lowS_never {s : Stmt} (h : ∀ env, Low (fun _ => none) (s env)) : LowS (fun _ => none) (fun _ => none) s := by
  intro env F log r log' hr
  obtain ⟨done, hd, hr⟩ := h env F log r log' hr
  exact ⟨done, hd, fun _ h => hr _ h, fun _ h => hr _ h⟩

theorem low_never {x : Run α} {f : α → Run β} (hx : Low a x) (hf : ∀ v, Low (fun _ => none) (f v)) : Low (fun _ => none) (x >>= f) :=
  (low_bind hx hf).le fun w => by cases a w <;> rfl

theorem low_sRaise {f : Fn} {x : Expr} (hf : LowF b f) (h : LowE a x) : LowS (fun _ => none) (fun _ => none) (sRaise f x) := by
  refine lowS_never fun env => low_never (h env) fun v => ?_
  unfold raiseVal
  split
  · split
    · refine low_never (hf _ _) fun t => ?_
      unfold raiseText
      split
      · exact low_raise _ _
      · exact low_stuck
    · split
      · exact low_raise _ _
      · exact low_stuck
  · exact low_stuck

theorem low_block_nil : LowS (fun _ => some 0) (fun _ => none) (block []) := lowS_next (x := pure) (fun _ => rfl) fun _ => low_pure _

theorem low_block_cons {s : Stmt} {ss : List Stmt} (h : LowS a b s) (h' : LowS c d (block ss)) :
    LowS (fun w => oadd (a w) (c w)) (fun w => omin (b w) (oadd (a w) (d w))) (block (s :: ss)) := by
  intro env F log r log' hr
  change Run.bind (s env) _ F log = _ at hr
  unfold Run.bind at hr
  rcases hX : s env F log with _ | ⟨e | (env' | v), l⟩
  · rw [hX] at hr
    cases hr
  · rw [hX] at hr
    cases hr
    obtain ⟨done, hd, _⟩ := h env F log _ _ hX
    exact ⟨done, hd, fun _ h => (nomatch h), fun _ h => (nomatch h)⟩
  · rw [hX] at hr
    obtain ⟨done, hd, hn, _⟩ := h env F log _ _ hX
    obtain ⟨done', hd', hn', hr'⟩ := h' env' F l r log' hr
    rw [hd, List.length_append] at hn' hr'
    refine ⟨done ++ done', by rw [hd', hd, List.append_assoc], fun e he w => ?_, fun v hv w => ?_⟩ <;> rw [answered_append]
    · exact reach_add (hn _ rfl w) (hn' e he w)
    · exact reach_right (reach_add (hn _ rfl w) (hr' v hv w))
  · rw [hX] at hr
    cases hr
    obtain ⟨done, hd, _, hv⟩ := h env F log _ _ hX
    exact ⟨done, hd, fun _ h => (nomatch h), fun _ _ w => reach_left (hv _ rfl w)⟩

theorem low_sIf {e : Lo} {x : Expr} {p q : List Stmt} (h : LowE e x) (h1 : LowS a b (block p)) (h2 : LowS c d (block q)) :
    LowS (fun w => oadd (e w) (omin (a w) (c w))) (fun w => oadd (e w) (omin (b w) (d w))) (sIf x p q) := by
  intro env F log r log' hr
  change Run.bind (x env) _ F log = _ at hr
  unfold Run.bind at hr
  rcases hX : x env F log with _ | ⟨e | v, l⟩
  · rw [hX] at hr
    cases hr
  · rw [hX] at hr
    cases hr
    obtain ⟨done, hd, _⟩ := h env F log _ _ hX
    exact ⟨done, hd, fun _ h => (nomatch h), fun _ h => (nomatch h)⟩
  · rw [hX] at hr
    obtain ⟨done, hd, hc⟩ := h env F log _ _ hX
    dsimp only at hr
    by_cases ht : truthy v = true
    · rw [if_pos ht] at hr
      obtain ⟨done', hd', hn', hr'⟩ := h1 env F l r log' hr
      rw [hd, List.length_append] at hn' hr'
      refine ⟨done ++ done', by rw [hd', hd, List.append_assoc], fun e he w => ?_, fun u hu w => ?_⟩ <;> rw [answered_append]
      · exact reach_add (hc v rfl w) (reach_left (hn' e he w))
      · exact reach_add (hc v rfl w) (reach_left (hr' u hu w))
    · rw [if_neg ht] at hr
      obtain ⟨done', hd', hn', hr'⟩ := h2 env F l r log' hr
      rw [hd, List.length_append] at hn' hr'
      refine ⟨done ++ done', by rw [hd', hd, List.append_assoc], fun e he w => ?_, fun u hu w => ?_⟩ <;> rw [answered_append]
      · exact reach_add (hc v rfl w) (reach_right (hn' e he w))
      · exact reach_add (hc v rfl w) (reach_right (hr' u hu w))

/-- Handlers. -/
def LowH (a b : Lo) (hs : List (List Catch × List Stmt)) : Prop := ∀ e, LowS a b (handle e hs)

theorem lowH_nil : LowH (fun _ => none) (fun _ => none) [] := by
  intro e env F log r log' h
  cases h
  exact ⟨[], (List.append_nil _).symm, fun _ h => (nomatch h), fun _ h => (nomatch h)⟩

theorem lowH_cons {cs : List Catch} {ss : List Stmt} {hs : List (List Catch × List Stmt)} (h : LowS a b (block ss)) (h' : LowH c d hs) :
    LowH (fun w => omin (a w) (c w)) (fun w => omin (b w) (d w)) ((cs, ss) :: hs) := by
  intro e env F log r log' hr
  unfold handle at hr
  split at hr
  · obtain ⟨done, hd, hn, hv⟩ := h env F log r log' hr
    exact ⟨done, hd, fun e he w => reach_left (hn e he w), fun v hu w => reach_left (hv v hu w)⟩
  · obtain ⟨done, hd, hn, hv⟩ := h' e env F log r log' hr
    exact ⟨done, hd, fun e he w => reach_right (hn e he w), fun v hu w => reach_right (hv v hu w)⟩

theorem low_try {ns : List Name} {ss : List Stmt} {hs : List (List Catch × List Stmt)} (h : LowS a b (block ss)) (h' : LowH c d hs) :
    LowS (fun w => omin (a w) (c w)) (fun w => omin (b w) (d w)) (sTry ns ss hs) := by
  intro env F log r log' hr
  unfold sTry at hr
  rcases hX : block ss env F log with _ | ⟨e | v, l⟩
  · rw [hX] at hr
    cases hr
  · rw [hX] at hr
    obtain ⟨done, hd, _⟩ := h env F log _ _ hX
    obtain ⟨done', hd', hn, hv⟩ := h' e _ F l r log' hr
    rw [hd, List.length_append] at hn hv
    have more : ∀ {o : Option Nat} {w : Work} {k : Nat}, reach o (answered w F (log.length + done.length) done') →
        k = answered w F log.length done + answered w F (log.length + done.length) done' → reach o k := by
      intro o w k ho hk
      rw [hk]
      cases o with
      | none => exact ho
      | some n => exact Nat.le_trans ho (Nat.le_add_left _ _)
    refine ⟨done ++ done', by rw [hd', hd, List.append_assoc], fun e he w => reach_right (more (hn e he w) (answered_append ..)),
      fun u hu w => reach_right (more (hv u hu w) (answered_append ..))⟩
  · rw [hX] at hr
    cases hr
    obtain ⟨done, hd, hn, hv⟩ := h env F log _ _ hX
    exact ⟨done, hd, fun e he w => reach_left (hn e he w), fun u hu w => reach_left (hv u hu w)⟩

/-! ### Functions -/

/-- Parameters. -/
def LowR (ps : List Param) : Prop := ∀ rest args kw env, Low (fun _ => some 0) (bindParams rest ps args kw env)

theorem lowR_nil : LowR [] := by
  intro rest args kw env
  cases args with
  | nil =>
    cases rest with
    | none => cases kw <;> first | exact low_pure _ | exact (low_raise _ _).zero
    | some r => exact low_pure _
  | cons v vs => exact (low_raise _ _).zero

theorem lowR_none {n : Name} {ps : List Param} (h : LowR ps) : LowR (⟨n, none⟩ :: ps) := by
  intro rest args kw env
  cases args <;> unfold bindParams <;> cases getField kw n <;> first | exact h _ _ _ _ | exact (low_raise _ _).zero

theorem lowR_some {n : Name} {ps : List Param} {x : Expr} (hx : LowE a x) (h : LowR ps) : LowR (⟨n, some (x Env.empty)⟩ :: ps) := by
  intro rest args kw env
  cases args <;> unfold bindParams <;> cases getField kw n <;>
    first | exact h _ _ _ _ | exact (low_raise _ _).zero | exact low_bind_pure (hx _).zero fun _ => h _ _ _ _

/-- The two ways a body ends. -/
theorem low_outcome {s : Stmt} (h : LowS a b s) (env : Env) : Low (fun w => omin (a w) (b w)) (s env) := by
  intro F log r log' hr
  obtain ⟨done, hd, hn, hv⟩ := h env F log r log' hr
  refine ⟨done, hd, fun o ho w => ?_⟩
  cases o with
  | next e => exact reach_left (hn e ho w)
  | ret v => exact reach_right (hv v ho w)

theorem low_defun {ps : List Param} {ss : List Stmt} (rest : Option Name) (h : LowR ps) (hb : LowS a b (block ss)) :
    LowF (fun w => omin (a w) (b w)) (defun ps rest ss) :=
  fun args kw => low_pure_bind (h rest args kw _) fun env => low_bind_pure (low_outcome hb env) fun _ => low_pure _

theorem low_defclass {ps : List Param} {ss : List Stmt} (k : Cls) (h : LowR ps) (hb : LowS a b (block ss)) :
    LowF (fun w => omin (a w) (b w)) (defclass k ps ss) :=
  fun args kw => low_pure_bind (h _ args kw _) fun env => low_bind_pure (low_outcome hb env) fun _ => low_lift _

theorem LowF.le {x : Fn} (h : LowF b x) (hab : ∀ w, ole (a w) (b w) = true) : LowF a x := fun args kw => (h args kw).le hab

theorem lowF_of_sim {n : Kind → Nat} {K : Ctx} {x : Fn} {y : Src.Fn} (h : SimF n K x y) : LowF (fun _ => some 0) x := fun args kw => low_of_sim (h args kw)

/-- The bound of one call. -/
def once (k : Kind) : Lo := fun w => if w = .of k then some 1 else some 0

theorem low_external (k : Kind) (f : Src.Fn) : LowF (once k) (external k f) := by
  refine fun args kw => low_ask _ _ fun w h => ?_
  unfold once at h ⊢
  by_cases hw : w = .of k
  · rw [if_pos hw, hw]
    exact ⟨rfl, rfl⟩
  · exact absurd (if_neg hw) h

/-- A method that other values than the objects of the external class do not have. -/
theorem low_externalMethod (k : Kind) {mine : Val → Bool} {m : Val → Src.Fn} (h : ∀ v args kw, mine v = false → m v args kw = none) :
    LowM (once k) (externalMethod k mine m) := by
  intro v args kw
  unfold externalMethod
  by_cases hv : mine v = true
  · rw [if_pos hv]
    exact low_external k (fun _ _ => m v args kw) (v :: args) kw
  · rw [if_neg hv, h v args kw (by simpa using hv)]
    intro F log r log' hr
    cases hr

/-- A method that other values may have too. -/
theorem low_otherMethod (k : Kind) (mine : Val → Bool) (m : Val → Src.Fn) : LowM (fun _ => some 0) (externalMethod k mine m) := by
  intro v args kw
  unfold externalMethod
  split
  · exact (low_external k (fun _ _ => m v args kw) (v :: args) kw).zero
  · exact low_lift _

/-! ### Calls of `scrypt.hash` -/

/-- The bound of one call with these parameters. -/
def stretch (u : Use) : Lo := fun w =>
  if w = .of .scrypt then some 1
  else if w = .slow ∧ (u = .scrypt 16384 8 8 ∨ u = .scryptOf 16384 8 8 32) then some 1
  else if w = .fast ∧ u = .scryptOf 1024 1 1 64 then some 1
  else some 0

theorem low_stretch {u : Use} {k : Call} (r : Src.Run α) (hk : k.kind = .scrypt) (hu : u.Fits k) : Low (stretch u) (ask k r) := by
  refine low_ask k r fun w h => ?_
  unfold stretch at h ⊢
  split
  · next hw =>
    subst hw
    exact ⟨rfl, hk⟩
  · next h1 =>
    rw [if_neg h1] at h
    split
    · next hw =>
      obtain ⟨rfl, rfl | rfl⟩ := hw
      · exact ⟨rfl, .inl hu⟩
      · exact ⟨rfl, .inr hu⟩
    · next h2 =>
      rw [if_neg h2] at h
      split
      · next hw =>
        obtain ⟨rfl, rfl⟩ := hw
        exact ⟨rfl, hu⟩
      · next h3 =>
        rw [if_neg h3] at h
        exact absurd rfl h

theorem low_call_fixed {u : Use} {f : Src.Fn} {xs : List Expr}
    (hg : ∀ env F vs, List.Forall₂ (fun x v => ∃ l l', x env F l = some (.ok v, l')) xs vs → u.Fits ⟨.scrypt, vs, []⟩) (h : LowL a xs) :
    LowE (fun w => oadd (a w) (stretch u w)) (eCall (external .scrypt f) xs []) := by
  intro env
  refine low_bind_post (fun vs => u.Fits ⟨.scrypt, vs, []⟩) (h env) (fun F log vs log' hv => hg env F vs (evalList_gives hv)) fun vs hv => ?_
  exact low_stretch (k := ⟨.scrypt, vs, []⟩) _ rfl hv

/-- `scrypt.hash(x, y, N, r, p)` -/
theorem low_scrypt {H : Host} {N r p : Int} {x y : Expr} (hx : LowE a x) (hy : LowE b y) :
    LowE (fun w => oadd (oadd (a w) (oadd (b w) (some 0))) (stretch (.scrypt N r p) w))
      (eCall (xScrypt H) [x, y, eConst (.int N), eConst (.int r), eConst (.int p)] []) := by
  have hl : LowL (fun w => oadd (a w) (oadd (b w) (some 0))) [x, y, eConst (.int N), eConst (.int r), eConst (.int p)] :=
    lowL_cons hx (lowL_cons hy (lowL_cons (low_const _) (lowL_cons (low_const _) (lowL_cons (low_const _) lowL_nil))))
  refine low_call_fixed (u := .scrypt N r p) ?_ hl
  rintro env F vs (_ | ⟨_, _ | ⟨_, _ | ⟨h1, _ | ⟨h2, _ | ⟨h3, _ | _⟩⟩⟩⟩⟩)
  rw [const_value h1, const_value h2, const_value h3]
  exact ⟨_, _, rfl⟩

/-- `scrypt.hash(x, y, N, r, p, size)` -/
theorem low_scryptOf {H : Host} {N r p size : Int} {x y : Expr} (hx : LowE a x) (hy : LowE b y) :
    LowE (fun w => oadd (oadd (a w) (oadd (b w) (some 0))) (stretch (.scryptOf N r p size) w))
      (eCall (xScrypt H) [x, y, eConst (.int N), eConst (.int r), eConst (.int p), eConst (.int size)] []) := by
  have hl : LowL (fun w => oadd (a w) (oadd (b w) (some 0))) [x, y, eConst (.int N), eConst (.int r), eConst (.int p), eConst (.int size)] :=
    lowL_cons hx (lowL_cons hy (lowL_cons (low_const _) (lowL_cons (low_const _) (lowL_cons (low_const _) (lowL_cons (low_const _) lowL_nil)))))
  refine low_call_fixed (u := .scryptOf N r p size) ?_ hl
  rintro env F vs (_ | ⟨_, _ | ⟨_, _ | ⟨h1, _ | ⟨h2, _ | ⟨h3, _ | ⟨h4, _ | _⟩⟩⟩⟩⟩⟩)
  rw [const_value h1, const_value h2, const_value h3, const_value h4]
  exact ⟨_, _, rfl⟩

/-! ### Automation -/

/-- The bound given by a list: 0 for what is not listed. -/
def works (l : List (Work × Nat)) : Lo := fun w => some ((l.lookup w).getD 0)

/-- A function that is already known. -/
syntax "low_known" : tactic
macro_rules | `(tactic| low_known) => `(tactic| fail)

/-- One rule. -/
macro "low_rule" : tactic => `(tactic| first
  | (with_reducible first
  | exact low_const _ | exact low_name _ | exact low_pass | exact low_lift _
  | exact lowL_nil | exact lowK_nil | exact lowT_nil | exact lowP_nil | exact lowC_nil | exact lowO_none | exact low_block_nil | exact lowH_nil
  | exact lowR_nil
  | apply low_global | apply low_attr | apply low_index | apply low_slice | apply low_reverse | apply low_list | apply low_tuple
  | apply low_dict | apply low_scrypt | apply low_scryptOf | apply low_call | apply low_methodCall | apply low_bin | apply low_not | apply low_neg
  | apply low_invert | apply low_and | apply low_or | apply low_if | apply low_compare | apply low_format | apply low_kwargsGet
  | apply low_assign | apply low_unpack | apply low_expr | apply low_return | apply low_sIf | apply low_sRaise | apply low_try
  | apply lowL_cons | apply lowK_cons | apply lowT_cons | apply lowP_lit | apply lowP_val | apply lowC_cons | apply lowO_some
  | apply low_block_cons | apply lowH_cons | apply lowR_none | apply lowR_some
  | low_known
  | apply low_defun | apply low_defclass))

/-- Comparison of bounds. -/
macro "low_bound" : tactic => `(tactic| (
  intro w
  rcases w with (_ | _ | _ | _ | _ | _ | _ | _ | _ | _) | _ | _ <;> decide +kernel))

/-- A function, from its text. -/
macro "low_function" : tactic => `(tactic| (apply LowF.le; repeat' low_rule) <;> low_bound)

/-- A constant, from its text. -/
macro "low_value" : tactic => `(tactic| (exact low_of_sim (K := anything) (by sim_known)))

end Bip38.SrcX
