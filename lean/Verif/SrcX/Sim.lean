import Verif.SrcX.Builtin
import Verif.Spec.Faults
/-!
# What a text with faults does, compared with the text without

For every construct: if its parts, with faults, behave like its parts without (`Sim`), then so does the construct.
-/
namespace Bip38.SrcX

open Bip38.Src

variable {α : Type}

/-! ### The relation -/

/-- What is asked of a text: which exceptions are passed on, and which external calls are made; all calls of functions other than `Kind.fixed` are. -/
structure Ctx where
  passed : Call → Exc → Prop
  allowed : Call → Prop
  others : ∀ c, c.kind.fixed = false → allowed c

/-- The calls made. -/
def Tracks (n : Kind → Nat) (G : Call → Prop) (x : Run α) : Prop :=
  ∀ F log r log', x F log = some (r, log') → ∃ done, log' = log ++ done ∧ (∀ k, done.countP (fun c => c.kind = k) ≤ n k) ∧ ∀ c ∈ done, G c

variable {β : Type} {n m : Kind → Nat} {K : Ctx}

/-- See `Spec/Faults.lean`. -/
structure Sim (n : Kind → Nat) (K : Ctx) (x : Run α) (y : Src.Run α) : Prop where
  tracks : Tracks n K.allowed x
  follows : Follows K.passed x y

theorem Sim.bounded {x : Run α} {y : Src.Run α} (h : Sim n K x y) : Bounded n x := fun F log r log' hx =>
  have ⟨done, hd, hk, _⟩ := h.tracks F log r log' hx
  ⟨done, hd, hk⟩

theorem Sim.only {x : Run α} {y : Src.Run α} (h : Sim n K x y) : Only K.allowed x := fun F log r log' hx =>
  have ⟨done, hd, _, hg⟩ := h.tracks F log r log' hx
  ⟨done, hd, hg⟩

theorem quiet_nil (F : Faults) (s : Nat) : Quiet F s [] := by
  intro i c h
  simp at h

theorem quiet_append {F : Faults} {s : Nat} {a b : List Call} (ha : Quiet F s a) (hb : Quiet F (s + a.length) b) : Quiet F s (a ++ b) := by
  intro i c h
  rcases Nat.lt_or_ge i a.length with hi | hi
  · rw [List.getElem?_append_left hi] at h
    exact ha i c h
  · rw [List.getElem?_append_right hi] at h
    have := hb _ c h
    rwa [show s + a.length + (i - a.length) = s + i by omega] at this

theorem Sim.le {x : Run α} {y : Src.Run α} (h : Sim n K x y) (hn : ∀ k, n k ≤ m k) : Sim m K x y where
  tracks := fun F log r log' hx => by
    obtain ⟨done, hd, hk, hg⟩ := h.tracks F log r log' hx
    exact ⟨done, hd, fun k => (hk k).trans (hn k), hg⟩
  follows := h.follows

theorem sim_lift (r : Src.Run α) : Sim (fun _ => 0) K (lift r) r where
  tracks := by
    intro F log x log' h
    refine ⟨[], ?_, fun _ => Nat.le_refl _, fun _ h => absurd h List.not_mem_nil⟩
    cases r with
    | none => cases h
    | some r =>
      cases h
      simp
  follows := by
    intro F log
    refine .inl ⟨[], quiet_nil _ _, ?_⟩
    simp [lift]

theorem sim_pure (a : α) : Sim (fun _ => 0) K (pure a : Run α) (pure a) := sim_lift (pure a)

theorem sim_stuck : Sim (fun _ => 0) K (Run.stuck : Run α) Src.Run.stuck := sim_lift Src.Run.stuck

theorem sim_raise (c : ExcClass) (s : String) : Sim (fun _ => 0) K (Run.raise c s : Run α) (Src.Run.raise c s) := sim_lift (Src.Run.raise c s)

/-- The bound of one call. -/
def one (k : Kind) : Kind → Nat := fun l => if l = k then 1 else 0

theorem sim_ask (c : Call) (hc : K.allowed c) (r : Src.Run α) : Sim (one c.kind) K (ask c r) r where
  tracks := by
    intro F log x log' h
    refine ⟨[c], ?_, fun k => by by_cases hk : k = c.kind <;> simp [one, hk, eq_comm], fun d hd => by
      rw [List.mem_singleton.mp hd]
      exact hc⟩
    unfold ask at h
    cases hF : F log.length c with
    | some e =>
      rw [hF] at h
      cases h
      rfl
    | none =>
      rw [hF] at h
      cases r with
      | none => cases h
      | some r =>
        cases h
        rfl
  follows := by
    intro F log
    cases hF : F log.length c with
    | some e =>
      have h : ask c r F log = some (.error e, log ++ [c]) := by simp [ask, hF]
      refine .inr ⟨[], c, e, quiet_nil _ _, hF, fun _ => ?_, fun r log' hr => ?_⟩
      · rw [h, List.append_nil]
      · rw [h] at hr
        cases hr
        rw [List.append_nil]
        exact List.prefix_rfl
    | none =>
      refine .inl ⟨[c], ?_, ?_⟩
      · intro i d h
        cases i with
        | zero =>
          cases h
          exact hF
        | succ i => simp at h
      · simp only [ask, hF]

theorem tracks_bind {G : Call → Prop} {x : Run α} {f : α → Run β} (hx : Tracks n G x) (hf : ∀ a, Tracks m G (f a)) :
    Tracks (fun k => n k + m k) G (x >>= f) := by
  intro F log r log' h
  change Run.bind x f F log = _ at h
  unfold Run.bind at h
  cases hX : x F log with
  | none =>
    rw [hX] at h
    cases h
  | some p =>
    obtain ⟨p, l⟩ := p
    obtain ⟨d, hd, hk, hg⟩ := hx F log p l hX
    rw [hX] at h
    cases p with
    | error e =>
      cases h
      exact ⟨d, hd, fun k => (hk k).trans (Nat.le_add_right _ _), hg⟩
    | ok a =>
      obtain ⟨d', hd', hk', hg'⟩ := hf a F l r log' h
      refine ⟨d ++ d', by rw [hd', hd, List.append_assoc], fun k => ?_, fun c hc => (List.mem_append.mp hc).elim (hg c) (hg' c)⟩
      rw [List.countP_append]
      exact Nat.add_le_add (hk k) (hk' k)

theorem follows_bind {P : Call → Exc → Prop} {x : Run α} {y : Src.Run α} {f : α → Run β} {g : α → Src.Run β} (hx : Follows P x y)
    (hb : ∀ a, Bounded m (f a)) (hf : ∀ a, Follows P (f a) (g a)) : Follows P (x >>= f) (y >>= g) := by
  intro F log
  change (∃ done, _ ∧ Run.bind x f F log = lift (Src.Run.bind y g) _ _) ∨
    ∃ done c e, _ ∧ _ ∧ (_ → Run.bind x f F log = _) ∧ ∀ r log', Run.bind x f F log = _ → _
  rcases hx F log with ⟨done, hq, h⟩ | ⟨done, c, e, hq, hF, h, hm⟩
  · unfold Run.bind Src.Run.bind
    rw [h]
    rcases y with _ | (e | a)
    · exact .inl ⟨done, hq, rfl⟩
    · exact .inl ⟨done, hq, rfl⟩
    · rcases hf a F (log ++ done) with ⟨done', hq', h'⟩ | ⟨done', c, e, hq', hF, h', hm⟩
      · refine .inl ⟨done ++ done', quiet_append hq ?_, ?_⟩
        · rwa [List.length_append] at hq'
        · simp only [lift, List.append_assoc] at h' ⊢
          exact h'
      · refine .inr ⟨done ++ done', c, e, quiet_append hq ?_, ?_, fun hk => ?_, fun r log' hr => ?_⟩
        · rwa [List.length_append] at hq'
        · rw [List.length_append] at hF ⊢
          rwa [← Nat.add_assoc]
        · have := h' hk
          simp only [lift, List.append_assoc] at this ⊢
          exact this
        · have := hm r log' hr
          simpa only [List.append_assoc] using this
  · refine .inr ⟨done, c, e, hq, hF, fun hk => ?_, fun r log' hr => ?_⟩
    · unfold Run.bind
      rw [h hk]
    · unfold Run.bind at hr
      rcases hX : x F log with _ | ⟨e' | a, l⟩
      · rw [hX] at hr
        cases hr
      · rw [hX] at hr
        cases hr
        exact hm _ _ hX
      · rw [hX] at hr
        obtain ⟨d, hd, _⟩ := hb a F l r log' hr
        rw [hd]
        exact (hm _ _ hX).trans (List.prefix_append _ _)

theorem sim_bind {x : Run α} {y : Src.Run α} {f : α → Run β} {g : α → Src.Run β} (hx : Sim n K x y) (hf : ∀ a, Sim m K (f a) (g a)) :
    Sim (fun k => n k + m k) K (x >>= f) (y >>= g) :=
  ⟨tracks_bind hx.tracks fun a => (hf a).tracks, follows_bind hx.follows (fun a => (hf a).bounded) fun a => (hf a).follows⟩

theorem sim_bind_pure {x : Run α} {y : Src.Run α} {f : α → Run β} {g : α → Src.Run β} (hx : Sim n K x y)
    (hf : ∀ a, Sim (fun _ => 0) K (f a) (g a)) : Sim n K (x >>= f) (y >>= g) := (sim_bind hx hf).le fun _ => Nat.le_refl _

theorem sim_pure_bind {x : Run α} {y : Src.Run α} {f : α → Run β} {g : α → Src.Run β} (hx : Sim (fun _ => 0) K x y)
    (hf : ∀ a, Sim n K (f a) (g a)) : Sim n K (x >>= f) (y >>= g) := (sim_bind hx hf).le fun k => by simp

/-- The larger of two bounds. -/
theorem sim_ite {c : Prop} [Decidable c] {x x' : Run α} {y y' : Src.Run α} (h : Sim n K x y) (h' : Sim m K x' y') :
    Sim (fun k => max (n k) (m k)) K (if c then x else x') (if c then y else y') := by
  split
  · exact h.le fun _ => Nat.le_max_left _ _
  · exact h'.le fun _ => Nat.le_max_right _ _

/-! ### Expressions -/

/-- Expressions. -/
def SimE (n : Kind → Nat) (K : Ctx) (x : Expr) (y : Src.Expr) : Prop := ∀ env, Sim n K (x env) (y env)

/-- Functions. -/
def SimF (n : Kind → Nat) (K : Ctx) (x : Fn) (y : Src.Fn) : Prop := ∀ args kw, Sim n K (x args kw) (y args kw)

/-- Methods of built-in and external classes. -/
def SimM (n : Kind → Nat) (K : Ctx) (x : Val → Fn) (y : Val → Src.Fn) : Prop := ∀ v, SimF n K (x v) (y v)

/-- Lists of expressions. -/
inductive SimL (K : Ctx) : (Kind → Nat) → List Expr → List Src.Expr → Prop
  | nil : SimL K (fun _ => 0) [] []
  | cons {n m : Kind → Nat} {x : Expr} {y : Src.Expr} {xs : List Expr} {ys : List Src.Expr} :
      SimE n K x y → SimL K m xs ys → SimL K (fun k => n k + m k) (x :: xs) (y :: ys)

/-- Keyword arguments. -/
inductive SimK {κ : Type} (K : Ctx) : (Kind → Nat) → List (κ × Expr) → List (κ × Src.Expr) → Prop
  | nil : SimK K (fun _ => 0) [] []
  | cons {n m : Kind → Nat} {w : κ} {x : Expr} {y : Src.Expr} {xs : List (κ × Expr)} {ys : List (κ × Src.Expr)} :
      SimE n K x y → SimK K m xs ys → SimK K (fun k => n k + m k) ((w, x) :: xs) ((w, y) :: ys)

/-- Tables of methods. -/
inductive SimT (K : Ctx) : (Kind → Nat) → List (Cls × Fn) → List (Cls × Src.Fn) → Prop
  | nil : SimT K (fun _ => 0) [] []
  | cons {n m : Kind → Nat} {c : Cls} {x : Fn} {y : Src.Fn} {xs : List (Cls × Fn)} {ys : List (Cls × Src.Fn)} :
      SimF n K x y → SimT K m xs ys → SimT K (fun k => max (n k) (m k)) ((c, x) :: xs) ((c, y) :: ys)

/-- Parts of f-strings. -/
inductive SimP (K : Ctx) : (Kind → Nat) → List Part → List Src.Part → Prop
  | nil : SimP K (fun _ => 0) [] []
  | lit {n : Kind → Nat} {s : String} {xs : List Part} {ys : List Src.Part} : SimP K n xs ys → SimP K n (.lit s :: xs) (.lit s :: ys)
  | val {n m : Kind → Nat} {x : Expr} {y : Src.Expr} {xs : List Part} {ys : List Src.Part} :
      SimE n K x y → SimP K m xs ys → SimP K (fun k => n k + m k) (.val x :: xs) (.val y :: ys)

/-- Omitted or given bounds of slices. -/
inductive SimO (K : Ctx) : (Kind → Nat) → Option Expr → Option Src.Expr → Prop
  | none : SimO K (fun _ => 0) .none .none
  | some {n : Kind → Nat} {x : Expr} {y : Src.Expr} : SimE n K x y → SimO K n (.some x) (.some y)

/-- Chains of comparisons. -/
inductive SimC (K : Ctx) : (Kind → Nat) → List (CmpOp × Expr) → List (CmpOp × Src.Expr) → Prop
  | nil : SimC K (fun _ => 0) [] []
  | cons {n m : Kind → Nat} {o : CmpOp} {x : Expr} {y : Src.Expr} {xs : List (CmpOp × Expr)} {ys : List (CmpOp × Src.Expr)} :
      SimE n K x y → SimC K m xs ys → SimC K (fun k => n k + m k) ((o, x) :: xs) ((o, y) :: ys)

theorem sim_const (v : Val) : SimE (fun _ => 0) K (eConst v) (Src.eConst v) := fun _ => sim_pure v

theorem sim_global {x : Run Val} {y : Src.Run Val} (h : Sim n K x y) : SimE n K (eGlobal x) (Src.eGlobal y) := fun _ => h

theorem sim_name (a : Name) : SimE (fun _ => 0) K (eName a) (Src.eName a) := by
  intro env
  unfold eName Src.eName
  cases env a
  · exact sim_stuck
  · exact sim_pure _

theorem sim_attr {x : Expr} {y : Src.Expr} (h : SimE n K x y) (a : Name) : SimE n K (eAttr x a) (Src.eAttr y a) :=
  fun env => sim_bind_pure (h env) fun _ => sim_lift _

theorem sim_index {x x' : Expr} {y y' : Src.Expr} (h : SimE n K x y) (h' : SimE m K x' y') :
    SimE (fun k => n k + m k) K (eIndex x x') (Src.eIndex y y') :=
  fun env => sim_bind (h env) fun _ => sim_bind_pure (h' env) fun _ => sim_lift _

theorem sim_bound {x : Option Expr} {y : Option Src.Expr} (h : SimO K n x y) (env : Env) :
    Sim n K (evalBound x env) (Src.evalBound y env) := by
  cases h with
  | none => exact sim_pure _
  | some h =>
    refine sim_bind_pure (h env) fun v => ?_
    cases v <;> first | exact sim_pure _ | exact sim_stuck

theorem sim_slice {l : Kind → Nat} {x : Expr} {y : Src.Expr} {a b : Option Expr} {c d : Option Src.Expr} (h : SimE n K x y) (h1 : SimO K m a c)
    (h2 : SimO K l b d) : SimE (fun k => n k + (m k + l k)) K (eSlice x a b) (Src.eSlice y c d) :=
  fun env => sim_bind (h env) fun _ => sim_bind (sim_bound h1 env) fun _ => sim_bind_pure (sim_bound h2 env) fun _ => sim_lift _

theorem sim_reverse {x : Expr} {y : Src.Expr} (h : SimE n K x y) : SimE n K (eReverse x) (Src.eReverse y) :=
  fun env => sim_bind_pure (h env) fun _ => sim_lift _

theorem sim_evalList {xs : List Expr} {ys : List Src.Expr} (h : SimL K n xs ys) (env : Env) : Sim n K (evalList xs env) (Src.evalList ys env) := by
  induction h with
  | nil => exact sim_pure _
  | cons h _ ih => exact sim_bind (h env) fun _ => sim_bind_pure ih fun _ => sim_pure _

theorem sim_evalKw {κ : Type} {xs : List (κ × Expr)} {ys : List (κ × Src.Expr)} (h : SimK K n xs ys) (env : Env) :
    Sim n K (evalKw xs env) (Src.evalKw ys env) := by
  induction h with
  | nil => exact sim_pure _
  | cons h _ ih => exact sim_bind (h env) fun _ => sim_bind_pure ih fun _ => sim_pure _

theorem sim_list {xs : List Expr} {ys : List Src.Expr} (h : SimL K n xs ys) : SimE n K (eList xs) (Src.eList ys) :=
  fun env => sim_bind_pure (sim_evalList h env) fun _ => sim_pure _

theorem sim_tuple {xs : List Expr} {ys : List Src.Expr} (h : SimL K n xs ys) : SimE n K (eTuple xs) (Src.eTuple ys) :=
  fun env => sim_bind_pure (sim_evalList h env) fun _ => sim_pure _

theorem sim_dict {xs : List (String × Expr)} {ys : List (String × Src.Expr)} (h : SimK K n xs ys) : SimE n K (eDict xs) (Src.eDict ys) :=
  fun env => sim_bind_pure (sim_evalKw h env) fun _ => sim_pure _

theorem sim_call {l : Kind → Nat} {f : Fn} {g : Src.Fn} {xs : List Expr} {ys : List Src.Expr} {as : List (Name × Expr)}
    {bs : List (Name × Src.Expr)} (hf : SimF l K f g) (h : SimL K n xs ys) (h' : SimK K m as bs) :
    SimE (fun k => n k + (m k + l k)) K (eCall f xs as) (Src.eCall g ys bs) :=
  fun env => sim_bind (sim_evalList h env) fun _ => sim_bind (sim_evalKw h' env) fun _ => hf _ _

theorem sim_method {xs : List (Cls × Fn)} {ys : List (Cls × Src.Fn)} (h : SimT K n xs ys) (c : Cls) (v : List Val) (kw : List (Name × Val)) :
    Sim n K (method xs c v kw) (match ys.find? (fun p => p.1 = c) with | some p => p.2 v kw | none => Src.Run.stuck) := by
  induction h with
  | nil => exact sim_stuck
  | @cons n m d x y xs ys h _ ih =>
    unfold method
    rw [List.find?_cons]
    by_cases hd : d = c
    · simp only [hd, decide_true, if_true]
      exact (h v kw).le fun _ => Nat.le_max_left _ _
    · simp only [hd, decide_false, if_false]
      exact ih.le fun _ => Nat.le_max_right _ _

theorem sim_methodCall {l r o : Kind → Nat} {t : List (Cls × Fn)} {t' : List (Cls × Src.Fn)} {b : Val → Fn} {b' : Val → Src.Fn} {x : Expr} {y : Src.Expr}
    {xs : List Expr} {ys : List Src.Expr} {as : List (Name × Expr)} {bs : List (Name × Src.Expr)} (ht : SimT K r t t')
    (hb : SimM o K b b') (hx : SimE n K x y) (h : SimL K m xs ys) (h' : SimK K l as bs) :
    SimE (fun k => n k + (m k + (l k + max (r k) (o k)))) K (eMethod t b x xs as) (Src.eMethod t' b' y ys bs) := by
  refine fun env => sim_bind (hx env) fun v => sim_bind (sim_evalList h env) fun a => sim_bind (sim_evalKw h' env) fun kw => ?_
  have hv := (hb v a kw).le (m := fun k => max (r k) (o k)) fun _ => Nat.le_max_right _ _
  cases v <;> first | exact hv | exact (sim_method ht _ _ _).le fun _ => Nat.le_max_left _ _

theorem sim_bin {l r : Kind → Nat} {t s : List (Cls × Fn)} {t' s' : List (Cls × Src.Fn)} {op : BinOp} {x x' : Expr} {y y' : Src.Expr}
    (ht : SimT K l t t') (hs : SimT K r s s') (hx : SimE n K x y) (hx' : SimE m K x' y') :
    SimE (fun k => n k + (m k + max (l k) (r k))) K (eBin t s op x x') (Src.eBin t' s' op y y') := by
  refine fun env => sim_bind (hx env) fun v => sim_bind (hx' env) fun w => ?_
  have hp : Sim (fun k => max (l k) (r k)) K (lift (op.apply v w)) (op.apply v w) := (sim_lift _).le fun _ => Nat.zero_le _
  have hl : ∀ c a kw, Sim (fun k => max (l k) (r k)) K (method t c a kw) _ := fun c a kw => (sim_method ht c a kw).le fun _ => Nat.le_max_left _ _
  have hr : ∀ c a kw, Sim (fun k => max (l k) (r k)) K (method s c a kw) _ := fun c a kw => (sim_method hs c a kw).le fun _ => Nat.le_max_right _ _
  cases v <;> first | exact hl _ _ _ | (cases w <;> first | exact hp | exact hr _ _ _)

theorem sim_not {x : Expr} {y : Src.Expr} (h : SimE n K x y) : SimE n K (eNot x) (Src.eNot y) :=
  fun env => sim_bind_pure (h env) fun _ => sim_pure _

theorem sim_neg {x : Expr} {y : Src.Expr} (h : SimE n K x y) : SimE n K (eNeg x) (Src.eNeg y) :=
  fun env => sim_bind_pure (h env) fun v => by cases v <;> first | exact sim_pure _ | exact sim_stuck

theorem sim_invert {x : Expr} {y : Src.Expr} (h : SimE n K x y) : SimE n K (eInvert x) (Src.eInvert y) :=
  fun env => sim_bind_pure (h env) fun v => by cases v <;> first | exact sim_pure _ | exact sim_stuck

theorem sim_and {x x' : Expr} {y y' : Src.Expr} (h : SimE n K x y) (h' : SimE m K x' y') :
    SimE (fun k => n k + m k) K (eAnd x x') (Src.eAnd y y') :=
  fun env => sim_bind (h env) fun _ => (sim_ite (h' env) (sim_pure _)).le fun k => by simp

theorem sim_or {x x' : Expr} {y y' : Src.Expr} (h : SimE n K x y) (h' : SimE m K x' y') :
    SimE (fun k => n k + m k) K (eOr x x') (Src.eOr y y') :=
  fun env => sim_bind (h env) fun _ => (sim_ite (sim_pure _) (h' env)).le fun k => by simp

theorem sim_if {l : Kind → Nat} {x x' x'' : Expr} {y y' y'' : Src.Expr} (h : SimE n K x y) (h' : SimE m K x' y') (h'' : SimE l K x'' y'') :
    SimE (fun k => n k + max (m k) (l k)) K (eIf x x' x'') (Src.eIf y y' y'') :=
  fun env => sim_bind (h env) fun _ => sim_ite (h' env) (h'' env)

theorem sim_compareRest {xs : List (CmpOp × Expr)} {ys : List (CmpOp × Src.Expr)} (h : SimC K n xs ys) (v : Val) (env : Env) :
    Sim n K (compareRest v xs env) (Src.compareRest v ys env) := by
  induction h generalizing v with
  | nil => exact sim_pure _
  | cons h _ ih =>
    exact sim_bind (h env) fun w => sim_pure_bind (sim_lift _) fun b => (sim_ite (ih w) (sim_pure _)).le fun k => by simp

theorem sim_compare {x : Expr} {y : Src.Expr} {xs : List (CmpOp × Expr)} {ys : List (CmpOp × Src.Expr)} (h : SimE n K x y) (h' : SimC K m xs ys) :
    SimE (fun k => n k + m k) K (eCompare x xs) (Src.eCompare y ys) :=
  fun env => sim_bind (h env) fun _ => sim_bind_pure (sim_compareRest h' _ env) fun _ => sim_pure _

theorem sim_parts {xs : List Part} {ys : List Src.Part} (h : SimP K n xs ys) (env : Env) : Sim n K (formatParts xs env) (Src.formatParts ys env) := by
  induction h with
  | nil => exact sim_pure _
  | lit _ ih => exact sim_bind_pure ih fun _ => sim_pure _
  | val h _ ih => exact sim_bind (h env) fun _ => sim_pure_bind (sim_lift _) fun _ => sim_bind_pure ih fun _ => sim_pure _

theorem sim_format {xs : List Part} {ys : List Src.Part} (h : SimP K n xs ys) : SimE n K (eFormat xs) (Src.eFormat ys) :=
  fun env => sim_bind_pure (sim_parts h env) fun _ => sim_pure _

theorem sim_forEach {x : Expr} {y : Src.Expr} (h : SimE (fun _ => 0) K x y) (a : Name) (env : Env) (vs : List Val) :
    Sim (fun _ => 0) K (forEach a x env vs) (Src.forEach a y env vs) := by
  induction vs with
  | nil => exact sim_pure _
  | cons v vs ih => exact sim_bind_pure (h _) fun _ => sim_bind_pure ih fun _ => sim_pure _

/-- The body of a comprehension makes no external calls. -/
theorem sim_comprehension {x x' : Expr} {y y' : Src.Expr} (h : SimE n K x y) (hn : ∀ k, n k = 0) (a : Name) (h' : SimE m K x' y') :
    SimE m K (eComprehension x a x') (Src.eComprehension y a y') :=
  fun env => sim_bind_pure (h' env) fun _ => sim_bind_pure (sim_lift _) fun vs =>
    sim_bind_pure (sim_forEach (fun env => (h env).le fun k => (hn k).le) a env vs) fun _ => sim_pure _

theorem sim_callStar {f : Fn} {g : Src.Fn} {x : Expr} {y : Src.Expr} (hf : SimF m K f g) (h : SimE n K x y) :
    SimE (fun k => n k + m k) K (eCallStar f x) (Src.eCallStar g y) :=
  fun env => sim_bind (h env) fun _ => sim_pure_bind (sim_lift _) fun vs => hf vs []

theorem sim_kwargsGet {x x' : Expr} {y y' : Src.Expr} (h : SimE n K x y) (a : Name) (h' : SimE m K x' y') :
    SimE (fun k => n k + m k) K (eKwargsGet x a x') (Src.eKwargsGet y a y') :=
  fun env => sim_bind (h env) fun v => sim_bind_pure (h' env) fun d => by cases v <;> first | exact sim_pure _ | exact sim_stuck

/-! ### Statements -/

/-- Statements. -/
def SimS (n : Kind → Nat) (K : Ctx) (x : Stmt) (y : Src.Stmt) : Prop := ∀ env, Sim n K (x env) (y env)

/-- Blocks. -/
inductive SimB (K : Ctx) : (Kind → Nat) → List Stmt → List Src.Stmt → Prop
  | nil : SimB K (fun _ => 0) [] []
  | cons {n m : Kind → Nat} {x : Stmt} {y : Src.Stmt} {xs : List Stmt} {ys : List Src.Stmt} :
      SimS n K x y → SimB K m xs ys → SimB K (fun k => n k + m k) (x :: xs) (y :: ys)

/-- Handlers. -/
inductive SimH (K : Ctx) : (Kind → Nat) → List (List Catch × List Stmt) → List (List Catch × List Src.Stmt) → Prop
  | nil : SimH K (fun _ => 0) [] []
  | cons {n m : Kind → Nat} {c : List Catch} {x : List Stmt} {y : List Src.Stmt} {xs : List (List Catch × List Stmt)}
      {ys : List (List Catch × List Src.Stmt)} :
      SimB K n x y → SimH K m xs ys → SimH K (fun k => max (n k) (m k)) ((c, x) :: xs) ((c, y) :: ys)

theorem sim_assign {x : Expr} {y : Src.Expr} (t : Target) (h : SimE n K x y) : SimS n K (sAssign t x) (Src.sAssign t y) :=
  fun env => sim_bind_pure (h env) fun _ => sim_bind_pure (sim_lift _) fun _ => sim_pure _

theorem sim_unpack {x : Expr} {y : Src.Expr} (ts : List Target) (h : SimE n K x y) : SimS n K (sUnpack ts x) (Src.sUnpack ts y) :=
  fun env => sim_bind_pure (h env) fun _ => sim_bind_pure (sim_lift _) fun _ => sim_bind_pure (sim_lift _) fun _ => sim_pure _

theorem sim_expr {x : Expr} {y : Src.Expr} (h : SimE n K x y) : SimS n K (sExpr x) (Src.sExpr y) :=
  fun env => sim_bind_pure (h env) fun _ => sim_pure _

theorem sim_mutate {xs : List Expr} {ys : List Src.Expr} (a : Name) (u : Val → List Val → Src.Run Val) (h : SimL K n xs ys) :
    SimS n K (sMutate a u xs) (Src.sMutate a u ys) := by
  refine fun env => sim_bind_pure (sim_evalList h env) fun vs => ?_
  cases env a
  · exact sim_stuck
  · exact sim_bind_pure (sim_lift _) fun _ => sim_pure _

theorem sim_pass : SimS (fun _ => 0) K sPass Src.sPass := fun _ => sim_pure _

theorem sim_return {x : Expr} {y : Src.Expr} (h : SimE n K x y) : SimS n K (sReturn x) (Src.sReturn y) :=
  fun env => sim_bind_pure (h env) fun _ => sim_pure _

theorem sim_assert {x : Expr} {y : Src.Expr} (h : SimE n K x y) : SimS n K (sAssert x) (Src.sAssert y) :=
  fun env => sim_bind_pure (h env) fun _ => (sim_ite (sim_pure _) (sim_raise _ _)).le fun _ => Nat.le_refl _

theorem sim_block {xs : List Stmt} {ys : List Src.Stmt} (h : SimB K n xs ys) : SimS n K (block xs) (Src.block ys) := by
  induction h with
  | nil => exact fun _ => sim_pure _
  | @cons n m x y xs ys h _ ih =>
    refine fun env => sim_bind (h env) fun o => ?_
    cases o with
    | next env => exact ih env
    | ret v => exact (sim_pure _).le fun _ => Nat.zero_le _

theorem sim_sIf {l : Kind → Nat} {x : Expr} {y : Src.Expr} {a b : List Stmt} {c d : List Src.Stmt} (h : SimE n K x y) (h1 : SimB K m a c)
    (h2 : SimB K l b d) : SimS (fun k => n k + max (m k) (l k)) K (sIf x a b) (Src.sIf y c d) :=
  fun env => sim_bind (h env) fun _ => sim_ite (sim_block h1 env) (sim_block h2 env)

theorem sim_raiseVal {f : Fn} {g : Src.Fn} (hf : SimF n K f g) (v : Val) : Sim n K (raiseVal f v) (Src.raiseVal g v) := by
  have hs : Sim n K (Run.stuck : Run Outcome) Src.Run.stuck := sim_stuck.le fun _ => Nat.zero_le _
  cases v with
  | obj c fields =>
    cases c with
    | exc c =>
      unfold raiseVal Src.raiseVal
      by_cases hc : c.isBip38Error
      · simp only [hc, if_true]
        refine sim_bind_pure (hf _ _) fun w => ?_
        cases w <;> first | exact sim_raise _ _ | exact sim_stuck
      · simp only [hc]
        rcases getField fields v!"message" with _ | w
        · exact hs
        · cases w <;> first | exact hs | exact (sim_raise _ _).le fun _ => Nat.zero_le _
    | _ => exact hs
  | _ => exact hs

theorem sim_sRaise {f : Fn} {g : Src.Fn} {x : Expr} {y : Src.Expr} (hf : SimF m K f g) (h : SimE n K x y) :
    SimS (fun k => n k + m k) K (sRaise f x) (Src.sRaise g y) :=
  fun env => sim_bind (h env) fun v => sim_raiseVal hf v

theorem sim_handle {xs : List (List Catch × List Stmt)} {ys : List (List Catch × List Src.Stmt)} (h : SimH K n xs ys) (e : Exc) :
    SimS n K (handle e xs) (Src.handle e ys) := by
  induction h with
  | nil => exact fun _ => sim_lift (some (.error e))
  | @cons n m c x y xs ys h _ ih => exact fun env => sim_ite (sim_block h env) (ih env)

theorem handle_unmatched {e : Exc} {xs : List (List Catch × List Stmt)} (h : ∀ p ∈ xs, ∀ c ∈ p.1, c.matches e.cls = false) (env : Env) (F : Faults)
    (log : List Call) : handle e xs env F log = some (.error e, log) := by
  induction xs with
  | nil => rfl
  | cons p xs ih =>
    have : p.1.any (·.matches e.cls) = false := by
      rw [List.any_eq_false]
      intro c hc
      rw [h p List.mem_cons_self c hc]
      exact Bool.false_ne_true
    unfold handle
    rw [this]
    exact ih fun p hp => h p (List.mem_cons_of_mem _ hp)

/-- `try`: faults of the calls of the body must not be caught, to be passed on. -/
theorem sim_try {xs : List Stmt} {ys : List Src.Stmt} {hx : List (List Catch × List Stmt)} {hy : List (List Catch × List Src.Stmt)} (a : List Name)
    (h : SimB K n xs ys) (h' : SimH K m hx hy)
    (hn : ∀ c e, n c.kind ≠ 0 → K.passed c e → ∀ d ∈ (hx.map Prod.fst).flatten, d.matches e.cls = false) :
    SimS (fun k => n k + m k) K (sTry a xs hx) (Src.sTry a ys hy) := by
  intro env
  have hb := sim_block h env
  constructor
  · intro F log r log' hr
    unfold sTry at hr
    cases hX : block xs env F log with
    | none =>
      rw [hX] at hr
      cases hr
    | some p =>
      obtain ⟨p, l⟩ := p
      obtain ⟨d, hd, hk, hg⟩ := hb.tracks F log p l hX
      rw [hX] at hr
      cases p with
      | ok o =>
        cases hr
        exact ⟨d, hd, fun k => (hk k).trans (Nat.le_add_right _ _), hg⟩
      | error e =>
        obtain ⟨d', hd', hk', hg'⟩ := (sim_handle h' e (env.forget a)).tracks F l r log' hr
        refine ⟨d ++ d', by rw [hd', hd, List.append_assoc], fun k => ?_, fun c hc => (List.mem_append.mp hc).elim (hg c) (hg' c)⟩
        rw [List.countP_append]
        exact Nat.add_le_add (hk k) (hk' k)
  · intro F log
    unfold sTry Src.sTry
    rcases hb.follows F log with ⟨done, hq, hX⟩ | ⟨done, c, e, hq, hF, hX, hm⟩
    · rw [hX]
      rcases Src.block ys env with _ | (e | o)
      · exact .inl ⟨done, hq, rfl⟩
      · rcases (sim_handle h' e (env.forget a)).follows F (log ++ done) with ⟨done', hq', h'⟩ | ⟨done', c, e', hq', hF, h', hm⟩
        · refine .inl ⟨done ++ done', quiet_append hq ?_, ?_⟩
          · rwa [List.length_append] at hq'
          · simp only [lift, List.append_assoc] at h' ⊢
            exact h'
        · refine .inr ⟨done ++ done', c, e', quiet_append hq ?_, ?_, fun hk => ?_, fun r log' hr => ?_⟩
          · rwa [List.length_append] at hq'
          · rw [List.length_append] at hF ⊢
            rwa [← Nat.add_assoc]
          · have := h' hk
            simp only [lift, List.append_assoc] at this ⊢
            exact this
          · have := hm r log' hr
            simpa only [List.append_assoc] using this
      · exact .inl ⟨done, hq, rfl⟩
    · refine .inr ⟨done, c, e, hq, hF, fun hk => ?_, fun r log' hr => ?_⟩
      swap
      · rcases hY : block xs env F log with _ | ⟨e' | o, l⟩
        · rw [hY] at hr
          cases hr
        · rw [hY] at hr
          obtain ⟨d, hd, _⟩ := (sim_handle h' e' (env.forget a)).bounded F l r log' hr
          rw [hd]
          exact (hm _ _ hY).trans (List.prefix_append _ _)
        · rw [hY] at hr
          cases hr
          exact hm _ _ hY
      have hX := hX hk
      obtain ⟨d, hd, hkd⟩ := hb.bounded F log _ _ hX
      have hne : n c.kind ≠ 0 := by
        have := hkd c.kind
        have hdd : d = done ++ [c] := by
          rw [List.append_assoc] at hd
          exact (List.append_cancel_left hd).symm
        rw [hdd, List.countP_append] at this
        simp only [List.countP_singleton, decide_true, if_true] at this
        omega
      rw [hX]
      exact handle_unmatched (fun p hp d hd => hn c e hne hk d (List.mem_flatten.mpr ⟨p.1, List.mem_map_of_mem hp, hd⟩)) _ _ _

theorem sim_forLoop {xs : List Stmt} {ys : List Src.Stmt} (h : SimS (fun _ => 0) K (block xs) (Src.block ys)) (ts : List Target) (u : Bool) (vs : List Val) :
    SimS (fun _ => 0) K (forLoop ts u xs vs) (Src.forLoop ts u ys vs) := by
  induction vs with
  | nil => exact fun _ => sim_pure _
  | cons v vs ih =>
    intro env
    have hrest : ∀ items, Sim (fun _ => 0) K
        (lift (assignAll ts items env) >>= fun env => block xs env >>= fun o => match o with
          | .next env => forLoop ts u xs vs env
          | .ret w => pure (.ret w))
        (assignAll ts items env >>= fun env => Src.block ys env >>= fun o => match o with
          | .next env => Src.forLoop ts u ys vs env
          | .ret w => pure (.ret w)) := fun items => by
      refine sim_bind_pure (sim_lift _) fun env' => sim_bind_pure (h env') fun o => ?_
      cases o with
      | next env => exact ih env
      | ret w => exact sim_pure _
    cases u
    · exact sim_bind_pure (sim_lift (pure [v])) hrest
    · exact sim_bind_pure (sim_lift (iterate v)) hrest

/-- The body of a loop makes no external calls. -/
theorem sim_for {x : Expr} {y : Src.Expr} {xs : List Stmt} {ys : List Src.Stmt} (t : Name) (h : SimE n K x y) (hb : SimB K m xs ys)
    (hm : ∀ k, m k = 0) : SimS n K (sFor t x xs) (Src.sFor t y ys) :=
  fun env => sim_bind_pure (h env) fun _ => sim_bind_pure (sim_lift _) fun vs =>
    sim_forLoop (fun env => (sim_block hb env).le fun k => (hm k).le) _ _ vs env

theorem sim_forUnpack {x : Expr} {y : Src.Expr} {xs : List Stmt} {ys : List Src.Stmt} (ts : List Name) (h : SimE n K x y) (hb : SimB K m xs ys)
    (hm : ∀ k, m k = 0) : SimS n K (sForUnpack ts x xs) (Src.sForUnpack ts y ys) :=
  fun env => sim_bind_pure (h env) fun _ => sim_bind_pure (sim_lift _) fun vs =>
    sim_forLoop (fun env => (sim_block hb env).le fun k => (hm k).le) _ _ vs env

/-- One step of a loop. -/
theorem while_x (c : Expr) (xs : List Stmt) (env : Env) : sWhile c xs env =
    (c env >>= fun v => if truthy v then block xs env >>= fun o => match o with
      | .next env => sWhile c xs env
      | .ret w => pure (.ret w) else pure (.next env) : Run Outcome) := by
  funext F log
  rw [sWhile]
  change _ = Run.bind _ _ F log
  unfold Run.bind
  rcases c env F log with _ | ⟨e | v, l⟩
  · rfl
  · rfl
  · change (if truthy v then _ else _) = _
    by_cases hv : truthy v
    · simp only [hv, if_true]
      change _ = Run.bind _ _ F l
      unfold Run.bind
      rcases block xs env F l with _ | ⟨e | o, l'⟩
      · rfl
      · rfl
      · cases o <;> rfl
    · simp only [hv]
      rfl

/-- One step of a loop, without faults. -/
theorem while_y (c : Src.Expr) (ys : List Src.Stmt) (env : Env) : Src.sWhile c ys env =
    (c env >>= fun v => if truthy v then Src.block ys env >>= fun o => match o with
      | .next env => Src.sWhile c ys env
      | .ret w => pure (.ret w) else pure (.next env) : Src.Run Outcome) := by
  rw [Src.sWhile]
  change _ = Src.Run.bind _ _
  unfold Src.Run.bind
  rcases c env with _ | (e | v)
  · rfl
  · rfl
  · change (if truthy v then _ else _) = _
    by_cases hv : truthy v
    · simp only [hv, if_true]
      change _ = Src.Run.bind _ _
      unfold Src.Run.bind
      rcases Src.block ys env with _ | (e | o)
      · rfl
      · rfl
      · cases o <;> rfl
    · simp only [hv]
      rfl

/-- Anything. -/
def anything : Ctx := ⟨fun _ _ => True, fun _ => True, fun _ _ => trivial⟩

theorem silent {x : Run α} {y : Src.Run α} (h : Sim n anything x y) (hn : ∀ k, n k = 0) : x = lift y := by
  have hnil : ∀ done : List Call, (∀ k, done.countP (fun c => c.kind = k) ≤ n k) → done = [] := by
    intro done hd
    cases done with
    | nil => rfl
    | cons c done =>
      have := hd c.kind
      rw [hn, List.countP_cons] at this
      simp at this
  funext F log
  rcases h.follows F log with ⟨done, _, hx⟩ | ⟨done, c, e, _, _, hx, _⟩
  · cases y with
    | none => exact hx
    | some r =>
      obtain ⟨d, hd, hk⟩ := h.bounded F log r _ hx
      rw [hnil d hk, List.append_nil] at hd
      rw [hx, hd]
  · have hx := hx trivial
    obtain ⟨d, hd, hk⟩ := h.bounded F log _ _ hx
    rw [hnil d hk] at hd
    simp at hd

theorem while_silent {c : Expr} {d : Src.Expr} {xs : List Stmt} {ys : List Src.Stmt} (hc : ∀ env, c env = lift (d env))
    (hb : ∀ env, block xs env = lift (Src.block ys env)) (env : Env) : sWhile c xs env = lift (Src.sWhile d ys env) := by
  have forth : ∀ env r, Src.sWhile d ys env = some r → ∀ F log, sWhile c xs env F log = some (r, log) := by
    refine Src.sWhile.partial_correctness d ys (fun env r => ∀ F log, sWhile c xs env F log = some (r, log)) ?_
    intro w ih env r h F log
    rw [sWhile, hc]
    rcases hd : d env with _ | (e | v)
    · rw [hd] at h
      cases h
    · rw [hd] at h
      cases h
      rfl
    · rw [hd] at h
      change (if truthy v then _ else _) = _ at h
      change (if truthy v then _ else _) = _
      by_cases hv : truthy v
      · rw [if_pos hv] at h ⊢
        rw [hb]
        rcases hy : Src.block ys env with _ | (e | (env' | v))
        · rw [hy] at h
          cases h
        · rw [hy] at h
          cases h
          rfl
        · rw [hy] at h
          exact ih env' r h F log
        · rw [hy] at h
          cases h
          rfl
      · rw [if_neg hv] at h ⊢
        cases h
        rfl
  have back : ∀ F env log p, sWhile c xs env F log = some p → Src.sWhile d ys env = some p.1 := by
    intro F
    refine sWhile.partial_correctness c xs F (fun env log p => Src.sWhile d ys env = some p.1) ?_
    intro w ih env log p h
    rw [hc] at h
    rw [Src.sWhile]
    rcases hd : d env with _ | (e | v)
    · rw [hd] at h
      cases h
    · rw [hd] at h
      cases h
      rfl
    · rw [hd] at h
      change (if truthy v then _ else _) = _ at h
      change (if truthy v then _ else _) = _
      by_cases hv : truthy v
      · rw [if_pos hv] at h ⊢
        rw [hb] at h
        rcases hy : Src.block ys env with _ | (e | (env' | v))
        · rw [hy] at h
          cases h
        · rw [hy] at h
          cases h
          rfl
        · rw [hy] at h
          exact ih env' log p h
        · rw [hy] at h
          cases h
          rfl
      · rw [if_neg hv] at h ⊢
        cases h
        rfl
  funext F log
  cases hs : Src.sWhile d ys env with
  | some r => exact forth env r hs F log
  | none =>
    cases hx : sWhile c xs env F log with
    | none => rfl
    | some p =>
      rw [back F env log p hx] at hs
      cases hs

/-- `while`: condition and body make no external calls. -/
theorem sim_while {l : Kind → Nat} {x : Expr} {y : Src.Expr} {xs : List Stmt} {ys : List Src.Stmt} (h : SimE n anything x y)
    (hb : SimB anything l xs ys) (hn : ∀ k, n k = 0) (hl : ∀ k, l k = 0) :
    SimS (fun _ => 0) K (sWhile x xs) (Src.sWhile y ys) := by
  intro env
  rw [while_silent (fun env => silent (h env) hn) (fun env => silent (sim_block hb env) hl) env]
  exact sim_lift _

/-! ### Functions -/

/-- Parameters. -/
inductive SimR (K : Ctx) : (Kind → Nat) → List Param → List Src.Param → Prop
  | nil : SimR K (fun _ => 0) [] []
  | none {m : Kind → Nat} {a : Name} {xs : List Param} {ys : List Src.Param} : SimR K m xs ys → SimR K m (⟨a, .none⟩ :: xs) (⟨a, .none⟩ :: ys)
  | some {n m : Kind → Nat} {a : Name} {x : Run Val} {y : Src.Run Val} {xs : List Param} {ys : List Src.Param} :
      Sim n K x y → SimR K m xs ys → SimR K (fun k => n k + m k) (⟨a, .some x⟩ :: xs) (⟨a, .some y⟩ :: ys)

theorem sim_bindParams {xs : List Param} {ys : List Src.Param} (h : SimR K n xs ys) (rest : Option Name) (args : List Val) (kw : List (Name × Val))
    (env : Env) : Sim n K (bindParams rest xs args kw env) (Src.bindParams rest ys args kw env) := by
  induction h generalizing args kw env with
  | nil =>
    cases args with
    | nil =>
      cases rest with
      | none => cases kw <;> first | exact sim_pure _ | exact sim_raise _ _
      | some r => exact sim_pure _
    | cons a as => exact sim_raise _ _
  | @none m a xs ys _ ih =>
    cases args with
    | cons v vs =>
      unfold bindParams Src.bindParams
      cases getField kw a
      · exact ih _ _ _
      · exact (sim_raise _ _).le fun _ => Nat.zero_le _
    | nil =>
      unfold bindParams Src.bindParams
      cases getField kw a
      · exact (sim_raise _ _).le fun _ => Nat.zero_le _
      · exact ih _ _ _
  | @some n m a x y xs ys h _ ih =>
    cases args with
    | cons v vs =>
      unfold bindParams Src.bindParams
      cases getField kw a
      · exact (ih _ _ _).le fun _ => Nat.le_add_left _ _
      · exact (sim_raise _ _).le fun _ => Nat.zero_le _
    | nil =>
      unfold bindParams Src.bindParams
      cases getField kw a
      · exact sim_bind h fun _ => ih _ _ _
      · exact (ih _ _ _).le fun _ => Nat.le_add_left _ _

theorem sim_defun {xs : List Param} {ys : List Src.Param} {a : List Stmt} {b : List Src.Stmt} (rest : Option Name) (h : SimR K n xs ys)
    (hb : SimB K m a b) : SimF (fun k => n k + m k) K (defun xs rest a) (Src.defun ys rest b) := by
  refine fun args kw => sim_bind (sim_bindParams h rest args kw _) fun env => sim_bind_pure (sim_block hb env) fun o => ?_
  cases o <;> exact sim_pure _

theorem sim_defclass {xs : List Param} {ys : List Src.Param} {a : List Stmt} {b : List Src.Stmt} (c : Cls) (h : SimR K n xs ys)
    (hb : SimB K m a b) : SimF (fun k => n k + m k) K (defclass c xs a) (Src.defclass c ys b) := by
  refine fun args kw => sim_bind (sim_bindParams h Option.none args kw _) fun env => sim_bind_pure (sim_block hb env) fun o => ?_
  cases o with
  | next env =>
    change Sim _ K (lift (match env v!"self" with | some v => pure v | Option.none => .stuck)) _
    exact sim_lift _
  | ret v => exact sim_stuck

theorem sim_pure1 (f : Src.Fn) : SimF (fun _ => 0) K (pure1 f) f := fun _ _ => sim_lift _

theorem sim_pureMethod (f : Val → Src.Fn) : SimM (fun _ => 0) K (pureMethod f) f := fun _ _ _ => sim_lift _

theorem sim_external (k : Kind) (hk : k.fixed = false) (f : Src.Fn) : SimF (one k) K (external k f) f :=
  fun args kw => sim_ask ⟨k, args, kw⟩ (K.others _ hk) _

theorem sim_externalMethod (k : Kind) (hk : k.fixed = false) (mine : Val → Bool) (f : Val → Src.Fn) : SimM (one k) K (externalMethod k mine f) f := by
  intro v args kw
  unfold externalMethod
  split
  · exact sim_ask ⟨k, v :: args, kw⟩ (K.others _ hk) _
  · exact (sim_lift _).le fun _ => Nat.zero_le _

theorem SimF.le {x : Fn} {y : Src.Fn} (h : SimF n K x y) (hn : ∀ k, n k ≤ m k) : SimF m K x y := fun a k => (h a k).le hn

/-! ### A variable that holds no object of the repository

`aes.encrypt(..)` is the method of `pyaes`, not the method `encrypt` of `BIP38`, because of what was assigned to `aes`. -/

theorem bind_ok {x : Run α} {f : α → Run β} {F : Faults} {log l' : List Call} {b : β} (h : (x >>= f) F log = some (.ok b, l')) :
    ∃ a l, x F log = some (.ok a, l) ∧ f a F l = some (.ok b, l') := by
  change Run.bind x f F log = _ at h
  unfold Run.bind at h
  rcases hX : x F log with _ | ⟨e | a, l⟩
  · rw [hX] at h
    cases h
  · rw [hX] at h
    cases h
  · rw [hX] at h
    exact ⟨a, l, rfl, h⟩

theorem sim_bind_post {x : Run α} {y : Src.Run α} {f : α → Run β} {g : α → Src.Run β} (Q : α → Prop) (hx : Sim n K x y)
    (hQ : ∀ F log a log', x F log = some (.ok a, log') → Q a) (hf : ∀ a, Q a → Sim m K (f a) (g a)) :
    Sim (fun k => n k + m k) K (x >>= f) (y >>= g) := by
  classical
  have key : x >>= f = x >>= fun a => if Q a then f a else Run.stuck := by
    funext F log
    change Run.bind x f F log = Run.bind x _ F log
    unfold Run.bind
    rcases hX : x F log with _ | ⟨e | a, l⟩
    · rfl
    · rfl
    · simp only [if_pos (hQ F log a l hX)]
  have key' : (∀ a, y = some (.ok a) → Q a) → y >>= g = y >>= fun a => if Q a then g a else Src.Run.stuck := by
    intro h
    change Src.Run.bind y g = Src.Run.bind y _
    unfold Src.Run.bind
    rcases y with _ | (e | a)
    · rfl
    · rfl
    · simp only [if_pos (h a rfl)]
  rw [key]
  have hs := sim_bind hx (f := fun a => if Q a then f a else Run.stuck) (g := fun a => if Q a then g a else Src.Run.stuck) (m := m) fun a => by
    by_cases ha : Q a
    · simp only [if_pos ha]
      exact hf a ha
    · simp only [if_neg ha]
      exact sim_stuck.le fun _ => Nat.zero_le _
  by_cases hy : ∀ a, y = some (.ok a) → Q a
  · rw [key' hy]
    exact hs
  · refine ⟨hs.tracks, ?_⟩
    push Not at hy
    obtain ⟨a, rfl, ha⟩ := hy
    intro F log
    rcases hx.follows F log with ⟨done, hq, h⟩ | ⟨done, c, e, hq, hF, h, hm⟩
    · exact absurd (hQ F log a _ h) ha
    · refine .inr ⟨done, c, e, hq, hF, fun hk => ?_, fun r log' hr => ?_⟩
      · change Run.bind x _ F log = _
        unfold Run.bind
        rw [h hk]
      · change Run.bind x (fun a => if Q a then f a else Run.stuck) F log = _ at hr
        unfold Run.bind at hr
        rcases hX : x F log with _ | ⟨e' | a, l⟩
        · rw [hX] at hr
          cases hr
        · rw [hX] at hr
          cases hr
          exact hm _ _ hX
        · rw [hX] at hr
          by_cases ha : Q a
          · simp only [if_pos ha] at hr
            obtain ⟨d, hd, _⟩ := (hf a ha).bounded F l r log' hr
            rw [hd]
            exact (hm _ _ hX).trans (List.prefix_append _ _)
          · simp only [if_neg ha] at hr
            cases hr

/-- The variable does not hold an object of a class of the repository. -/
def NoObj (a : Name) (env : Env) : Prop := ∀ c f, env a ≠ some (.obj c f)

/-- Statements, run where the variable holds no object. -/
def SimSI (a : Name) (n : Kind → Nat) (K : Ctx) (x : Stmt) (y : Src.Stmt) : Prop := ∀ env, NoObj a env → Sim n K (x env) (y env)

/-- Expressions, evaluated where the variable holds no object. -/
def SimEI (a : Name) (n : Kind → Nat) (K : Ctx) (x : Expr) (y : Src.Expr) : Prop := ∀ env, NoObj a env → Sim n K (x env) (y env)

theorem sim_block_nil : SimS (fun _ => 0) K (block []) (Src.block []) := fun _ => sim_pure _

theorem sim_block_cons {x : Stmt} {y : Src.Stmt} {xs : List Stmt} {ys : List Src.Stmt} (h : SimS n K x y)
    (h' : SimS m K (block xs) (Src.block ys)) : SimS (fun k => n k + m k) K (block (x :: xs)) (Src.block (y :: ys)) := by
  refine fun env => sim_bind (h env) fun o => ?_
  cases o with
  | next env => exact h' env
  | ret v => exact (sim_pure _).le fun _ => Nat.zero_le _

theorem sim_defun_block {xs : List Param} {ys : List Src.Param} {a : List Stmt} {b : List Src.Stmt} (rest : Option Name) (h : SimR K n xs ys)
    (hb : SimS m K (block a) (Src.block b)) : SimF (fun k => n k + m k) K (defun xs rest a) (Src.defun ys rest b) := by
  refine fun args kw => sim_bind (sim_bindParams h rest args kw _) fun env => sim_bind_pure (hb env) fun o => ?_
  cases o <;> exact sim_pure _

/-- `aes = AESModeOfOperationECB(..)`, and what follows. -/
theorem sim_block_aes {l r : Kind → Nat} {a : Name} {xs : List Expr} {ys : List Src.Expr} {as : List (Name × Expr)} {bs : List (Name × Src.Expr)}
    {ss : List Stmt} {ts : List Src.Stmt} (h : SimL K n xs ys) (h' : SimK K m as bs) (hl : SimF l K xAes Src.xAes)
    (ht : SimSI a r K (block ss) (Src.block ts)) :
    SimS (fun k => (n k + (m k + l k)) + r k) K (block ((fun env => sAssign (.name a) (eCall xAes xs as) env) :: ss))
      (Src.block ((fun env => Src.sAssign (.name a) (Src.eCall Src.xAes ys bs) env) :: ts)) := by
  intro env
  refine sim_bind_post (fun o => ∃ env', o = .next env' ∧ NoObj a env') (sim_assign (.name a) (sim_call hl h h') env) ?_ ?_
  · intro F log o log' hx
    have : ∀ args kw F log v log', xAes args kw F log = some (.ok v, log') → ∃ k, v = .aes k := by
      intro args kw F log v log' h
      unfold xAes external ask at h
      cases hF : F log.length ⟨.aes, args, kw⟩ with
      | some e =>
        rw [hF] at h
        cases h
      | none =>
        rw [hF] at h
        have h' : ∃ r, Src.xAes args kw = some r ∧ r = .ok v := by
          cases hr : Src.xAes args kw with
          | none =>
            rw [hr] at h
            cases h
          | some r =>
            rw [hr] at h
            cases h
            exact ⟨_, rfl, rfl⟩
        obtain ⟨r, hr, rfl⟩ := h'
        unfold Src.xAes at hr
        split at hr
        · rename_i b
          cases hn : AES.new b with
          | error e =>
            rw [hn] at hr
            cases hr
          | ok k =>
            rw [hn] at hr
            cases hr
            exact ⟨k, rfl⟩
        · cases hr
    obtain ⟨v, l, hv, hx⟩ := bind_ok hx
    obtain ⟨va, l1, _, hv⟩ := bind_ok hv
    obtain ⟨ka, l2, _, hv⟩ := bind_ok hv
    obtain ⟨k, rfl⟩ := this va ka F l2 v l hv
    cases hx
    refine ⟨_, rfl, fun c f h => ?_⟩
    simp [Env.set] at h
  · rintro o ⟨env', rfl, he⟩
    exact ht env' he

/-- An assignment to another variable. -/
theorem simI_assign {a b : Name} {x : Expr} {y : Src.Expr} {ss : List Stmt} {ts : List Src.Stmt} (hb : (a == b) = false) (h : SimEI a n K x y)
    (ht : SimSI a m K (block ss) (Src.block ts)) :
    SimSI a (fun k => n k + m k) K (block ((fun env => sAssign (.name b) x env) :: ss)) (Src.block ((fun env => Src.sAssign (.name b) y env) :: ts)) := by
  intro env he
  refine sim_bind_post (fun o => ∃ env', o = .next env' ∧ NoObj a env')
    (sim_bind_pure (h env he) fun _ => sim_bind_pure (sim_lift _) fun _ => sim_pure _) ?_ ?_
  · intro F log o log' hx
    obtain ⟨v, l, _, hx⟩ := bind_ok hx
    cases hx
    refine ⟨_, rfl, fun c f h => ?_⟩
    simp only [Env.set, if_neg (ne_of_beq_false hb)] at h
    exact he c f h
  · rintro o ⟨env', rfl, he⟩
    exact ht env' he

theorem simI_block {a : Name} {ss : List Stmt} {ts : List Src.Stmt} (h : SimS n K (block ss) (Src.block ts)) :
    SimSI a n K (block ss) (Src.block ts) := fun env _ => h env

theorem simI_expr {a : Name} {x : Expr} {y : Src.Expr} (h : SimE n K x y) : SimEI a n K x y := fun env _ => h env

/-- A method of that variable. -/
theorem simI_method {a : Name} {l o : Kind → Nat} {t : List (Cls × Fn)} {t' : List (Cls × Src.Fn)} {b : Val → Fn} {b' : Val → Src.Fn}
    {xs : List Expr} {ys : List Src.Expr} {as : List (Name × Expr)} {bs : List (Name × Src.Expr)}
    (hb : SimM o K b b') (h : SimL K m xs ys) (h' : SimK K l as bs) :
    SimEI a (fun k => m k + (l k + o k)) K (eMethod t b (eName a) xs as) (Src.eMethod t' b' (Src.eName a) ys bs) := by
  intro env he
  unfold eMethod Src.eMethod eName Src.eName
  rcases hv : env a with _ | v
  · exact sim_stuck.le fun _ => Nat.zero_le _
  · change Sim _ K (evalList xs env >>= fun a => evalKw as env >>= fun k => _) (Src.evalList ys env >>= fun a => Src.evalKw bs env >>= fun k => _)
    refine sim_bind (sim_evalList h env) fun va => sim_bind (sim_evalKw h' env) fun kw => ?_
    have hv' := hb v va kw
    cases v <;> first | exact hv' | exact absurd hv (he _ _)

theorem sim_at {x : Expr} {y : Src.Expr} (h : SimE n K x y) : Sim n K (x Env.empty) (y Env.empty) := h _

theorem sim_default {a : Name} {x : Expr} {y : Src.Expr} {xs : List Param} {ys : List Src.Param} (h : SimE n K x y) (h' : SimR K m xs ys) :
    SimR K (fun k => n k + m k) (⟨a, .some (x Env.empty)⟩ :: xs) (⟨a, .some (y Env.empty)⟩ :: ys) := .some (h _) h'

/-! ### Calls with fixed arguments -/

theorem evalList_gives {env : Env} {F : Faults} : ∀ {xs : List Expr} {log log' : List Call} {vs : List Val},
    evalList xs env F log = some (.ok vs, log') → List.Forall₂ (fun x v => ∃ l l', x env F l = some (.ok v, l')) xs vs := by
  intro xs
  induction xs with
  | nil =>
    intro log log' vs h
    cases h
    exact .nil
  | cons x xs ih =>
    intro log log' vs h
    obtain ⟨v, l, hv, h⟩ := bind_ok h
    obtain ⟨ws, l', hw, h⟩ := bind_ok h
    cases h
    exact .cons ⟨_, _, hv⟩ (ih hw)

/-- A call of an external function whose arguments, whatever the variables are, make it one that is allowed. -/
theorem sim_call_fixed {k : Kind} {f : Src.Fn} {xs : List Expr} {ys : List Src.Expr}
    (hg : ∀ env F vs, List.Forall₂ (fun x v => ∃ l l', x env F l = some (.ok v, l')) xs vs → K.allowed ⟨k, vs, []⟩) (h : SimL K n xs ys) :
    SimE (fun i => n i + one k i) K (eCall (external k f) xs []) (Src.eCall f ys []) := by
  intro env
  refine sim_bind_post (fun vs => K.allowed ⟨k, vs, []⟩) (sim_evalList h env) (fun F log vs log' hv => hg env F vs (evalList_gives hv)) fun vs hv => ?_
  exact sim_ask ⟨k, vs, []⟩ hv _

/-- These uses are allowed. -/
def Allows (K : Ctx) (l : List Use) : Prop := ∀ u ∈ l, ∀ c, u.Fits c → K.allowed c

theorem allows_sub {l l' : List Use} (h : Allows K l) (hs : ∀ u ∈ l', u ∈ l) : Allows K l' := fun u hu => h u (hs u hu)

theorem const_value {v w : Val} {env : Env} {F : Faults} (h : ∃ l l', eConst v env F l = some (.ok w, l')) : w = v := by
  obtain ⟨_, _, h⟩ := h
  cases h
  rfl

/-- `os.urandom(i)` -/
theorem sim_urandom {H : Host} {l : List Use} {i : Int} (h : Allows K l) (hl : .urandom i ∈ l) :
    SimE (one .urandom) K (eCall (xUrandom H) [eConst (.int i)] []) (Src.eCall (Src.xUrandom H) [Src.eConst (.int i)] []) := by
  intro env
  refine (sim_call_fixed ?_ (SimL.cons (sim_const _) SimL.nil) env).le fun k => by simp
  rintro env F vs (_ | ⟨h1, _ | _⟩)
  rw [const_value h1]
  exact h _ hl _ rfl

/-- `unicodedata.normalize("NFC", x)` -/
theorem sim_nfc {H : Host} {l : List Use} {x : Expr} {y : Src.Expr} (h : Allows K l) (hl : .nfc ∈ l) (hx : SimE n K x y) :
    SimE (fun k => n k + one .normalize k) K (eCall (xNormalize H) [eConst (.str "NFC".toList), x] [])
      (Src.eCall (Src.xNormalize H) [Src.eConst (.str "NFC".toList), y] []) := by
  intro env
  refine (sim_call_fixed ?_ (SimL.cons (sim_const _) (SimL.cons hx SimL.nil)) env).le fun k => by simp
  rintro env F vs (_ | ⟨h1, _ | ⟨_, _ | _⟩⟩)
  rw [const_value h1]
  exact h _ hl _ ⟨_, rfl⟩

/-- `hashlib.new("ripemd160", x)` -/
theorem sim_ripemd160 {H : Host} {l : List Use} {x : Expr} {y : Src.Expr} (h : Allows K l) (hl : .ripemd160 ∈ l) (hx : SimE n K x y) :
    SimE (fun k => n k + one .hashNew k) K (eCall (xHashNew H) [eConst (.str "ripemd160".toList), x] [])
      (Src.eCall (Src.xHashNew H) [Src.eConst (.str "ripemd160".toList), y] []) := by
  intro env
  refine (sim_call_fixed ?_ (SimL.cons (sim_const _) (SimL.cons hx SimL.nil)) env).le fun k => by simp
  rintro env F vs (_ | ⟨h1, _ | ⟨_, _ | _⟩⟩)
  rw [const_value h1]
  exact h _ hl _ ⟨_, rfl⟩

/-- `scrypt.hash(x, x', N, r, p)` -/
theorem sim_scrypt {H : Host} {l : List Use} {N r p : Int} {x x' : Expr} {y y' : Src.Expr} (h : Allows K l) (hl : .scrypt N r p ∈ l)
    (hx : SimE n K x y) (hx' : SimE m K x' y') :
    SimE (fun k => n k + (m k + one .scrypt k)) K (eCall (xScrypt H) [x, x', eConst (.int N), eConst (.int r), eConst (.int p)] [])
      (Src.eCall (Src.xScrypt H) [y, y', Src.eConst (.int N), Src.eConst (.int r), Src.eConst (.int p)] []) := by
  intro env
  refine (sim_call_fixed ?_ (SimL.cons hx (SimL.cons hx' (SimL.cons (sim_const _) (SimL.cons (sim_const _) (SimL.cons (sim_const _) SimL.nil)))))
    env).le fun k => by simp [Nat.add_assoc]
  rintro env F vs (_ | ⟨_, _ | ⟨_, _ | ⟨h1, _ | ⟨h2, _ | ⟨h3, _ | _⟩⟩⟩⟩⟩)
  rw [const_value h1, const_value h2, const_value h3]
  exact h _ hl _ ⟨_, _, rfl⟩

/-- `scrypt.hash(x, x', N, r, p, size)` -/
theorem sim_scryptOf {H : Host} {l : List Use} {N r p size : Int} {x x' : Expr} {y y' : Src.Expr} (h : Allows K l)
    (hl : .scryptOf N r p size ∈ l) (hx : SimE n K x y) (hx' : SimE m K x' y') :
    SimE (fun k => n k + (m k + one .scrypt k)) K
      (eCall (xScrypt H) [x, x', eConst (.int N), eConst (.int r), eConst (.int p), eConst (.int size)] [])
      (Src.eCall (Src.xScrypt H) [y, y', Src.eConst (.int N), Src.eConst (.int r), Src.eConst (.int p), Src.eConst (.int size)] []) := by
  intro env
  refine (sim_call_fixed ?_ (SimL.cons hx (SimL.cons hx' (SimL.cons (sim_const _) (SimL.cons (sim_const _) (SimL.cons (sim_const _)
    (SimL.cons (sim_const _) SimL.nil)))))) env).le fun k => by simp [Nat.add_assoc]
  rintro env F vs (_ | ⟨_, _ | ⟨_, _ | ⟨h1, _ | ⟨h2, _ | ⟨h3, _ | ⟨h4, _ | _⟩⟩⟩⟩⟩⟩)
  rw [const_value h1, const_value h2, const_value h3, const_value h4]
  exact h _ hl _ ⟨_, _, rfl⟩

/-! ### Automation -/

/-- An exception of `ecdsa` that the repository does not catch. -/
def Fine (K : Ctx) : Prop :=
  ∀ c e, K.passed c e → c.kind = .ecdsa → e.cls ≠ .other "MalformedPointError" ∧ e.cls ≠ .attributeError

/-- An exception of `hashlib` that the repository does not catch. -/
def FineHash (K : Ctx) : Prop := ∀ c e, K.passed c e → c.kind = .sha256 ∨ c.kind = .digest → e.cls.isValueError = false

/-- An exception that is not the repository's own error of keys. -/
def FineKey (K : Ctx) : Prop := ∀ c e, K.passed c e → e.cls ≠ .secp256k1Error

/-- A function that is already known. -/
syntax "sim_known" : tactic
macro_rules | `(tactic| sim_known) => `(tactic| fail)

/-- One rule. -/
macro "sim_rule" : tactic => `(tactic| first
  | (with_reducible first
  | exact sim_const _ | exact sim_name _ | exact sim_pass | exact sim_lift _
  | exact SimL.nil | exact SimK.nil | exact SimT.nil | exact SimP.nil | exact SimC.nil | exact SimO.none | exact SimB.nil | exact SimH.nil
  | exact SimR.nil
  | apply sim_global | apply sim_attr | apply sim_index | apply sim_slice | apply sim_reverse | apply sim_list | apply sim_tuple
  | apply sim_dict | apply sim_urandom | apply sim_nfc | apply sim_ripemd160 | apply sim_scrypt | apply sim_scryptOf | apply sim_call | apply sim_methodCall | apply sim_bin | apply sim_not | apply sim_neg | apply sim_invert
  | apply sim_and | apply sim_or | apply sim_if | apply sim_compare | apply sim_format | apply sim_comprehension | apply sim_callStar
  | apply sim_kwargsGet
  | apply sim_assign | apply sim_unpack | apply sim_expr | apply sim_mutate | apply sim_return | apply sim_assert | apply sim_sIf
  | apply sim_sRaise | apply sim_try | apply sim_for | apply sim_forUnpack | apply sim_while
  | apply SimL.cons | apply SimK.cons | apply SimT.cons | apply SimP.lit | apply SimP.val | apply SimC.cons | apply SimO.some | apply SimB.cons
  | apply SimH.cons | apply SimR.none | apply sim_default
  | sim_known
  | apply sim_defun | apply sim_defclass)
  | apply SimB.cons | apply sim_while)

/-- One rule, for a function in which the class of a variable matters. -/
macro "sim_rule_aes" : tactic => `(tactic| first
  | with_reducible apply sim_block_aes
  | with_reducible exact sim_block_nil
  | with_reducible apply sim_block_cons
  | ((with_reducible apply simI_assign); rfl)
  | with_reducible apply simI_method
  | sim_rule
  | with_reducible apply simI_expr
  | with_reducible apply simI_block)

/-- Comparison of bounds. -/
macro "sim_bound" : tactic => `(tactic| (intro k; cases k <;> decide +kernel))

/-- The condition of `try`. -/
macro "sim_caught" : tactic => `(tactic| (
  rintro ⟨k, args, kw⟩ e hn hk
  cases k <;> first
    | exact absurd rfl hn
    | (simp only [List.map_cons, List.map_nil, List.flatten_cons, List.flatten_nil, List.append_nil, List.cons_append, List.nil_append,
        List.forall_mem_cons]
       repeat' apply And.intro
       all_goals first
        | exact fun _ h => absurd h List.not_mem_nil
        | exact decide_eq_false (‹Fine _› _ _ hk rfl).1
        | exact decide_eq_false (‹Fine _› _ _ hk rfl).2
        | exact ‹FineHash _› _ _ hk (.inl rfl)
        | exact ‹FineHash _› _ _ hk (.inr rfl)
        | exact decide_eq_false (‹FineKey _› _ _ hk))))

/-- The conditions of external calls. -/
macro "sim_allowed" : tactic => `(tactic| first | assumption | decide)

/-- A function, from its text. -/
macro "sim_function" : tactic => `(tactic| (apply SimF.le; repeat' sim_rule) <;> first | sim_bound | sim_caught | sim_allowed)

/-- A function in which the class of a variable matters, from its text. -/
macro "sim_function_aes" : tactic => `(tactic| (apply SimF.le; apply sim_defun_block; repeat' sim_rule_aes) <;> first | sim_bound | sim_caught | sim_allowed)

/-- A constant, from its text. -/
macro "sim_value" : tactic => `(tactic| (apply Sim.le; apply sim_at; repeat' sim_rule) <;> sim_bound)

end Bip38.SrcX
