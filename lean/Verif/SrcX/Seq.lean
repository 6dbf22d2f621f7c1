import Verif.SrcX.Sim
import Verif.Spec.Order
/-!
# The order of the external calls of a text

For every construct: the possible sequences of external calls of its parts give those of the construct.
-/
namespace Bip38.SrcX

open Bip38.Src Bip38.Spec

variable {α β : Type}

/-! ### Sets of sequences -/

/-- A sequence of steps. -/
abbrev Trace := List ExtStep

/-- An initial part of one of these. -/
def Below (t : Trace) (l : List Trace) : Prop := ∃ u ∈ l, t <+: u

/-- Insert, unless it is there. -/
def ins (t : Trace) (l : List Trace) : List Trace := bif l.elem t then l else t :: l

/-- Insert, unless it is an initial part of stepping that is there. -/
def insP (t : Trace) (l : List Trace) : List Trace := bif l.any t.isPrefixOf then l else t :: l

/-- One or the other. -/
def cup (a b : List Trace) : List Trace := a.foldr ins b

/-- One or the other, up to initial parts. -/
def cupP (a b : List Trace) : List Trace := a.foldr insP b

/-- One after the other. -/
def cat (a b : List Trace) : List Trace := (a.flatMap fun t => b.map (t ++ ·)).foldr ins []

/-- One after the other, up to initial parts. -/
def catP (a b : List Trace) : List Trace := (a.flatMap fun t => b.map (t ++ ·)).foldr insP []

/-- The initial parts of one. -/
def partsOf : Trace → List Trace
  | [] => [[]]
  | x :: t => [] :: (partsOf t).map (x :: ·)

/-- Initial parts. -/
def parts (a : List Trace) : List Trace := (a.flatMap partsOf).foldr ins []

theorem mem_partsOf : ∀ {t u : Trace}, t <+: u → t ∈ partsOf u
  | [], [], _ => List.mem_cons_self
  | [], _ :: _, _ => List.mem_cons_self
  | x :: t, [], h => absurd (List.prefix_nil.mp h) (by simp)
  | x :: t, y :: u, h => by
    obtain ⟨rfl, h'⟩ := List.cons_prefix_cons.mp h
    exact List.mem_cons_of_mem _ (List.mem_map_of_mem (mem_partsOf h'))

theorem mem_ins {t u : Trace} {l : List Trace} (h : t = u ∨ t ∈ l) : t ∈ ins u l := by
  unfold ins
  by_cases hu : l.elem u = true
  · rw [hu]
    rcases h with rfl | h
    · exact List.elem_iff.mp hu
    · exact h
  · rw [Bool.not_eq_true] at hu
    rw [hu]
    rcases h with rfl | h
    · exact List.mem_cons_self
    · exact List.mem_cons_of_mem _ h

theorem mem_foldr {t : Trace} {a b : List Trace} (h : t ∈ a ∨ t ∈ b) : t ∈ a.foldr ins b := by
  induction a with
  | nil => simpa using h
  | cons u a ih =>
    refine mem_ins ?_
    rcases h with h | h
    · rcases List.mem_cons.mp h with h | h
      · exact .inl h
      · exact .inr (ih (.inl h))
    · exact .inr (ih (.inr h))

theorem below_insP {t u : Trace} {l : List Trace} (h : t <+: u ∨ Below t l) : Below t (insP u l) := by
  unfold insP
  by_cases hu : l.any u.isPrefixOf = true
  · rw [hu]
    rcases h with h | h
    · obtain ⟨w, hw, hp⟩ := List.any_eq_true.mp hu
      exact ⟨w, hw, h.trans (List.isPrefixOf_iff_prefix.mp hp)⟩
    · exact h
  · rw [Bool.not_eq_true] at hu
    rw [hu]
    rcases h with h | ⟨w, hw, hp⟩
    · exact ⟨u, List.mem_cons_self, h⟩
    · exact ⟨w, List.mem_cons_of_mem _ hw, hp⟩

theorem below_foldr {t : Trace} {a b : List Trace} (h : Below t a ∨ Below t b) : Below t (a.foldr insP b) := by
  induction a with
  | nil =>
    rcases h with ⟨_, h, _⟩ | h
    · cases h
    · exact h
  | cons u a ih =>
    refine below_insP ?_
    rcases h with ⟨w, hw, hp⟩ | h
    · rcases List.mem_cons.mp hw with rfl | hw
      · exact .inl hp
      · exact .inr (ih (.inl ⟨w, hw, hp⟩))
    · exact .inr (ih (.inr h))

theorem mem_cup_left {t : Trace} {a b : List Trace} (h : t ∈ a) : t ∈ cup a b := mem_foldr (.inl h)
theorem mem_cup_right {t : Trace} {a b : List Trace} (h : t ∈ b) : t ∈ cup a b := mem_foldr (.inr h)
theorem below_cup_left {t : Trace} {a b : List Trace} (h : Below t a) : Below t (cupP a b) := below_foldr (.inl h)
theorem below_cup_right {t : Trace} {a b : List Trace} (h : Below t b) : Below t (cupP a b) := below_foldr (.inr h)

theorem mem_cat {t u : Trace} {a b : List Trace} (h : t ∈ a) (h' : u ∈ b) : t ++ u ∈ cat a b :=
  mem_foldr (.inl (List.mem_flatMap.mpr ⟨t, h, List.mem_map_of_mem h'⟩))

theorem below_cat {t u : Trace} {a b : List Trace} (h : t ∈ a) : Below u b → Below (t ++ u) (catP a b) := fun ⟨w, hw, hp⟩ =>
  below_foldr (.inl ⟨t ++ w, List.mem_flatMap.mpr ⟨t, h, List.mem_map_of_mem hw⟩, (List.prefix_append_right_inj t).mpr hp⟩)

theorem mem_parts {t : Trace} {a : List Trace} : Below t a → t ∈ parts a := fun ⟨w, hw, hp⟩ =>
  mem_foldr (.inl (List.mem_flatMap.mpr ⟨w, hw, mem_partsOf hp⟩))

theorem below_of_mem {t : Trace} {a : List Trace} (h : t ∈ a) : Below t a := ⟨t, h, List.prefix_refl _⟩

theorem trace_append (a b : List Call) : trace (a ++ b) = trace a ++ trace b := List.flatMap_append

/-- The possible sequences of a computation that gives a value; those of stepping that raises are initial parts of `bad`. -/
structure Seqs where
  ok : List Trace
  bad : List Trace

namespace Seqs

/-- No external call. -/
def idle : Seqs := ⟨[[]], [[]]⟩
/-- No external call, and no value. -/
def fails : Seqs := ⟨[], [[]]⟩
/-- No outcome at all. -/
def never : Seqs := ⟨[], []⟩
/-- One after the other. -/
def seq (a b : Seqs) : Seqs := ⟨cat a.ok b.ok, cupP a.bad (catP a.ok b.bad)⟩
/-- One or the other. -/
def alt (a b : Seqs) : Seqs := ⟨cup a.ok b.ok, cupP a.bad b.bad⟩
/-- Then something without external calls. -/
def then' (a : Seqs) : Seqs := ⟨a.ok, cupP a.bad a.ok⟩
/-- Then something without a value and without external calls. -/
def raising (a : Seqs) : Seqs := ⟨[], cupP a.bad a.ok⟩
/-- Comparison. -/
def le (a b : Seqs) : Bool := a.ok.all b.ok.elem && a.bad.all fun t => b.bad.any t.isPrefixOf

end Seqs

open Seqs

/-- The sequences of external calls of the computation are these. -/
def Sq (a : Seqs) (x : Run α) : Prop :=
  ∀ F log r log', x F log = some (r, log') → ∃ done, log' = log ++ done ∧
    (∀ v, r = .ok v → trace done ∈ a.ok) ∧ ∀ e, r = .error e → Below (trace done) a.bad

variable {a b c d : Seqs}

theorem Sq.le {x : Run α} (h : Sq b x) (hab : Seqs.le b a = true) : Sq a x := fun F log r log' hx => by
  obtain ⟨done, hd, h1, h2⟩ := h F log r log' hx
  obtain ⟨g1, g2⟩ := Bool.and_eq_true_iff.mp hab
  refine ⟨done, hd, fun v hv => List.elem_iff.mp (List.all_eq_true.mp g1 _ (h1 v hv)), fun e he => ?_⟩
  obtain ⟨u, hu, hp⟩ := h2 e he
  obtain ⟨w, hw, hq⟩ := List.any_eq_true.mp (List.all_eq_true.mp g2 u hu)
  exact ⟨w, hw, hp.trans (List.isPrefixOf_iff_prefix.mp hq)⟩

/-- A computation that makes no external call. -/
theorem sq_of_sim {n : Kind → Nat} {K : Ctx} {x : Run α} {y : Src.Run α} (h : Sim n K x y) (hn : ∀ k, n k = 0) : Sq idle x := by
  intro F log r log' hx
  obtain ⟨done, hd, hk, _⟩ := h.tracks F log r log' hx
  have : done = [] := by
    cases done with
    | nil => rfl
    | cons c l =>
      have := hk c.kind
      rw [hn] at this
      simp at this
  subst this
  exact ⟨[], hd, fun _ _ => List.mem_cons_self, fun _ _ => below_of_mem List.mem_cons_self⟩

theorem sq_lift (r : Src.Run α) : Sq idle (lift r) := by
  intro F log x log' h
  unfold lift at h
  cases r with
  | none => cases h
  | some r =>
    cases h
    exact ⟨[], (List.append_nil _).symm, fun _ _ => List.mem_cons_self, fun _ _ => below_of_mem List.mem_cons_self⟩

theorem sq_pure (v : α) : Sq idle (pure v : Run α) := sq_lift (pure v)

theorem sq_stuck : Sq a (Run.stuck : Run α) := by
  intro F log r log' h
  cases h

theorem sq_raise (k : ExcClass) (s : String) : Sq fails (Run.raise k s : Run α) := by
  intro F log r log' h
  cases h
  exact ⟨[], (List.append_nil _).symm, (nomatch ·, ·), fun _ _ => below_of_mem List.mem_cons_self⟩

theorem sq_ask (k : Call) (r : Src.Run α) : Sq ⟨[seen k], [seen k]⟩ (ask k r) := by
  intro F log x log' hx
  have ht : trace [k] = seen k := List.flatMap_singleton seen k
  refine ⟨[k], ?_, fun _ _ => by rw [ht]; exact List.mem_cons_self, fun _ _ => by rw [ht]; exact below_of_mem List.mem_cons_self⟩
  unfold ask at hx
  cases hF : F log.length k with
  | some e =>
    rw [hF] at hx
    cases hx
    rfl
  | none =>
    rw [hF] at hx
    cases r with
    | none => cases hx
    | some r =>
      cases hx
      rfl

theorem sq_bind_post {x : Run α} {f : α → Run β} (Q : α → Prop) (hx : Sq a x) (hQ : ∀ F log v log', x F log = some (.ok v, log') → Q v)
    (hf : ∀ v, Q v → Sq b (f v)) : Sq (seq a b) (x >>= f) := by
  intro F log r log' h
  change Run.bind x f F log = _ at h
  unfold Run.bind at h
  rcases hX : x F log with _ | ⟨e | v, l⟩
  · rw [hX] at h
    cases h
  · rw [hX] at h
    cases h
    obtain ⟨done, hd, _, h2⟩ := hx F log _ _ hX
    exact ⟨done, hd, fun _ hv => (nomatch hv), fun e' _ => below_cup_left (h2 e rfl)⟩
  · rw [hX] at h
    obtain ⟨done, hd, h1, _⟩ := hx F log _ l hX
    obtain ⟨done', hd', h1', h2'⟩ := hf v (hQ F log v l hX) F l r log' h
    refine ⟨done ++ done', by rw [hd', hd, List.append_assoc], fun u hu => ?_, fun e he => ?_⟩ <;> rw [trace_append]
    · exact mem_cat (h1 v rfl) (h1' u hu)
    · exact below_cup_right (below_cat (h1 v rfl) (h2' e he))

theorem sq_bind {x : Run α} {f : α → Run β} (hx : Sq a x) (hf : ∀ v, Sq b (f v)) : Sq (seq a b) (x >>= f) :=
  sq_bind_post (fun _ => True) hx (fun _ _ _ _ _ => trivial) fun v _ => hf v

/-- Then something without external calls. -/
theorem sq_then {x : Run α} {f : α → Run β} (hx : Sq a x) (hf : ∀ v, Sq idle (f v)) : Sq (then' a) (x >>= f) := by
  intro F log r log' h
  change Run.bind x f F log = _ at h
  unfold Run.bind at h
  rcases hX : x F log with _ | ⟨e | v, l⟩
  · rw [hX] at h
    cases h
  · rw [hX] at h
    cases h
    obtain ⟨done, hd, _, h2⟩ := hx F log _ _ hX
    exact ⟨done, hd, fun _ hv => (nomatch hv), fun e' _ => below_cup_left (h2 e rfl)⟩
  · rw [hX] at h
    obtain ⟨done, hd, h1, _⟩ := hx F log _ l hX
    obtain ⟨done', hd', h1', h2'⟩ := hf v F l r log' h
    refine ⟨done ++ done', by rw [hd', hd, List.append_assoc], fun u hu => ?_, fun e he => ?_⟩ <;> rw [trace_append]
    · have : trace done' = [] := List.mem_singleton.mp (h1' u hu)
      rw [this, List.append_nil]
      exact h1 v rfl
    · obtain ⟨u, hu, hp⟩ := h2' e he
      rw [List.mem_singleton.mp hu, List.prefix_nil] at hp
      rw [hp, List.append_nil]
      exact below_cup_right (below_of_mem (h1 v rfl))

theorem sq_raising {x : Run α} {f : α → Run β} (hx : Sq a x) (hf : ∀ v, Sq fails (f v)) : Sq (raising a) (x >>= f) := by
  intro F log r log' h
  change Run.bind x f F log = _ at h
  unfold Run.bind at h
  rcases hX : x F log with _ | ⟨e | v, l⟩
  · rw [hX] at h
    cases h
  · rw [hX] at h
    cases h
    obtain ⟨done, hd, _, h2⟩ := hx F log _ _ hX
    exact ⟨done, hd, fun _ hv => (nomatch hv), fun e' _ => below_cup_left (h2 e rfl)⟩
  · rw [hX] at h
    obtain ⟨done, hd, h1, _⟩ := hx F log _ l hX
    obtain ⟨done', hd', h1', h2'⟩ := hf v F l r log' h
    refine ⟨done ++ done', by rw [hd', hd, List.append_assoc], fun u hu => (nomatch h1' u hu), fun e he => ?_⟩
    rw [trace_append]
    obtain ⟨u, hu, hp⟩ := h2' e he
    rw [List.mem_singleton.mp hu, List.prefix_nil] at hp
    rw [hp, List.append_nil]
    exact below_cup_right (below_of_mem (h1 v rfl))

/-- Before it, something without external calls. -/
theorem sq_idle_bind {x : Run α} {f : α → Run β} (hx : Sq idle x) (hf : ∀ v, Sq a (f v)) : Sq ⟨a.ok, cupP [[]] a.bad⟩ (x >>= f) := by
  intro F log r log' h
  change Run.bind x f F log = _ at h
  unfold Run.bind at h
  rcases hX : x F log with _ | ⟨e | v, l⟩
  · rw [hX] at h
    cases h
  · rw [hX] at h
    cases h
    obtain ⟨done, hd, _, h2⟩ := hx F log _ _ hX
    exact ⟨done, hd, fun _ hv => (nomatch hv), fun e' _ => below_cup_left (h2 e rfl)⟩
  · rw [hX] at h
    obtain ⟨done, hd, h1, _⟩ := hx F log _ l hX
    obtain ⟨done', hd', h1', h2'⟩ := hf v F l r log' h
    have h0 : trace done = [] := List.mem_singleton.mp (h1 v rfl)
    refine ⟨done ++ done', by rw [hd', hd, List.append_assoc], fun u hu => ?_, fun e he => ?_⟩ <;> rw [trace_append, h0, List.nil_append]
    · exact h1' u hu
    · exact below_cup_right (h2' e he)

theorem Sq.left {x : Run α} (h : Sq a x) : Sq (alt a b) x := fun F log r log' hx =>
  have ⟨done, hd, h1, h2⟩ := h F log r log' hx
  ⟨done, hd, fun v hv => mem_cup_left (h1 v hv), fun e he => below_cup_left (h2 e he)⟩

theorem Sq.right {x : Run α} (h : Sq b x) : Sq (alt a b) x := fun F log r log' hx =>
  have ⟨done, hd, h1, h2⟩ := h F log r log' hx
  ⟨done, hd, fun v hv => mem_cup_right (h1 v hv), fun e he => below_cup_right (h2 e he)⟩

theorem sq_ite {p : Prop} [Decidable p] {x y : Run α} (h : Sq a x) (h' : Sq b y) : Sq (alt a b) (if p then x else y) := by
  split
  · exact h.left
  · exact h'.right

theorem fails_idle {x : Run α} (h : Sq fails x) : Sq idle x := h.le rfl

/-! ### Expressions -/

/-- Expressions. -/
def SqE (a : Seqs) (x : Expr) : Prop := ∀ env, Sq a (x env)

/-- Functions. -/
def SqF (a : Seqs) (x : Fn) : Prop := ∀ args kw, Sq a (x args kw)

/-- Methods of built-in and external classes. -/
def SqM (a : Seqs) (x : Val → Fn) : Prop := ∀ v, SqF a (x v)

/-- Lists of expressions. -/
def SqL (a : Seqs) (xs : List Expr) : Prop := ∀ env, Sq a (evalList xs env)

/-- Keyword arguments. -/
def SqK {κ : Type} (a : Seqs) (xs : List (κ × Expr)) : Prop := ∀ env, Sq a (evalKw xs env)

/-- Tables of methods. -/
def SqT (a : Seqs) (t : List (Cls × Fn)) : Prop := ∀ k v kw, Sq a (method t k v kw)

/-- Parts of f-strings. -/
def SqP (a : Seqs) (xs : List Part) : Prop := ∀ env, Sq a (formatParts xs env)

/-- Bounds of slices. -/
def SqO (a : Seqs) (x : Option Expr) : Prop := ∀ env, Sq a (evalBound x env)

/-- Chains of comparisons. -/
def SqC (a : Seqs) (xs : List (CmpOp × Expr)) : Prop := ∀ v env, Sq a (compareRest v xs env)

theorem sq_const (v : Val) : SqE idle (eConst v) := fun _ => sq_pure v

theorem sq_global {x : Run Val} (h : Sq a x) : SqE a (eGlobal x) := fun _ => h

theorem sq_name (n : Name) : SqE idle (eName n) := by
  intro env
  unfold eName
  cases env n
  · exact sq_stuck
  · exact sq_pure _

theorem sq_attr {x : Expr} (h : SqE a x) (n : Name) : SqE (then' a) (eAttr x n) := fun env => sq_then (h env) fun _ => sq_lift _

theorem sq_index {x y : Expr} (h : SqE a x) (h' : SqE b y) : SqE (seq a (then' b)) (eIndex x y) :=
  fun env => sq_bind (h env) fun _ => sq_then (h' env) fun _ => sq_lift _

theorem sqO_none : SqO idle none := fun _ => sq_pure _

theorem sqO_some {x : Expr} (h : SqE a x) : SqO (then' a) (some x) := fun env => sq_then (h env) fun _ => sq_lift _

theorem sq_slice {x : Expr} {y z : Option Expr} (h : SqE a x) (h1 : SqO b y) (h2 : SqO c z) :
    SqE (seq a (seq b (then' c))) (eSlice x y z) :=
  fun env => sq_bind (h env) fun _ => sq_bind (h1 env) fun _ => sq_then (h2 env) fun _ => sq_lift _

theorem sq_reverse {x : Expr} (h : SqE a x) : SqE (then' a) (eReverse x) := fun env => sq_then (h env) fun _ => sq_lift _

theorem sqL_nil : SqL idle [] := fun _ => sq_pure _

theorem sqL_cons {x : Expr} {xs : List Expr} (h : SqE a x) (h' : SqL b xs) : SqL (seq a (then' b)) (x :: xs) :=
  fun env => sq_bind (h env) fun _ => sq_then (h' env) fun _ => sq_pure _

theorem sqK_nil {κ : Type} : SqK idle ([] : List (κ × Expr)) := fun _ => sq_pure _

theorem sqK_cons {κ : Type} {n : κ} {x : Expr} {xs : List (κ × Expr)} (h : SqE a x) (h' : SqK b xs) :
    SqK (seq a (then' b)) ((n, x) :: xs) :=
  fun env => sq_bind (h env) fun _ => sq_then (h' env) fun _ => sq_pure _

theorem sq_list {xs : List Expr} (h : SqL a xs) : SqE (then' a) (eList xs) := fun env => sq_then (h env) fun _ => sq_pure _

theorem sq_tuple {xs : List Expr} (h : SqL a xs) : SqE (then' a) (eTuple xs) := fun env => sq_then (h env) fun _ => sq_pure _

theorem sq_dict {xs : List (String × Expr)} (h : SqK a xs) : SqE (then' a) (eDict xs) := fun env => sq_then (h env) fun _ => sq_pure _

theorem sq_call {f : Fn} {xs : List Expr} {ks : List (Name × Expr)} (hf : SqF c f) (h : SqL a xs) (h' : SqK b ks) :
    SqE (seq a (seq b c)) (eCall f xs ks) :=
  fun env => sq_bind (h env) fun _ => sq_bind (h' env) fun _ => hf _ _

theorem sqT_nil : SqT never [] := fun _ _ _ => sq_stuck

theorem sqT_cons {k : Cls} {f : Fn} {t : List (Cls × Fn)} (h : SqF a f) (h' : SqT b t) : SqT (alt a b) ((k, f) :: t) := by
  intro k' v kw
  unfold method
  split
  · exact (h _ _).left
  · exact (h' _ _ _).right

theorem sq_methodCall {t : List (Cls × Fn)} {m : Val → Fn} {x : Expr} {xs : List Expr} {ks : List (Name × Expr)} {e : Seqs} (ht : SqT d t)
    (hm : SqM e m) (hx : SqE a x) (h : SqL b xs) (h' : SqK c ks) : SqE (seq a (seq b (seq c (alt d e)))) (eMethod t m x xs ks) := by
  refine fun env => sq_bind (hx env) fun v => sq_bind (h env) fun as => sq_bind (h' env) fun kw => ?_
  have hv := (hm v as kw).right (a := d)
  cases v <;> first | exact hv | exact (ht _ _ _).left

theorem sq_bin {t s : List (Cls × Fn)} {op : BinOp} {x y : Expr} (ht : SqT c t) (hs : SqT d s) (hx : SqE a x) (hy : SqE b y) :
    SqE (seq a (seq b (alt idle (alt c d)))) (eBin t s op x y) := by
  refine fun env => sq_bind (hx env) fun v => sq_bind (hy env) fun w => ?_
  cases v <;> first
    | exact (ht _ _ _).left.right
    | (cases w <;> first | exact (sq_lift _).left | exact (hs _ _ _).right.right)

theorem sq_not {x : Expr} (h : SqE a x) : SqE (then' a) (eNot x) := fun env => sq_then (h env) fun _ => sq_pure _

theorem sq_neg {x : Expr} (h : SqE a x) : SqE (then' a) (eNeg x) := fun env => sq_then (h env) fun _ => sq_lift _

theorem sq_invert {x : Expr} (h : SqE a x) : SqE (then' a) (eInvert x) := fun env => sq_then (h env) fun _ => sq_lift _

theorem sq_and {x y : Expr} (h : SqE a x) (h' : SqE b y) : SqE (seq a (alt b idle)) (eAnd x y) :=
  fun env => sq_bind (h env) fun _ => sq_ite (h' env) (sq_pure _)

theorem sq_or {x y : Expr} (h : SqE a x) (h' : SqE b y) : SqE (seq a (alt idle b)) (eOr x y) :=
  fun env => sq_bind (h env) fun _ => sq_ite (sq_pure _) (h' env)

theorem sq_if {x y z : Expr} (h : SqE a x) (h' : SqE b y) (h'' : SqE c z) : SqE (seq a (alt b c)) (eIf x y z) :=
  fun env => sq_bind (h env) fun _ => sq_ite (h' env) (h'' env)

theorem sqC_nil : SqC idle [] := fun _ _ => sq_pure _

theorem sqC_cons {o : CmpOp} {x : Expr} {xs : List (CmpOp × Expr)} (h : SqE a x) (h' : SqC b xs) :
    SqC (seq a (seq idle (alt b idle))) ((o, x) :: xs) :=
  fun _ env => sq_bind (h env) fun w => sq_bind (sq_lift _) fun _ => sq_ite (h' w env) (sq_pure _)

theorem sq_compare {x : Expr} {xs : List (CmpOp × Expr)} (h : SqE a x) (h' : SqC b xs) : SqE (seq a (then' b)) (eCompare x xs) :=
  fun env => sq_bind (h env) fun v => sq_then (h' v env) fun _ => sq_pure _

theorem sqP_nil : SqP idle [] := fun _ => sq_pure _

theorem sqP_lit {s : String} {xs : List Part} (h : SqP a xs) : SqP (then' a) (.lit s :: xs) := fun env => sq_then (h env) fun _ => sq_pure _

theorem sqP_val {x : Expr} {xs : List Part} (h : SqE a x) (h' : SqP b xs) : SqP (seq a (seq idle (then' b))) (.val x :: xs) :=
  fun env => sq_bind (h env) fun _ => sq_bind (sq_lift _) fun _ => sq_then (h' env) fun _ => sq_pure _

theorem sq_format {xs : List Part} (h : SqP a xs) : SqE (then' a) (eFormat xs) := fun env => sq_then (h env) fun _ => sq_pure _

theorem sq_kwargsGet {x y : Expr} (h : SqE a x) (n : Name) (h' : SqE b y) : SqE (seq a (then' b)) (eKwargsGet x n y) :=
  fun env => sq_bind (h env) fun _ => sq_then (h' env) fun _ => sq_lift _

/-! ### Statements -/

/-- Sequences of a statement: those that go on, those that return; those that raise are initial parts of `bad`. -/
structure SeqsS where
  next : List Trace
  ret : List Trace
  bad : List Trace

/-- A statement, run with some values of the variables. -/
def SqAt (a : SeqsS) (x : Run Outcome) : Prop :=
  ∀ F log r log', x F log = some (r, log') → ∃ done, log' = log ++ done ∧
    (∀ env', r = .ok (.next env') → trace done ∈ a.next) ∧ (∀ v, r = .ok (.ret v) → trace done ∈ a.ret) ∧
    ∀ e, r = .error e → Below (trace done) a.bad

/-- Statements. -/
def SqS (a : SeqsS) (s : Stmt) : Prop := ∀ env, SqAt a (s env)

namespace SeqsS

/-- One after the other. -/
def seq (a b : SeqsS) : SeqsS := ⟨cat a.next b.next, cup a.ret (cat a.next b.ret), cupP a.bad (catP a.next b.bad)⟩
/-- A condition, and two blocks. -/
def cond (e : Seqs) (a b : SeqsS) : SeqsS := ⟨cat e.ok (cup a.next b.next), cat e.ok (cup a.ret b.ret), cupP e.bad (catP e.ok (cupP a.bad b.bad))⟩
/-- One or the other. -/
def alt (a b : SeqsS) : SeqsS := ⟨cup a.next b.next, cup a.ret b.ret, cupP a.bad b.bad⟩
/-- A block with handlers. -/
def caught (a b : SeqsS) : SeqsS :=
  ⟨cup a.next (cat (parts a.bad) b.next), cup a.ret (cat (parts a.bad) b.ret), catP (parts a.bad) b.bad⟩
/-- As a computation of an outcome. -/
def both (a : SeqsS) : Seqs := ⟨cup a.next a.ret, a.bad⟩

end SeqsS

variable {s t : SeqsS}

/-- A statement after which the text goes on. -/
theorem sqS_next {s : Stmt} {x : Env → Run Env} (hs : ∀ env, s env = x env >>= fun e => pure (.next e)) (h : ∀ env, Sq a (x env)) :
    SqS ⟨a.ok, [], a.bad⟩ s := by
  intro env F log r log' hr
  rw [hs] at hr
  change Run.bind _ _ F log = _ at hr
  unfold Run.bind at hr
  rcases hX : x env F log with _ | ⟨e | v, l⟩ <;> rw [hX] at hr <;> cases hr <;> obtain ⟨done, hd, h1, h2⟩ := h env F log _ _ hX
  · exact ⟨done, hd, fun _ h => (nomatch h), fun _ h => (nomatch h), fun _ _ => h2 _ rfl⟩
  · exact ⟨done, hd, fun _ _ => h1 _ rfl, fun _ h => (nomatch h), fun _ h => (nomatch h)⟩

theorem run_assoc' {γ : Type} (x : Run α) (f : α → Run β) (g : β → Run γ) : x >>= f >>= g = x >>= fun v => f v >>= g := by
  funext F log
  change Run.bind (Run.bind x f) g F log = Run.bind x (fun v => Run.bind (f v) g) F log
  unfold Run.bind
  rcases x F log with _ | ⟨e | v, l⟩ <;> rfl

theorem sq_assign {x : Expr} (t : Target) (h : SqE a x) : SqS ⟨(then' a).ok, [], (then' a).bad⟩ (sAssign t x) :=
  sqS_next (x := fun env => x env >>= fun v => lift (t.assign v env)) (fun _ => (run_assoc' _ _ _).symm)
    fun env => sq_then (h env) fun _ => sq_lift _

theorem sq_unpack {x : Expr} (ts : List Target) (h : SqE a x) :
    SqS ⟨(seq a (then' idle)).ok, [], (seq a (then' idle)).bad⟩ (sUnpack ts x) :=
  sqS_next (x := fun env => x env >>= fun v => lift (iterate v) >>= fun vs => lift (assignAll ts vs env))
    (fun _ => by
      rw [run_assoc']
      simp only [run_assoc']
      rfl)
    fun env => sq_bind (h env) fun _ => sq_then (sq_lift _) fun _ => sq_lift _

theorem sq_expr {x : Expr} (h : SqE a x) : SqS ⟨(then' a).ok, [], (then' a).bad⟩ (sExpr x) :=
  sqS_next (x := fun env => x env >>= fun _ => pure env)
    (fun _ => by
      rw [run_assoc']
      rfl)
    fun env => sq_then (h env) fun _ => sq_pure _

theorem sq_pass : SqS ⟨[[]], [], [[]]⟩ sPass := sqS_next (x := pure) (a := idle) (fun _ => rfl) fun _ => sq_pure _

/-- A statement that returns. -/
theorem sq_return {x : Expr} (h : SqE a x) : SqS ⟨[], a.ok, a.bad⟩ (sReturn x) := by
  intro env F log r log' hr
  change Run.bind (x env) (fun v => pure (Outcome.ret v)) F log = _ at hr
  unfold Run.bind at hr
  rcases hX : x env F log with _ | ⟨e | v, l⟩ <;> rw [hX] at hr <;> cases hr <;> obtain ⟨done, hd, h1, h2⟩ := h env F log _ _ hX
  · exact ⟨done, hd, fun _ h => (nomatch h), fun _ h => (nomatch h), fun _ _ => h2 _ rfl⟩
  · exact ⟨done, hd, fun _ h => (nomatch h), fun _ _ => h1 _ rfl, fun _ h => (nomatch h)⟩

/-- A computation of an outcome, as a statement that gives none. -/
theorem sqS_never {s : Stmt} (h : ∀ env, Sq a (s env)) (ha : a.ok = []) : SqS ⟨[], [], a.bad⟩ s := by
  intro env F log r log' hr
  obtain ⟨done, hd, h1, h2⟩ := h env F log r log' hr
  refine ⟨done, hd, fun _ h => ?_, fun _ h => ?_, h2⟩ <;>
  · have := h1 _ h
    rw [ha] at this
    cases this

theorem sq_sRaise {f : Fn} {x : Expr} (hf : SqF idle f) (h : SqE a x) : SqS ⟨[], [], (raising a).bad⟩ (sRaise f x) := by
  refine sqS_never (a := raising a) (fun env => sq_raising (h env) fun v => ?_) rfl
  unfold raiseVal
  split
  · split
    · refine (sq_raising (hf _ _) fun t => ?_).le (a := fails) rfl
      unfold raiseText
      split
      · exact sq_raise _ _
      · exact sq_stuck
    · split
      · exact sq_raise _ _
      · exact sq_stuck
  · exact sq_stuck

theorem sq_block_nil : SqS ⟨[[]], [], [[]]⟩ (block []) := sqS_next (x := pure) (a := idle) (fun _ => rfl) fun _ => sq_pure _

theorem sqAt_block {x : Stmt} {xs : List Stmt} {env : Env} (Q : Env → Prop) (h : SqAt s (x env))
    (hQ : ∀ F log env' log', x env F log = some (.ok (.next env'), log') → Q env') (h' : ∀ env', Q env' → SqAt t (block xs env')) :
    SqAt (SeqsS.seq s t) (block (x :: xs) env) := by
  intro F log r log' hr
  change Run.bind (x env) _ F log = _ at hr
  unfold Run.bind at hr
  rcases hX : x env F log with _ | ⟨e | (env' | v), l⟩
  · rw [hX] at hr
    cases hr
  · rw [hX] at hr
    cases hr
    obtain ⟨done, hd, _, _, h3⟩ := h F log _ _ hX
    exact ⟨done, hd, fun _ h => (nomatch h), fun _ h => (nomatch h), fun _ _ => below_cup_left (h3 _ rfl)⟩
  · rw [hX] at hr
    obtain ⟨done, hd, h1, _, _⟩ := h F log _ _ hX
    obtain ⟨done', hd', h1', h2', h3'⟩ := h' env' (hQ F log env' l hX) F l r log' hr
    refine ⟨done ++ done', by rw [hd', hd, List.append_assoc], fun e he => ?_, fun v hv => ?_, fun e he => ?_⟩ <;> rw [trace_append]
    · exact mem_cat (h1 _ rfl) (h1' e he)
    · exact mem_cup_right (mem_cat (h1 _ rfl) (h2' v hv))
    · exact below_cup_right (below_cat (h1 _ rfl) (h3' e he))
  · rw [hX] at hr
    cases hr
    obtain ⟨done, hd, _, h2, _⟩ := h F log _ _ hX
    exact ⟨done, hd, fun _ h => (nomatch h), fun _ _ => mem_cup_left (h2 _ rfl), fun _ h => (nomatch h)⟩

theorem sq_block_cons {x : Stmt} {xs : List Stmt} (h : SqS s x) (h' : SqS t (block xs)) : SqS (SeqsS.seq s t) (block (x :: xs)) :=
  fun env => sqAt_block (fun _ => True) (h env) (fun _ _ _ _ _ => trivial) fun env' _ => h' env'

theorem sq_sIf {x : Expr} {p q : List Stmt} (h : SqE a x) (h1 : SqS s (block p)) (h2 : SqS t (block q)) :
    SqS (SeqsS.cond a s t) (sIf x p q) := by
  intro env F log r log' hr
  change Run.bind (x env) _ F log = _ at hr
  unfold Run.bind at hr
  rcases hX : x env F log with _ | ⟨e | v, l⟩
  · rw [hX] at hr
    cases hr
  · rw [hX] at hr
    cases hr
    obtain ⟨done, hd, _, hb⟩ := h env F log _ _ hX
    exact ⟨done, hd, fun _ h => (nomatch h), fun _ h => (nomatch h), fun _ _ => below_cup_left (hb _ rfl)⟩
  · rw [hX] at hr
    obtain ⟨done, hd, hc, _⟩ := h env F log _ _ hX
    dsimp only at hr
    by_cases ht : truthy v = true
    · rw [if_pos ht] at hr
      obtain ⟨done', hd', g1, g2, g3⟩ := h1 env F l r log' hr
      refine ⟨done ++ done', by rw [hd', hd, List.append_assoc], fun e he => ?_, fun u hu => ?_, fun e he => ?_⟩ <;> rw [trace_append]
      · exact mem_cat (hc v rfl) (mem_cup_left (g1 e he))
      · exact mem_cat (hc v rfl) (mem_cup_left (g2 u hu))
      · exact below_cup_right (below_cat (hc v rfl) (below_cup_left (g3 e he)))
    · rw [if_neg ht] at hr
      obtain ⟨done', hd', g1, g2, g3⟩ := h2 env F l r log' hr
      refine ⟨done ++ done', by rw [hd', hd, List.append_assoc], fun e he => ?_, fun u hu => ?_, fun e he => ?_⟩ <;> rw [trace_append]
      · exact mem_cat (hc v rfl) (mem_cup_right (g1 e he))
      · exact mem_cat (hc v rfl) (mem_cup_right (g2 u hu))
      · exact below_cup_right (below_cat (hc v rfl) (below_cup_right (g3 e he)))

/-- Handlers. -/
def SqH (a : SeqsS) (hs : List (List Catch × List Stmt)) : Prop := ∀ e, SqS a (handle e hs)

theorem sqH_nil : SqH ⟨[], [], [[]]⟩ [] := by
  intro e env F log r log' h
  cases h
  exact ⟨[], (List.append_nil _).symm, fun _ h => (nomatch h), fun _ h => (nomatch h), fun _ _ => below_of_mem List.mem_cons_self⟩

theorem sqH_cons {cs : List Catch} {ss : List Stmt} {hs : List (List Catch × List Stmt)} (h : SqS s (block ss)) (h' : SqH t hs) :
    SqH (SeqsS.alt s t) ((cs, ss) :: hs) := by
  intro e env F log r log' hr
  unfold handle at hr
  split at hr
  · obtain ⟨done, hd, h1, h2, h3⟩ := h env F log r log' hr
    exact ⟨done, hd, fun e he => mem_cup_left (h1 e he), fun v hv => mem_cup_left (h2 v hv), fun e he => below_cup_left (h3 e he)⟩
  · obtain ⟨done, hd, h1, h2, h3⟩ := h' e env F log r log' hr
    exact ⟨done, hd, fun e he => mem_cup_right (h1 e he), fun v hv => mem_cup_right (h2 v hv), fun e he => below_cup_right (h3 e he)⟩

theorem sq_try {ns : List Name} {ss : List Stmt} {hs : List (List Catch × List Stmt)} (h : SqS s (block ss)) (h' : SqH t hs) :
    SqS (SeqsS.caught s t) (sTry ns ss hs) := by
  intro env F log r log' hr
  unfold sTry at hr
  rcases hX : block ss env F log with _ | ⟨e | v, l⟩
  · rw [hX] at hr
    cases hr
  · rw [hX] at hr
    obtain ⟨done, hd, _, _, h3⟩ := h env F log _ _ hX
    obtain ⟨done', hd', g1, g2, g3⟩ := h' e _ F l r log' hr
    have hp := mem_parts (h3 e rfl)
    refine ⟨done ++ done', by rw [hd', hd, List.append_assoc], fun e he => ?_, fun u hu => ?_, fun e he => ?_⟩ <;> rw [trace_append]
    · exact mem_cup_right (mem_cat hp (g1 e he))
    · exact mem_cup_right (mem_cat hp (g2 u hu))
    · exact below_cat hp (g3 e he)
  · rw [hX] at hr
    cases hr
    obtain ⟨done, hd, h1, h2, _⟩ := h env F log _ _ hX
    exact ⟨done, hd, fun e he => mem_cup_left (h1 e he), fun u hu => mem_cup_left (h2 u hu), fun _ h => (nomatch h)⟩

/-! ### Functions -/

/-- Parameters, whose default values make no external call. -/
def SqR (ps : List Param) : Prop := ∀ rest args kw env, Sq idle (bindParams rest ps args kw env)

theorem sqR_nil : SqR [] := by
  intro rest args kw env
  cases args with
  | nil =>
    cases rest with
    | none => cases kw <;> first | exact sq_pure _ | exact fails_idle (sq_raise _ _)
    | some r => exact sq_pure _
  | cons v vs => exact fails_idle (sq_raise _ _)

theorem sqR_none {n : Name} {ps : List Param} (h : SqR ps) : SqR (⟨n, none⟩ :: ps) := by
  intro rest args kw env
  cases args <;> unfold bindParams <;> cases getField kw n <;> first | exact h _ _ _ _ | exact fails_idle (sq_raise _ _)

theorem sqR_some {n : Name} {ps : List Param} {x : Expr} (hx : SqE a x) (ha : Seqs.le a idle = true) (h : SqR ps) :
    SqR (⟨n, some (x Env.empty)⟩ :: ps) := by
  intro rest args kw env
  cases args <;> unfold bindParams <;> cases getField kw n <;>
    first | exact h _ _ _ _ | exact fails_idle (sq_raise _ _) | exact (sq_bind ((hx _).le ha) fun _ => h _ _ _ _).le rfl

theorem sq_outcome {x : Stmt} (h : SqS s x) (env : Env) : Sq (SeqsS.both s) (x env) := by
  intro F log r log' hr
  obtain ⟨done, hd, h1, h2, h3⟩ := h env F log r log' hr
  refine ⟨done, hd, fun o ho => ?_, h3⟩
  cases o with
  | next e => exact mem_cup_left (h1 e ho)
  | ret v => exact mem_cup_right (h2 v ho)

theorem sq_defun {ps : List Param} {ss : List Stmt} (rest : Option Name) (h : SqR ps) (hb : SqS s (block ss)) :
    SqF (seq idle (then' (SeqsS.both s))) (defun ps rest ss) :=
  fun args kw => sq_bind (h rest args kw _) fun env => sq_then (sq_outcome hb env) fun _ => sq_pure _

theorem sq_defclass {ps : List Param} {ss : List Stmt} (k : Cls) (h : SqR ps) (hb : SqS s (block ss)) :
    SqF (seq idle (then' (SeqsS.both s))) (defclass k ps ss) :=
  fun args kw => sq_bind (h _ args kw _) fun env => sq_then (sq_outcome hb env) fun _ => sq_lift _

theorem SqF.le {x : Fn} (h : SqF b x) (hab : Seqs.le b a = true) : SqF a x := fun args kw => (h args kw).le hab

theorem sqF_of_sim {n : Kind → Nat} {K : Ctx} {x : Fn} {y : Src.Fn} (h : SimF n K x y) (hn : ∀ k, n k = 0) : SqF idle x :=
  fun args kw => sq_of_sim (h args kw) hn

/-- Calls of this external function are one step, or none. -/
def stepping (t : Trace) : Seqs := ⟨[t], [t]⟩

theorem sq_external (k : Kind) (f : Src.Fn) (t : Trace) (h : ∀ args kw, seen ⟨k, args, kw⟩ = t) : SqF (stepping t) (external k f) := by
  intro args kw
  have := sq_ask ⟨k, args, kw⟩ (f args kw)
  rw [h] at this
  exact this

/-- A method that other values than the objects of the external class do not have. -/
theorem sq_externalMethod (k : Kind) {mine : Val → Bool} {m : Val → Src.Fn} (t : Trace) (ht : ∀ args kw, seen ⟨k, args, kw⟩ = t)
    (h : ∀ v args kw, mine v = false → m v args kw = none) : SqM (stepping t) (externalMethod k mine m) := by
  intro v args kw
  unfold externalMethod
  by_cases hv : mine v = true
  · rw [if_pos hv]
    exact sq_external k (fun _ _ => m v args kw) t ht (v :: args) kw
  · rw [if_neg hv, h v args kw (by simpa using hv)]
    intro F log r log' hr
    cases hr

/-- A method that other values may have too. -/
theorem sq_otherMethod (k : Kind) (mine : Val → Bool) (m : Val → Src.Fn) (ht : ∀ args kw, seen ⟨k, args, kw⟩ = []) :
    SqM idle (externalMethod k mine m) := by
  intro v args kw
  unfold externalMethod
  split
  · exact sq_external k (fun _ _ => m v args kw) [] ht (v :: args) kw
  · exact sq_lift _

/-! ### Calls with fixed arguments -/

theorem sq_call_fixed {k : Kind} {f : Src.Fn} {xs : List Expr} (t : Trace)
    (hg : ∀ env F vs, List.Forall₂ (fun x v => ∃ l l', x env F l = some (.ok v, l')) xs vs → seen ⟨k, vs, []⟩ = t) (h : SqL a xs) :
    SqE (seq a (stepping t)) (eCall (external k f) xs []) := by
  intro env
  refine sq_bind_post (fun vs => seen ⟨k, vs, []⟩ = t) (h env) (fun F log vs log' hv => hg env F vs (evalList_gives hv)) fun vs hv => ?_
  have := sq_ask (α := Val) ⟨k, vs, []⟩ (f vs [])
  rw [hv] at this
  exact this

/-- `os.urandom(n)` -/
theorem sq_urandom {H : Host} {n : Int} : SqE (seq (seq idle (then' idle)) (stepping [.urandom n.toNat])) (eCall (xUrandom H) [eConst (.int n)] []) := by
  refine sq_call_fixed _ ?_ (sqL_cons (sq_const _) sqL_nil)
  rintro env F vs (_ | ⟨h, _ | _⟩)
  rw [const_value h]
  rfl

/-- `scrypt.hash(x, y, N, r, p)` -/
theorem sq_scrypt {H : Host} {N r p : Int} {x y : Expr} (hx : SqE a x) (hy : SqE b y) :
    SqE (seq (seq a (then' (seq b (then' (seq idle (then' (seq idle (then' (seq idle (then' idle)))))))))) (stepping [.scrypt N.toNat r.toNat p.toNat 64]))
      (eCall (xScrypt H) [x, y, eConst (.int N), eConst (.int r), eConst (.int p)] []) := by
  refine sq_call_fixed _ ?_
    (sqL_cons hx (sqL_cons hy (sqL_cons (sq_const _) (sqL_cons (sq_const _) (sqL_cons (sq_const _) sqL_nil)))))
  rintro env F vs (_ | ⟨_, _ | ⟨_, _ | ⟨h1, _ | ⟨h2, _ | ⟨h3, _ | _⟩⟩⟩⟩⟩)
  rw [const_value h1, const_value h2, const_value h3]
  rfl

/-- `scrypt.hash(x, y, N, r, p, size)` -/
theorem sq_scryptOf {H : Host} {N r p size : Int} {x y : Expr} (hx : SqE a x) (hy : SqE b y) :
    SqE (seq (seq a (then' (seq b (then' (seq idle (then' (seq idle (then' (seq idle (then' (seq idle (then' idle))))))))))))
        (stepping [.scrypt N.toNat r.toNat p.toNat size.toNat]))
      (eCall (xScrypt H) [x, y, eConst (.int N), eConst (.int r), eConst (.int p), eConst (.int size)] []) := by
  refine sq_call_fixed _ ?_
    (sqL_cons hx (sqL_cons hy (sqL_cons (sq_const _) (sqL_cons (sq_const _) (sqL_cons (sq_const _) (sqL_cons (sq_const _) sqL_nil))))))
  rintro env F vs (_ | ⟨_, _ | ⟨_, _ | ⟨h1, _ | ⟨h2, _ | ⟨h3, _ | ⟨h4, _ | _⟩⟩⟩⟩⟩⟩)
  rw [const_value h1, const_value h2, const_value h3, const_value h4]
  rfl

/-! ### A variable that holds no object of the repository -/

/-- Statements, run where the variable holds no object. -/
def SqSI (n : Name) (a : SeqsS) (x : Stmt) : Prop := ∀ env, NoObj n env → SqAt a (x env)

/-- Expressions, evaluated where the variable holds no object. -/
def SqEI (n : Name) (a : Seqs) (x : Expr) : Prop := ∀ env, NoObj n env → Sq a (x env)

theorem xAes_value {args : List Val} {kw : List (Name × Val)} {F : Faults} {log log' : List Call} {v : Val}
    (h : xAes args kw F log = some (.ok v, log')) : ∃ k, v = .aes k := by
  unfold xAes external ask at h
  cases hF : F log.length ⟨.aes, args, kw⟩ with
  | some e =>
    rw [hF] at h
    cases h
  | none =>
    rw [hF] at h
    have h' : ∃ r, Src.xAes args kw = some r ∧ r = .ok v := by
      cases hr : Src.xAes args kw with
      | none =>
        rw [hr] at h
        cases h
      | some r =>
        rw [hr] at h
        cases h
        exact ⟨_, rfl, rfl⟩
    obtain ⟨r, hr, rfl⟩ := h'
    unfold Src.xAes at hr
    split at hr
    · rename_i b
      cases hn : AES.new b with
      | error e =>
        rw [hn] at hr
        cases hr
      | ok k =>
        rw [hn] at hr
        cases hr
        exact ⟨k, rfl⟩
    · cases hr

/-- `aes = AESModeOfOperationECB(..)`, and what follows. -/
theorem sq_block_aes {n : Name} {xs : List Expr} {as : List (Name × Expr)} {ss : List Stmt} (h : SqL a xs) (h' : SqK b as)
    (hl : SqF c xAes) (ht : SqSI n t (block ss)) :
    SqS (SeqsS.seq ⟨(then' (seq a (seq b c))).ok, [], (then' (seq a (seq b c))).bad⟩ t)
      (block ((fun env => sAssign (.name n) (eCall xAes xs as) env) :: ss)) := by
  intro env
  refine sqAt_block (NoObj n) (sq_assign (.name n) (sq_call hl h h') env) ?_ ht
  intro F log env' log' hx
  obtain ⟨v, l, hv, hx⟩ := bind_ok hx
  obtain ⟨va, l1, _, hv⟩ := bind_ok hv
  obtain ⟨ka, l2, _, hv⟩ := bind_ok hv
  obtain ⟨k, rfl⟩ := xAes_value hv
  cases hx
  intro c f h
  simp [Env.set] at h

/-- An assignment to another variable. -/
theorem sqI_assign {n m : Name} {x : Expr} {ss : List Stmt} (hb : (n == m) = false) (h : SqEI n a x) (ht : SqSI n t (block ss)) :
    SqSI n (SeqsS.seq ⟨(then' a).ok, [], (then' a).bad⟩ t) (block ((fun env => sAssign (.name m) x env) :: ss)) := by
  intro env he
  refine sqAt_block (NoObj n) ?_ ?_ ht
  · have : SqS ⟨(then' a).ok, [], (then' a).bad⟩ (sAssign (.name m) fun _ => x env) := sq_assign (.name m) fun _ => h env he
    exact this env
  · intro F log env' log' hx
    obtain ⟨v, l, _, hx⟩ := bind_ok hx
    cases hx
    intro c f h
    simp only [Env.set, if_neg (ne_of_beq_false hb)] at h
    exact he c f h

theorem sqI_block {n : Name} {ss : List Stmt} (h : SqS s (block ss)) : SqSI n s (block ss) := fun env _ => h env

theorem sqI_expr {n : Name} {x : Expr} (h : SqE a x) : SqEI n a x := fun env _ => h env

/-- A method of that variable. -/
theorem sqI_method {n : Name} {ts : List (Cls × Fn)} {m : Val → Fn} {xs : List Expr} {as : List (Name × Expr)} (hm : SqM c m) (h : SqL a xs)
    (h' : SqK b as) : SqEI n (seq a (seq b c)) (eMethod ts m (eName n) xs as) := by
  intro env he
  unfold eMethod eName
  rcases hv : env n with _ | v
  · exact sq_stuck
  · change Sq _ (evalList xs env >>= fun a => evalKw as env >>= fun k => _)
    refine sq_bind (h env) fun va => sq_bind (h' env) fun kw => ?_
    have hv' := hm v va kw
    cases v <;> first | exact hv' | exact absurd hv (he _ _)

/-! ### RIPEMD-160 -/

/-- `x if "ripemd160" in hashlib.algorithms_available else y`: which of them the host decides. -/
theorem sq_available {H : Host} {r : Bool} (hr : H.P.hashlibRipemd160.isSome = r) {x y : Expr} (hx : SqE a x) (hy : SqE b y) :
    SqE (seq idle (bif r then a else b)) (eIf (eCompare (eConst (.str "ripemd160".toList)) [(.in, eGlobal (xAlgorithms H))]) x y) := by
  intro env
  refine sq_bind_post (fun v => truthy v = r) ((sq_compare (sq_const _) (sqC_cons (sq_global (sq_lift _)) sqC_nil) env).le rfl) ?_ ?_
  · intro F log v log' h
    subst hr
    unfold xAlgorithms Src.xAlgorithms at h
    cases hP : H.P.hashlibRipemd160 <;> rw [hP] at h <;> cases h <;> rfl
  · rintro v rfl
    cases truthy v
    · exact hy env
    · exact hx env

/-! ### Automation -/

/-- RIPEMD-160 of `hashlib`, where there is one. -/
def rip : Bool → Trace
  | true => [.ripemd160]
  | false => []

/-- A function that is already known. -/
syntax "sq_known" : tactic
macro_rules | `(tactic| sq_known) => `(tactic| fail)

/-- One rule. -/
macro "sq_rule" : tactic => `(tactic| first
  | (with_reducible first
  | exact sq_const _ | exact sq_name _ | exact sq_pass | exact sq_lift _
  | exact sqL_nil | exact sqK_nil | exact sqT_nil | exact sqP_nil | exact sqC_nil | exact sqO_none | exact sq_block_nil | exact sqH_nil
  | exact sqR_nil | exact sq_urandom
  | apply sq_global | apply sq_attr | apply sq_index | apply sq_slice | apply sq_reverse | apply sq_list | apply sq_tuple
  | apply sq_dict | apply sq_scrypt | apply sq_scryptOf | apply sq_call | apply sq_methodCall | apply sq_bin | apply sq_not | apply sq_neg
  | apply sq_invert | apply sq_and | apply sq_or | apply sq_available (by assumption) | apply sq_if | apply sq_compare | apply sq_format
  | apply sq_kwargsGet
  | apply sq_assign | apply sq_unpack | apply sq_expr | apply sq_return | apply sq_sIf | apply sq_sRaise | apply sq_try
  | apply sqL_cons | apply sqK_cons | apply sqT_cons | apply sqP_lit | apply sqP_val | apply sqC_cons | apply sqO_some
  | apply sq_block_cons | apply sqH_cons | apply sqR_none | apply sqR_some
  | sq_known
  | apply sq_defun | apply sq_defclass))

/-- A function, from its text. -/
macro "sq_function" r:ident : tactic => `(tactic| (apply SqF.le; repeat' sq_rule) <;> (cases $r:ident <;> decide +kernel))

/-- One rule, for a function in which the class of a variable matters. -/
macro "sq_rule_aes" : tactic => `(tactic| first
  | with_reducible apply sq_block_aes
  | ((with_reducible apply sqI_assign); rfl)
  | with_reducible apply sqI_method
  | sq_rule
  | with_reducible apply sqI_expr
  | with_reducible apply sqI_block)

/-- A function in which the class of a variable matters, from its text. -/
macro "sq_function_aes" r:ident : tactic => `(tactic| (apply SqF.le; repeat' sq_rule_aes) <;> (cases $r:ident <;> decide +kernel))

end Bip38.SrcX
