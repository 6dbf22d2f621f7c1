import Verif.SrcX.SeqText
import Verif.SrcX.StopText
/-!
# Two runs of the same text

For every construct that a decision on public data passes through: two runs that agree in the public variables make the same external calls.
-/
namespace Bip38.SrcX

open Bip38.Src Bip38.Spec

variable {α β : Type}

/-! ### Pairs of computations -/

/-- Calls are only added. -/
def Grows (x : Run α) : Prop := ∀ F log r l, x F log = some (r, l) → ∃ d, l = log ++ d

/-- Two computations of which the same is seen; if both give a value, the values are related. -/
def Same (R : α → α → Prop) (x x' : Run α) : Prop :=
  ∀ F log r l F' log' r' l', x F log = some (r, l) → x' F' log' = some (r', l') → ∃ d d', l = log ++ d ∧ l' = log' ++ d' ∧ Alike r d r' d' ∧
    ∀ v v', r = .ok v → r' = .ok v' → R v v'

theorem Sq.grows {a : Seqs} {x : Run α} (h : Sq a x) : Grows x := fun F log r l hx =>
  have ⟨d, hd, _⟩ := h F log r l hx
  ⟨d, hd⟩

theorem Same.mono {R S : α → α → Prop} {x x' : Run α} (h : Same R x x') (hRS : ∀ v v', R v v' → S v v') : Same S x x' :=
  fun F log r l F' log' r' l' hx hx' =>
    have ⟨d, d', hd, hd', ha, hr⟩ := h F log r l F' log' r' l' hx hx'
    ⟨d, d', hd, hd', ha, fun v v' hv hv' => hRS _ _ (hr v v' hv hv')⟩

theorem grows_pure (v : α) : Grows (pure v : Run α) := (sq_pure v).grows

theorem grows_lift (x : Src.Run α) : Grows (lift x) := (sq_lift x).grows

theorem grows_bind {x : Run α} {f : α → Run β} (hx : Grows x) (hf : ∀ v, Grows (f v)) : Grows (x >>= f) := by
  intro F log r l h
  change Run.bind x f F log = _ at h
  unfold Run.bind at h
  rcases hX : x F log with _ | ⟨e | v, l1⟩
  · rw [hX] at h
    cases h
  · rw [hX] at h
    cases h
    exact hx F log _ _ hX
  · rw [hX] at h
    obtain ⟨d, rfl⟩ := hx F log _ _ hX
    obtain ⟨d', rfl⟩ := hf v F _ _ _ h
    exact ⟨d ++ d', List.append_assoc _ _ _⟩

theorem grows_ite {p : Prop} [Decidable p] {x y : Run α} (h : Grows x) (h' : Grows y) : Grows (if p then x else y) := by
  split
  · exact h
  · exact h'

theorem same_bind {R : α → α → Prop} {S : β → β → Prop} {x x' : Run α} {f f' : α → Run β} (hx : Same R x x')
    (hg : ∀ v, Grows (f v)) (hg' : ∀ v, Grows (f' v)) (hf : ∀ v v', R v v' → Same S (f v) (f' v')) : Same S (x >>= f) (x' >>= f') := by
  intro F log r l F' log' r' l' h h'
  change Run.bind x f F log = _ at h
  change Run.bind x' f' F' log' = _ at h'
  unfold Run.bind at h h'
  rcases hX : x F log with _ | ⟨e | v, l1⟩
  · rw [hX] at h
    cases h
  · rw [hX] at h
    cases h
    rcases hX' : x' F' log' with _ | ⟨e' | v', l1'⟩
    · rw [hX'] at h'
      cases h'
    · rw [hX'] at h'
      cases h'
      obtain ⟨d, d', hd, hd', ⟨ha, _, _⟩, _⟩ := hx _ _ _ _ _ _ _ _ hX hX'
      exact ⟨d, d', hd, hd', ⟨ha, fun _ h => (nomatch h), fun _ h => (nomatch h)⟩, fun _ _ h => (nomatch h)⟩
    · rw [hX'] at h'
      obtain ⟨d, d', hd, hd', ⟨_, _, ha⟩, _⟩ := hx _ _ _ _ _ _ _ _ hX hX'
      obtain ⟨d2, hd2⟩ := hg' v' _ _ _ _ h'
      have hp : trace d <+: trace (d' ++ d2) := by
        rw [trace_append]
        exact (ha v' rfl).trans (List.prefix_append _ _)
      exact ⟨d, d' ++ d2, hd, by rw [hd2, hd', List.append_assoc], ⟨.inl hp, fun _ h => (nomatch h), fun _ _ => hp⟩, fun _ _ h => (nomatch h)⟩
  · rw [hX] at h
    rcases hX' : x' F' log' with _ | ⟨e' | v', l1'⟩
    · rw [hX'] at h'
      cases h'
    · rw [hX'] at h'
      cases h'
      obtain ⟨d, d', hd, hd', ⟨_, ha, _⟩, _⟩ := hx _ _ _ _ _ _ _ _ hX hX'
      obtain ⟨d2, hd2⟩ := hg v _ _ _ _ h
      have hp : trace d' <+: trace (d ++ d2) := by
        rw [trace_append]
        exact (ha v rfl).trans (List.prefix_append _ _)
      exact ⟨d ++ d2, d', by rw [hd2, hd, List.append_assoc], hd', ⟨.inr hp, fun _ _ => hp, fun _ h => (nomatch h)⟩, fun _ _ _ h => (nomatch h)⟩
    · rw [hX'] at h'
      obtain ⟨d, d', hd, hd', ⟨_, ha, ha'⟩, hr⟩ := hx _ _ _ _ _ _ _ _ hX hX'
      have ht : trace d = trace d' := (ha' v' rfl).eq_of_length_le (ha v rfl).length_le
      obtain ⟨d2, d2', hd2, hd2', ⟨hb, hb1, hb2⟩, hr2⟩ := hf v v' (hr v v' rfl rfl) _ _ _ _ _ _ _ _ h h'
      refine ⟨d ++ d2, d' ++ d2', by rw [hd2, hd, List.append_assoc], by rw [hd2', hd', List.append_assoc], ⟨?_, ?_, ?_⟩, hr2⟩ <;>
        rw [trace_append, trace_append, ht]
      · exact hb.imp (List.prefix_append_right_inj _).mpr (List.prefix_append_right_inj _).mpr
      · exact fun u hu => (List.prefix_append_right_inj _).mpr (hb1 u hu)
      · exact fun u hu => (List.prefix_append_right_inj _).mpr (hb2 u hu)

/-- Only one sequence is possible. -/
def Seqs.one (a : Seqs) : Bool :=
  (a.ok.all fun t => a.ok.all (t == ·) && a.bad.all (·.isPrefixOf t)) && a.bad.all fun b => a.bad.all fun c => b.isPrefixOf c || c.isPrefixOf b

theorem same_one {a : Seqs} {x x' : Run α} (h : Sq a x) (h' : Sq a x') (ha : a.one = true) {Q Q' : α → Prop}
    (hQ : ∀ F log v l, x F log = some (.ok v, l) → Q v) (hQ' : ∀ F log v l, x' F log = some (.ok v, l) → Q' v) :
    Same (fun v v' => Q v ∧ Q' v') x x' := by
  intro F log r l F' log' r' l' hx hx'
  obtain ⟨d, hd, h1, h2⟩ := h F log r l hx
  obtain ⟨d', hd', h1', h2'⟩ := h' F' log' r' l' hx'
  obtain ⟨g1, g2⟩ := Bool.and_eq_true_iff.mp ha
  have ok : ∀ t ∈ a.ok, (∀ u ∈ a.ok, t = u) ∧ ∀ b ∈ a.bad, b <+: t := fun t ht => by
    obtain ⟨k1, k2⟩ := Bool.and_eq_true_iff.mp (List.all_eq_true.mp g1 t ht)
    exact ⟨fun u hu => eq_of_beq (List.all_eq_true.mp k1 u hu), fun b hb => List.isPrefixOf_iff_prefix.mp (List.all_eq_true.mp k2 b hb)⟩
  have bad : ∀ b ∈ a.bad, ∀ c ∈ a.bad, b <+: c ∨ c <+: b := fun b hb c hc =>
    (Bool.or_eq_true_iff.mp (List.all_eq_true.mp (List.all_eq_true.mp g2 b hb) c hc)).imp List.isPrefixOf_iff_prefix.mp List.isPrefixOf_iff_prefix.mp
  refine ⟨d, d', hd, hd', ?_, fun v v' hv hv' => ⟨hQ F log v l (hv ▸ hx), hQ' F' log' v' l' (hv' ▸ hx')⟩⟩
  cases r with
  | ok v =>
    have m := h1 v rfl
    cases r' with
    | ok v' =>
      have e := (ok _ m).1 _ (h1' v' rfl)
      rw [Alike, e]
      exact ⟨.inl (List.prefix_refl _), fun _ _ => List.prefix_refl _, fun _ _ => List.prefix_refl _⟩
    | error e' =>
      obtain ⟨b, hb, hp⟩ := h2' e' rfl
      have hp' := hp.trans ((ok _ m).2 b hb)
      exact ⟨.inr hp', fun _ _ => hp', fun _ h => (nomatch h)⟩
  | error e =>
    obtain ⟨b, hb, hp⟩ := h2 e rfl
    cases r' with
    | ok v' =>
      have hp' := hp.trans ((ok _ (h1' v' rfl)).2 b hb)
      exact ⟨.inl hp', fun _ h => (nomatch h), fun _ _ => hp'⟩
    | error e' =>
      obtain ⟨c, hc, hq⟩ := h2' e' rfl
      refine ⟨?_, fun _ h => (nomatch h), fun _ h => (nomatch h)⟩
      rcases bad b hb c hc with h | h
      · exact List.prefix_or_prefix_of_prefix (hp.trans h) hq
      · exact List.prefix_or_prefix_of_prefix hp (hq.trans h)

/-- Two computations with the same only sequence. -/
theorem same_any {a : Seqs} {x x' : Run α} (h : Sq a x) (h' : Sq a x') (ha : a.one = true) : Same (fun _ _ => True) x x' :=
  (same_one h h' ha (Q := fun _ => True) (Q' := fun _ => True) (fun _ _ _ _ _ => trivial) fun _ _ _ _ _ => trivial).mono fun _ _ _ => trivial

/-- Every fault ends a run. -/
def ending : Tr := ⟨fun _ _ => True, fun _ _ _ => True, fun _ _ => trivial⟩

theorem st_value {x : Run α} {y : Src.Run α} (h : St ending x y) {F : Faults} {log l : List Call} {v : α} (hx : x F log = some (.ok v, l)) : y = some (.ok v) := by
  rcases h F log with ⟨d, _, h⟩ | ⟨d, c, e, _, _, h⟩
  · rw [hx] at h
    rcases y with _ | r
    · cases h
    · cases h
      rfl
  · obtain ⟨e', _, h⟩ := h trivial
    rw [hx] at h
    cases h

/-- Two computations with the same only sequence and, if they give one, the same value. -/
theorem same_self {a : Seqs} {x x' : Run α} {y : Src.Run α} (h : Sq a x) (h' : Sq a x') (ha : a.one = true) (hy : St ending x y) (hy' : St ending x' y) :
    Same Eq x x' :=
  (same_one h h' ha (Q := fun v => y = some (.ok v)) (Q' := fun v => y = some (.ok v)) (fun _ _ _ _ hx => st_value hy hx) fun _ _ _ _ hx => st_value hy' hx).mono
    fun v v' ⟨hv, hv'⟩ => by
      rw [hv] at hv'
      cases hv'
      rfl

theorem same_lift (y : Src.Run α) : Same Eq (lift y) (lift y) := same_self (sq_lift y) (sq_lift y) rfl (st_lift y) (st_lift y)

theorem same_pure {R : α → α → Prop} {v v' : α} (h : R v v') : Same R (pure v : Run α) (pure v') := by
  intro F log r l F' log' r' l' hx hx'
  cases hx
  cases hx'
  refine ⟨[], [], (List.append_nil _).symm, (List.append_nil _).symm, ⟨.inl (List.prefix_refl _), fun _ _ => List.prefix_refl _, fun _ _ => List.prefix_refl _⟩, ?_⟩
  rintro _ _ ⟨⟩ ⟨⟩
  exact h

theorem same_stuck {R : α → α → Prop} {x : Run α} : Same R Run.stuck x := by
  intro F log r l F' log' r' l' hx
  cases hx

theorem grows_stuck : Grows (Run.stuck : Run α) := by
  intro F log r l hx
  cases hx

/-! ### Variables -/

/-- What is public: the values of some variables, and of others only whether they are true. -/
structure Pub where
  vals : List Name
  truth : List Name

/-- Two environments that agree there. -/
def Agree (L : Pub) (env env' : Env) : Prop :=
  (∀ n ∈ L.vals, env n = env' n) ∧ ∀ n ∈ L.truth, (env n).map truthy = (env' n).map truthy

/-- Expressions with public values. -/
structure PubE (R : Val → Val → Prop) (L : Pub) (x x' : Expr) : Prop where
  grows : ∀ env, Grows (x env)
  grows' : ∀ env, Grows (x' env)
  same : ∀ env env', Agree L env env' → Same R (x env) (x' env')

/-- The same truth. -/
def Truth (v w : Val) : Prop := truthy v = truthy w

/-- Anything. -/
def Any (_ _ : Val) : Prop := True

variable {L M N : Pub}

theorem PubE.mono {R S : Val → Val → Prop} {x x' : Expr} (h : PubE R L x x') (hRS : ∀ v w, R v w → S v w) : PubE S L x x' :=
  ⟨h.grows, h.grows', fun env env' he => (h.same env env' he).mono hRS⟩

theorem PubE.truth {x x' : Expr} (h : PubE Eq L x x') : PubE Truth L x x' := h.mono fun _ _ h => congrArg truthy h

theorem pub_const (v : Val) : PubE Eq L (eConst v) (eConst v) := ⟨fun _ => grows_pure v, fun _ => grows_pure v, fun _ _ _ => same_pure rfl⟩

theorem grows_name (n : Name) (env : Env) : Grows (eName n env) := by
  unfold eName
  cases env n
  · exact grows_stuck
  · exact grows_pure _

theorem pub_name {n : Name} (hn : L.vals.elem n = true) : PubE Eq L (eName n) (eName n) := by
  refine ⟨grows_name n, grows_name n, fun env env' he => ?_⟩
  unfold eName
  rw [he.1 n (List.elem_iff.mp hn)]
  cases env' n
  · exact same_stuck
  · exact same_pure rfl

theorem pub_nameTruth {n : Name} (hn : L.truth.elem n = true) : PubE Truth L (eName n) (eName n) := by
  refine ⟨grows_name n, grows_name n, fun env env' he => ?_⟩
  unfold eName
  have h := he.2 n (List.elem_iff.mp hn)
  cases h1 : env n with
  | none => exact same_stuck
  | some v =>
    cases h2 : env' n with
    | none =>
      rw [h1, h2] at h
      cases h
    | some v' =>
      rw [h1, h2] at h
      exact same_pure (Option.some.inj h)

theorem grows_and {x y : Expr} {env : Env} (hx : Grows (x env)) (hy : Grows (y env)) : Grows (eAnd x y env) :=
  grows_bind hx fun _ => grows_ite hy (grows_pure _)

theorem pub_and {x x' y y' : Expr} (hx : PubE Truth L x x') (hy : PubE Truth L y y') : PubE Truth L (eAnd x y) (eAnd x' y') := by
  refine ⟨fun env => grows_and (hx.grows env) (hy.grows env), fun env => grows_and (hx.grows' env) (hy.grows' env), fun env env' he => ?_⟩
  refine same_bind (hx.same env env' he) (fun v => grows_ite (hy.grows env) (grows_pure _)) (fun v => grows_ite (hy.grows' env') (grows_pure _)) fun v v' hv => ?_
  by_cases h : truthy v = true
  · rw [if_pos h, if_pos (hv ▸ h)]
    exact hy.same env env' he
  · rw [if_neg h, if_neg (hv ▸ h)]
    exact same_pure hv

/-- `a if c else b`, with the decision public and one sequence for each branch. -/
theorem pub_if {a b : Seqs} {c c' x x' y y' : Expr} (hc : PubE Truth L c c') (hx : SqE a x) (hx' : SqE a x') (ha : a.one = true)
    (hy : SqE b y) (hy' : SqE b y') (hb : b.one = true) : PubE Any L (eIf c x y) (eIf c' x' y') := by
  have hg : ∀ env v, Grows (if truthy v = true then x env else y env) := fun env v => grows_ite (hx env).grows (hy env).grows
  have hg' : ∀ env v, Grows (if truthy v = true then x' env else y' env) := fun env v => grows_ite (hx' env).grows (hy' env).grows
  refine ⟨fun env => grows_bind (hc.grows env) (hg env), fun env => grows_bind (hc.grows' env) (hg' env),
    fun env env' he => same_bind (hc.same env env' he) (hg env) (hg' env') fun v v' hv => ?_⟩
  by_cases h : truthy v = true
  · rw [if_pos h, if_pos (hv ▸ h)]
    exact same_any (hx env) (hx' env') ha
  · rw [if_neg h, if_neg (hv ▸ h)]
    exact same_any (hy env) (hy' env') hb

/-- Bounds of slices. -/
structure PubO (L : Pub) (x x' : Option Expr) : Prop where
  grows : ∀ env, Grows (evalBound x env)
  grows' : ∀ env, Grows (evalBound x' env)
  same : ∀ env env', Agree L env env' → Same Eq (evalBound x env) (evalBound x' env')

theorem pubO_none : PubO L none none := ⟨fun _ => grows_pure _, fun _ => grows_pure _, fun _ _ _ => same_pure rfl⟩

theorem pubO_some {x x' : Expr} (h : PubE Eq L x x') : PubO L (some x) (some x') :=
  ⟨fun env => grows_bind (h.grows env) fun _ => grows_lift _, fun env => grows_bind (h.grows' env) fun _ => grows_lift _,
    fun env env' he => same_bind (h.same env env' he) (fun _ => grows_lift _) (fun _ => grows_lift _) fun _ _ hv => hv ▸ same_lift _⟩

theorem pub_slice {x x' : Expr} {y y' z z' : Option Expr} (hx : PubE Eq L x x') (hy : PubO L y y') (hz : PubO L z z') :
    PubE Eq L (eSlice x y z) (eSlice x' y' z') := by
  have g3 : ∀ env (v : Val) (lo : Option Int), Grows (evalBound z env >>= fun hi => lift (sliceVal v lo hi)) := fun env _ _ => grows_bind (hz.grows env) fun _ => grows_lift _
  have g3' : ∀ env (v : Val) (lo : Option Int), Grows (evalBound z' env >>= fun hi => lift (sliceVal v lo hi)) := fun env _ _ => grows_bind (hz.grows' env) fun _ => grows_lift _
  have g2 : ∀ env (v : Val), Grows (evalBound y env >>= fun lo => evalBound z env >>= fun hi => lift (sliceVal v lo hi)) :=
    fun env v => grows_bind (hy.grows env) (g3 env v)
  have g2' : ∀ env (v : Val), Grows (evalBound y' env >>= fun lo => evalBound z' env >>= fun hi => lift (sliceVal v lo hi)) :=
    fun env v => grows_bind (hy.grows' env) (g3' env v)
  refine ⟨fun env => grows_bind (hx.grows env) (g2 env), fun env => grows_bind (hx.grows' env) (g2' env),
    fun env env' he => same_bind (hx.same env env' he) (g2 env) (g2' env') ?_⟩
  rintro v _ rfl
  refine same_bind (hy.same env env' he) (g3 env v) (g3' env' v) ?_
  rintro lo _ rfl
  refine same_bind (hz.same env env' he) (fun _ => grows_lift _) (fun _ => grows_lift _) ?_
  rintro hi _ rfl
  exact same_lift _

theorem pub_index {x x' y y' : Expr} (hx : PubE Eq L x x') (hy : PubE Eq L y y') : PubE Eq L (eIndex x y) (eIndex x' y') := by
  have g : ∀ env (v : Val), Grows (y env >>= fun w => lift (pySubscript v w)) := fun env _ => grows_bind (hy.grows env) fun _ => grows_lift _
  have g' : ∀ env (v : Val), Grows (y' env >>= fun w => lift (pySubscript v w)) := fun env _ => grows_bind (hy.grows' env) fun _ => grows_lift _
  refine ⟨fun env => grows_bind (hx.grows env) (g env), fun env => grows_bind (hx.grows' env) (g' env),
    fun env env' he => same_bind (hx.same env env' he) (g env) (g' env') ?_⟩
  rintro v _ rfl
  refine same_bind (hy.same env env' he) (fun _ => grows_lift _) (fun _ => grows_lift _) ?_
  rintro w _ rfl
  exact same_lift _

/-- One comparison. -/
theorem pub_compare {o : CmpOp} {x x' y y' : Expr} (hx : PubE Eq L x x') (hy : PubE Eq L y y') : PubE Eq L (eCompare x [(o, y)]) (eCompare x' [(o, y')]) := by
  have g0 : ∀ (w : Val) (b : Bool) env, Grows (if b = true then compareRest w [] env else pure false) := fun w b env => grows_ite (grows_pure _) (grows_pure _)
  have g1 : ∀ env (v w : Val), Grows (lift (o.apply v w) >>= fun b => if b = true then compareRest w [] env else pure false) :=
    fun env v w => grows_bind (grows_lift _) fun b => g0 w b env
  have g2 : ∀ (z : Expr) env (v : Val), Grows (z env) → Grows (compareRest v [(o, z)] env) := fun z env v hz => grows_bind hz (g1 env v)
  have g3 : ∀ (z : Expr) env (v : Val), Grows (z env) → Grows (compareRest v [(o, z)] env >>= fun b => pure (Val.bool b)) :=
    fun z env v hz => grows_bind (g2 z env v hz) fun _ => grows_pure _
  refine ⟨fun env => grows_bind (hx.grows env) fun v => g3 y env v (hy.grows env), fun env => grows_bind (hx.grows' env) fun v => g3 y' env v (hy.grows' env),
    fun env env' he => same_bind (hx.same env env' he) (fun v => g3 y env v (hy.grows env)) (fun v => g3 y' env' v (hy.grows' env')) ?_⟩
  rintro v _ rfl
  refine same_bind (R := Eq) (same_bind (hy.same env env' he) (g1 env v) (g1 env' v) ?_) (fun _ => grows_pure _) (fun _ => grows_pure _) fun b b' hb => same_pure (congrArg _ hb)
  rintro w _ rfl
  refine same_bind (same_lift _) (fun b => g0 w b env) (fun b => g0 w b env') ?_
  rintro b _ rfl
  cases b
  · exact same_pure rfl
  · exact same_pure rfl

/-- Lists of expressions. -/
structure PubL (L : Pub) (xs xs' : List Expr) : Prop where
  grows : ∀ env, Grows (evalList xs env)
  grows' : ∀ env, Grows (evalList xs' env)
  same : ∀ env env', Agree L env env' → Same Eq (evalList xs env) (evalList xs' env')

theorem pubL_nil : PubL L [] [] := ⟨fun _ => grows_pure _, fun _ => grows_pure _, fun _ _ _ => same_pure rfl⟩

theorem pubL_cons {x x' : Expr} {xs xs' : List Expr} (hx : PubE Eq L x x') (hs : PubL L xs xs') : PubL L (x :: xs) (x' :: xs') := by
  have g : ∀ env (v : Val), Grows (evalList xs env >>= fun vs => pure (v :: vs)) := fun env _ => grows_bind (hs.grows env) fun _ => grows_pure _
  have g' : ∀ env (v : Val), Grows (evalList xs' env >>= fun vs => pure (v :: vs)) := fun env _ => grows_bind (hs.grows' env) fun _ => grows_pure _
  refine ⟨fun env => grows_bind (hx.grows env) (g env), fun env => grows_bind (hx.grows' env) (g' env),
    fun env env' he => same_bind (hx.same env env' he) (g env) (g' env') ?_⟩
  rintro v _ rfl
  refine same_bind (hs.same env env' he) (fun _ => grows_pure _) (fun _ => grows_pure _) ?_
  rintro vs _ rfl
  exact same_pure rfl

/-- Functions that give the same. -/
def PubF (f f' : Fn) : Prop := (∀ args kw, Grows (f args kw) ∧ Grows (f' args kw)) ∧ ∀ args kw, Same Eq (f args kw) (f' args kw)

theorem pubF {a : Seqs} {x x' : Fn} {y : Src.Fn} (h : SqF a x) (h' : SqF a x') (ha : a.one = true) (hy : StF ending x y) (hy' : StF ending x' y) : PubF x x' :=
  ⟨fun args kw => ⟨(h args kw).grows, (h' args kw).grows⟩, fun args kw => same_self (h args kw) (h' args kw) ha (hy args kw) (hy' args kw)⟩

theorem pub_call {f f' : Fn} {xs xs' : List Expr} (hf : PubF f f') (h : PubL L xs xs') : PubE Eq L (eCall f xs []) (eCall f' xs' []) := by
  have g : ∀ env (a : List Val), Grows (evalKw ([] : List (Name × Expr)) env >>= fun k => f a k) := fun env a => grows_bind (grows_pure _) fun k => (hf.1 a k).1
  have g' : ∀ env (a : List Val), Grows (evalKw ([] : List (Name × Expr)) env >>= fun k => f' a k) := fun env a => grows_bind (grows_pure _) fun k => (hf.1 a k).2
  refine ⟨fun env => grows_bind (h.grows env) (g env), fun env => grows_bind (h.grows' env) (g' env),
    fun env env' he => same_bind (h.same env env' he) (g env) (g' env') ?_⟩
  rintro v _ rfl
  refine same_bind (R := Eq) (same_pure rfl) (fun k => (hf.1 v k).1) (fun k => (hf.1 v k).2) ?_
  rintro k _ rfl
  exact hf.2 v k

theorem pub_global {a : Seqs} {x x' : Run Val} {y : Src.Run Val} (h : Sq a x) (h' : Sq a x') (ha : a.one = true) (hy : St ending x y) (hy' : St ending x' y) :
    PubE Eq L (eGlobal x) (eGlobal x') :=
  ⟨fun _ => h.grows, fun _ => h'.grows, fun _ _ _ => same_self h h' ha hy hy'⟩

/-! ### Statements -/

/-- Both go on, with environments that agree; or both return. -/
def Out (M : Pub) : Outcome → Outcome → Prop
  | .next env, .next env' => Agree M env env'
  | .ret _, .ret _ => True
  | _, _ => False

/-- Two statements: from environments that agree in `L` to such that agree in `M`. -/
structure PubS (L M : Pub) (s s' : Stmt) : Prop where
  grows : ∀ env, Grows (s env)
  grows' : ∀ env, Grows (s' env)
  same : ∀ env env', Agree L env env' → Same (Out M) (s env) (s' env')

/-- Two statements after which nothing depends on the environment. -/
structure PubT (L : Pub) (s s' : Stmt) : Prop where
  grows : ∀ env, Grows (s env)
  grows' : ∀ env, Grows (s' env)
  same : ∀ env env', Agree L env env' → Same (fun _ _ => True) (s env) (s' env')

theorem pubS_nil : PubS L L (block []) (block []) := ⟨fun _ => grows_pure _, fun _ => grows_pure _, fun _ _ he => same_pure he⟩

/-- What follows a statement. -/
theorem grows_rest {ss : List Stmt} (h : ∀ env, Grows (block ss env)) (o : Outcome) :
    Grows (match o with | .next env => block ss env | .ret v => pure (Outcome.ret v)) := by
  cases o
  · exact h _
  · exact grows_pure _

theorem grows_block {s : Stmt} {ss : List Stmt} (h : ∀ env, Grows (s env)) (h' : ∀ env, Grows (block ss env)) (env : Env) : Grows (block (s :: ss) env) :=
  grows_bind (h env) (grows_rest h')

theorem pubS_cons {s s' : Stmt} {ss ss' : List Stmt} (h : PubS L M s s') (h' : PubS M N (block ss) (block ss')) : PubS L N (block (s :: ss)) (block (s' :: ss')) := by
  refine ⟨grows_block h.grows h'.grows, grows_block h.grows' h'.grows', fun env env' he => ?_⟩
  refine same_bind (h.same env env' he) (grows_rest h'.grows) (grows_rest h'.grows') fun o o' ho => ?_
  cases o <;> cases o' <;> first | exact h'.same _ _ ho | exact same_pure ho | exact ho.elim

theorem pubT_cons {s s' : Stmt} {ss ss' : List Stmt} (h : PubS L M s s') (h' : PubT M (block ss) (block ss')) : PubT L (block (s :: ss)) (block (s' :: ss')) := by
  refine ⟨grows_block h.grows h'.grows, grows_block h.grows' h'.grows', fun env env' he => ?_⟩
  refine same_bind (h.same env env' he) (grows_rest h'.grows) (grows_rest h'.grows') fun o o' ho => ?_
  cases o <;> cases o' <;> first | exact h'.same _ _ ho | exact same_pure trivial | exact ho.elim

/-- The last statement. -/
theorem pubT_last {s s' : Stmt} (h : PubT L s s') : PubT L (block [s]) (block [s']) := by
  have g := grows_rest (ss := []) fun _ => grows_pure _
  refine ⟨fun env => grows_bind (h.grows env) g, fun env => grows_bind (h.grows' env) g, fun env env' he => same_bind (h.same env env' he) g g fun o o' _ => ?_⟩
  cases o <;> cases o' <;> exact same_pure trivial

/-- A rest with one sequence. -/
theorem pubT_one {a : SeqsS} {s s' : Stmt} (h : SqS a s) (h' : SqS a s') (ha : a.both.one = true) : PubT L s s' :=
  ⟨fun env => (sq_outcome h env).grows, fun env => (sq_outcome h' env).grows, fun env env' _ => same_any (sq_outcome h env) (sq_outcome h' env') ha⟩

theorem grows_branch {p q : List Stmt} (hp : ∀ env, Grows (block p env)) (hq : ∀ env, Grows (block q env)) (env : Env) (v : Val) :
    Grows (if truthy v = true then block p env else block q env) := grows_ite (hp env) (hq env)

theorem pubT_if {c c' : Expr} {p p' q q' : List Stmt} (hc : PubE Truth L c c') (hp : PubT L (block p) (block p')) (hq : PubT L (block q) (block q')) :
    PubT L (sIf c p q) (sIf c' p' q') := by
  refine ⟨fun env => grows_bind (hc.grows env) (grows_branch hp.grows hq.grows env), fun env => grows_bind (hc.grows' env) (grows_branch hp.grows' hq.grows' env),
    fun env env' he => same_bind (hc.same env env' he) (grows_branch hp.grows hq.grows env) (grows_branch hp.grows' hq.grows' env') fun v v' hv => ?_⟩
  by_cases h : truthy v = true
  · rw [if_pos h, if_pos (hv ▸ h)]
    exact hp.same env env' he
  · rw [if_neg h, if_neg (hv ▸ h)]
    exact hq.same env env' he

theorem pubS_if {c c' : Expr} {p p' q q' : List Stmt} (hc : PubE Truth L c c') (hp : PubS L M (block p) (block p')) (hq : PubS L M (block q) (block q')) :
    PubS L M (sIf c p q) (sIf c' p' q') := by
  refine ⟨fun env => grows_bind (hc.grows env) (grows_branch hp.grows hq.grows env), fun env => grows_bind (hc.grows' env) (grows_branch hp.grows' hq.grows' env),
    fun env env' he => same_bind (hc.same env env' he) (grows_branch hp.grows hq.grows env) (grows_branch hp.grows' hq.grows' env') fun v v' hv => ?_⟩
  by_cases h : truthy v = true
  · rw [if_pos h, if_pos (hv ▸ h)]
    exact hp.same env env' he
  · rw [if_neg h, if_neg (hv ▸ h)]
    exact hq.same env env' he

/-- Fewer public variables. -/
def Pub.le (M L : Pub) : Bool := M.vals.all L.vals.elem && M.truth.all L.truth.elem

theorem agree_le (h : M.le L = true) {env env' : Env} (he : Agree L env env') : Agree M env env' := by
  obtain ⟨h1, h2⟩ := Bool.and_eq_true_iff.mp h
  exact ⟨fun n hn => he.1 n (List.elem_iff.mp (List.all_eq_true.mp h1 n hn)), fun n hn => he.2 n (List.elem_iff.mp (List.all_eq_true.mp h2 n hn))⟩

theorem PubS.le {s s' : Stmt} (h : PubS L M s s') (hN : N.le M = true) : PubS L N s s' :=
  ⟨h.grows, h.grows', fun env env' he => (h.same env env' he).mono fun o o' ho => by
    cases o <;> cases o' <;> first | exact agree_le hN ho | exact ho⟩

/-- These variables keep their values. -/
def Frames (l : List Name) (s : Stmt) : Prop := ∀ env F log env' log', s env F log = some (.ok (.next env'), log') → ∀ n ∈ l, env' n = env n

theorem frames_nil {l : List Name} : Frames l (block []) := by
  intro env F log env' log' h n _
  cases h
  rfl

theorem frames_cons {l : List Name} {s : Stmt} {ss : List Stmt} (h : Frames l s) (h' : Frames l (block ss)) : Frames l (block (s :: ss)) := by
  intro env F log env' log' hx n hn
  obtain ⟨o, l1, h1, h2⟩ := bind_ok hx
  cases o with
  | next env1 => rw [h' env1 F l1 env' log' h2 n hn, h env F log env1 l1 h1 n hn]
  | ret v => cases h2

theorem frames_if {l : List Name} {c : Expr} {p q : List Stmt} (h : Frames l (block p)) (h' : Frames l (block q)) : Frames l (sIf c p q) := by
  intro env F log env' log' hx
  obtain ⟨v, l1, _, h2⟩ := bind_ok hx
  split at h2
  · exact h env F l1 env' log' h2
  · exact h' env F l1 env' log' h2

theorem frames_assign {l : List Name} {m : Name} (hm : l.all (· != m) = true) {x : Expr} : Frames l (sAssign (.name m) x) := by
  intro env F log env' log' hx n hn
  obtain ⟨v, l1, _, h2⟩ := bind_ok hx
  cases h2
  have := List.all_eq_true.mp hm n hn
  have hne : n ≠ m := by simpa using this
  exact if_neg hne

/-- A statement that only raises. -/
theorem frames_raise {l : List Name} {f : Fn} {x : Expr} (hf : SqF Seqs.idle f) {a : Seqs} (hx : SqE a x) : Frames l (sRaise f x) := by
  intro env F log env' log' h
  obtain ⟨_, _, h1, _⟩ := sq_sRaise hf hx env F log _ _ h
  cases h1 env' rfl

/-- Statements with the same one sequence that keep the public variables. -/
theorem pubS_keep {a : SeqsS} {s s' : Stmt} (h : SqS a s) (h' : SqS a s') (ha : a.both.one = true) (hr : a.ret = []) (hk : Frames (M.vals ++ M.truth) s)
    (hk' : Frames (M.vals ++ M.truth) s') (hM : M.le L = true) : PubS L M s s' := by
  refine ⟨fun env => (sq_outcome h env).grows, fun env => (sq_outcome h' env).grows, fun env env' he => ?_⟩
  have key : ∀ s, SqS a s → Frames (M.vals ++ M.truth) s → ∀ env, ∀ F log o l, s env F log = some (.ok o, l) → ∃ e, o = .next e ∧ ∀ n ∈ M.vals ++ M.truth, e n = env n :=
    fun s h hk env F log o l hx => by
      cases o with
      | next e => exact ⟨e, rfl, hk env F log e l hx⟩
      | ret v =>
        obtain ⟨_, _, _, h2, _⟩ := h env F log _ _ hx
        have := h2 v rfl
        rw [hr] at this
        cases this
  refine (same_one (sq_outcome h env) (sq_outcome h' env') ha (key s h hk env) (key s' h' hk' env')).mono ?_
  rintro _ _ ⟨⟨e, rfl, k⟩, ⟨e', rfl, k'⟩⟩
  obtain ⟨a1, a2⟩ := agree_le hM he
  refine ⟨fun n hn => ?_, fun n hn => ?_⟩
  · rw [k n (List.mem_append_left _ hn), k' n (List.mem_append_left _ hn), a1 n hn]
  · rw [k n (List.mem_append_right _ hn), k' n (List.mem_append_right _ hn), a2 n hn]

theorem assign_name (n : Name) (x : Expr) (env : Env) : sAssign (.name n) x env = x env >>= fun v => pure (.next (env.set n v)) := by
  unfold sAssign
  funext F log
  change Run.bind (x env) _ F log = Run.bind (x env) _ F log
  unfold Run.bind
  rcases x env F log with _ | ⟨e | v, l⟩ <;> rfl

theorem grows_assign {n : Name} {x : Expr} (h : ∀ env, Grows (x env)) (env : Env) : Grows (sAssign (.name n) x env) := by
  rw [assign_name]
  exact grows_bind (h env) fun _ => grows_pure _

theorem same_assign {R : Val → Val → Prop} {n : Name} {x x' : Expr} (h : PubE R L x x') (hR : ∀ env env' v v', Agree L env env' → R v v' → Agree M (env.set n v) (env'.set n v')) :
    PubS L M (sAssign (.name n) x) (sAssign (.name n) x') := by
  refine ⟨grows_assign h.grows, grows_assign h.grows', fun env env' he => ?_⟩
  rw [assign_name, assign_name]
  exact same_bind (h.same env env' he) (fun _ => grows_pure _) (fun _ => grows_pure _) fun v v' hv => same_pure (hR env env' v v' he hv)

/-- A public value. -/
theorem pubS_assign {n : Name} {x x' : Expr} (h : PubE Eq L x x') :
    PubS L ⟨n :: L.vals, L.truth.filter (· != n)⟩ (sAssign (.name n) x) (sAssign (.name n) x') := by
  refine same_assign h ?_
  rintro env env' v _ ⟨h1, h2⟩ rfl
  refine ⟨fun m hm => ?_, fun m hm => ?_⟩
  · by_cases hmn : m = n
    · simp [Env.set, hmn]
    · simp only [Env.set, if_neg hmn]
      exact h1 m ((List.mem_cons.mp hm).resolve_left hmn)
  · obtain ⟨hm, hmn⟩ := List.mem_filter.mp hm
    have hmn : m ≠ n := by simpa using hmn
    simp only [Env.set, if_neg hmn]
    exact h2 m hm

/-- A value that is not public. -/
theorem pubS_other {n : Name} {x x' : Expr} (h : PubE Any L x x') :
    PubS L ⟨L.vals.filter (· != n), L.truth.filter (· != n)⟩ (sAssign (.name n) x) (sAssign (.name n) x') := by
  refine same_assign h ?_
  rintro env env' v v' ⟨h1, h2⟩ _
  refine ⟨fun m hm => ?_, fun m hm => ?_⟩ <;>
  · obtain ⟨hm, hmn⟩ := List.mem_filter.mp hm
    have hmn : m ≠ n := by simpa using hmn
    simp only [Env.set, if_neg hmn]
    first | exact h1 m hm | exact h2 m hm

/-- `try`, where each handler only raises, without external calls. -/
theorem pubS_try {t : SeqsS} {ns : List Name} {ss ss' : List Stmt} {hs hs' : List (List Catch × List Stmt)} (h : PubS L M (block ss) (block ss')) (hh : SqH t hs)
    (hh' : SqH t hs') (ht : t.next = [] ∧ t.ret = [] ∧ t.bad.all (· == []) = true) : PubS L M (sTry ns ss hs) (sTry ns ss' hs') := by
  have hand : ∀ hs, SqH t hs → ∀ e env F log r l, handle e hs env F log = some (r, l) → (∃ e', r = .error e') ∧ ∃ d, l = log ++ d ∧ trace d = [] := by
    intro hs hh e env F log r l hx
    obtain ⟨d, hd, h1, h2, h3⟩ := hh e env F log r l hx
    cases r with
    | ok o =>
      cases o with
      | next e =>
        have := h1 e rfl
        rw [ht.1] at this
        cases this
      | ret v =>
        have := h2 v rfl
        rw [ht.2.1] at this
        cases this
    | error e =>
      obtain ⟨b, hb, hp⟩ := h3 e rfl
      have : b = [] := eq_of_beq (List.all_eq_true.mp ht.2.2 b hb)
      rw [this, List.prefix_nil] at hp
      exact ⟨⟨e, rfl⟩, d, hd, hp⟩
  -- the block, and what the handlers make of it
  have run : ∀ hs, SqH t hs → ∀ ss env F log r l, sTry ns ss hs env F log = some (r, l) → ∃ r0 l0, block ss env F log = some (r0, l0) ∧ ((r = r0 ∧ l = l0) ∨
      (∃ e e', r0 = .error e ∧ r = .error e' ∧ ∃ d, l = l0 ++ d ∧ trace d = [])) := by
    intro hs hh ss env F log r l hx
    unfold sTry at hx
    rcases hX : block ss env F log with _ | ⟨e | v, l1⟩
    · rw [hX] at hx
      cases hx
    · rw [hX] at hx
      obtain ⟨⟨e', rfl⟩, d, hd, hp⟩ := hand hs hh _ _ _ _ _ _ hx
      exact ⟨_, l1, rfl, .inr ⟨e, e', rfl, rfl, d, hd, hp⟩⟩
    · rw [hX] at hx
      cases hx
      exact ⟨_, _, rfl, .inl ⟨rfl, rfl⟩⟩
  have grow : ∀ hs, SqH t hs → ∀ ss, (∀ env, Grows (block ss env)) → ∀ env, Grows (sTry ns ss hs env) := by
    intro hs hh ss hg env F log r l hx
    obtain ⟨r0, l0, hb, hr⟩ := run hs hh ss _ _ _ _ _ hx
    obtain ⟨d, hd⟩ := hg env _ _ _ _ hb
    rcases hr with ⟨_, rfl⟩ | ⟨_, _, _, _, d', rfl, _⟩
    · exact ⟨d, hd⟩
    · exact ⟨d ++ d', by rw [hd, List.append_assoc]⟩
  refine ⟨grow hs hh ss h.grows, grow hs' hh' ss' h.grows', fun env env' he F log r l F' log' r' l' hx hx' => ?_⟩
  · obtain ⟨r0, l0, hb, hr⟩ := run hs hh ss _ _ _ _ _ hx
    obtain ⟨r0', l0', hb', hr'⟩ := run hs' hh' ss' _ _ _ _ _ hx'
    obtain ⟨d, d', hd, hd', ⟨a1, a2, a3⟩, hR⟩ := h.same env env' he _ _ _ _ _ _ _ _ hb hb'
    rcases hr with ⟨rfl, rfl⟩ | ⟨e, e1, rfl, rfl, u, rfl, hu⟩ <;> rcases hr' with ⟨rfl, rfl⟩ | ⟨e', e1', rfl, rfl, u', rfl, hu'⟩
    · exact ⟨d, d', hd, hd', ⟨a1, a2, a3⟩, hR⟩
    · refine ⟨d, d' ++ u', hd, by rw [hd', List.append_assoc], ⟨?_, ?_, fun _ h => (nomatch h)⟩, fun _ _ _ h => (nomatch h)⟩ <;>
        rw [trace_append, hu', List.append_nil]
      · exact a1
      · exact a2
    · refine ⟨d ++ u, d', by rw [hd, List.append_assoc], hd', ⟨?_, fun _ h => (nomatch h), ?_⟩, fun _ _ h => (nomatch h)⟩ <;>
        rw [trace_append, hu, List.append_nil]
      · exact a1
      · exact a3
    · refine ⟨d ++ u, d' ++ u', by rw [hd, List.append_assoc], by rw [hd', List.append_assoc], ⟨?_, fun _ h => (nomatch h), fun _ h => (nomatch h)⟩,
        fun _ _ h => (nomatch h)⟩
      rw [trace_append, trace_append, hu, hu', List.append_nil, List.append_nil]
      exact a1

/-! ### Functions -/

theorem getField_erase {kw : List (Name × Val)} {n m : Name} (h : m ≠ n) : getField (eraseKw kw n) m = getField kw m := by
  induction kw with
  | nil => rfl
  | cons p kw ih =>
    obtain ⟨k, v⟩ := p
    unfold eraseKw
    by_cases hk : k = n
    · rw [if_pos hk]
      unfold getField
      rw [if_neg (hk ▸ h.symm)]
      cases kw <;> rfl
    · rw [if_neg hk]
      unfold getField
      by_cases hm : k = m
      · rw [if_pos hm, if_pos hm]
      · rw [if_neg hm, if_neg hm]
        exact ih

/-- The values of the parameters. -/
theorem bind_param {ps : List Param} (hn : (ps.map (·.name)).Nodup) {args : List Val} {kw : List (Name × Val)} {env env' : Env} {F : Faults} {log l : List Call}
    (h : bindParams none ps args kw env F log = some (.ok env', l)) :
    (∀ n, n ∉ ps.map (·.name) → env' n = env n) ∧
    ∀ i p, ps[i]? = some p → (∀ v, given i p.name args kw = some v → env' p.name = some v) ∧
      (given i p.name args kw = none → ∃ d, p.default = some d ∧ ∃ v F l l', d F l = some (.ok v, l') ∧ env' p.name = some v) := by
  induction ps generalizing args kw env log with
  | nil =>
    refine ⟨fun n _ => ?_, fun i p hp => by cases hp⟩
    cases args <;> cases kw <;> cases h
    rfl
  | cons p ps ih =>
    obtain ⟨hp, hn⟩ := List.nodup_cons.mp hn
    cases args with
    | cons a as =>
      unfold bindParams at h
      cases hk : getField kw p.name with
      | some v =>
        rw [hk] at h
        cases h
      | none =>
        rw [hk] at h
        obtain ⟨i1, i2⟩ := ih hn h
        refine ⟨fun n hm => ?_, fun i q hq => ?_⟩
        · rw [i1 n fun hc => hm (List.mem_cons_of_mem _ hc)]
          exact if_neg fun hc : n = p.name => hm (hc ▸ List.mem_cons_self)
        · cases i with
          | zero =>
            cases hq
            refine ⟨fun v hv => ?_, fun hv => by cases hv⟩
            cases hv
            rw [i1 _ hp]
            exact if_pos rfl
          | succ i => exact i2 i q hq
    | nil =>
      unfold bindParams at h
      cases hk : getField kw p.name with
      | some v =>
        rw [hk] at h
        obtain ⟨i1, i2⟩ := ih hn h
        refine ⟨fun n hm => ?_, fun i q hq => ?_⟩
        · rw [i1 n fun hc => hm (List.mem_cons_of_mem _ hc)]
          exact if_neg fun hc : n = p.name => hm (hc ▸ List.mem_cons_self)
        · cases i with
          | zero =>
            cases hq
            refine ⟨fun w hw => ?_, fun hw => ?_⟩
            · have : v = w := Option.some.inj (hk.symm.trans hw)
              rw [i1 _ hp, ← this]
              exact if_pos rfl
            · exact absurd (hk.symm.trans hw) (by simp)
          | succ i =>
            have hne : q.name ≠ p.name := fun hc => hp (List.mem_map.mpr ⟨q, List.mem_of_getElem? hq, hc⟩)
            have := i2 i q hq
            unfold given at this ⊢
            rw [getField_erase hne] at this
            exact this
      | none =>
        rw [hk] at h
        cases hd : p.default with
        | none =>
          rw [hd] at h
          cases h
        | some d =>
          rw [hd] at h
          obtain ⟨v, l1, h1, h2⟩ := bind_ok h
          obtain ⟨i1, i2⟩ := ih hn h2
          refine ⟨fun n hm => ?_, fun i q hq => ?_⟩
          · rw [i1 n fun hc => hm (List.mem_cons_of_mem _ hc)]
            exact if_neg fun hc : n = p.name => hm (hc ▸ List.mem_cons_self)
          · cases i with
            | zero =>
              cases hq
              refine ⟨fun w hw => absurd (hk.symm.trans hw) (by simp), fun _ => ⟨d, hd, v, F, log, l1, h1, ?_⟩⟩
              rw [i1 _ hp]
              exact if_pos rfl
            | succ i => exact i2 i q hq

/-- The value of a parameter without default. -/
theorem param_value {ps : List Param} (hn : (ps.map (·.name)).Nodup) {args : List Val} {kw : List (Name × Val)} {env env' : Env} {F : Faults} {log l : List Call}
    (h : bindParams none ps args kw env F log = some (.ok env', l)) {i : Nat} {n : Name} (hp : ps[i]? = some ⟨n, none⟩) : env' n = given i n args kw := by
  obtain ⟨h1, h2⟩ := (bind_param hn h).2 i _ hp
  cases hg : given i n args kw with
  | some v => exact h1 v hg
  | none =>
    obtain ⟨d, hd, _⟩ := h2 hg
    cases hd

/-- The truth of a parameter with default `None`. -/
theorem param_truth {ps : List Param} (hn : (ps.map (·.name)).Nodup) {args : List Val} {kw : List (Name × Val)} {env env' : Env} {F : Faults} {log l : List Call}
    (h : bindParams none ps args kw env F log = some (.ok env', l)) {i : Nat} {n : Name} (hp : ps[i]? = some ⟨n, some (eConst .none Env.empty)⟩) :
    (env' n).map truthy = some (told i n args kw) := by
  obtain ⟨h1, h2⟩ := (bind_param hn h).2 i _ hp
  unfold told
  cases hg : given i n args kw with
  | some v =>
    rw [h1 v hg]
    rfl
  | none =>
    obtain ⟨d, hd, v, F, l, l', hv, he⟩ := h2 hg
    cases hd
    cases hv
    rw [he]
    rfl

/-- Functions. -/
theorem seen_defun {ps : List Param} {ss ss' : List Stmt} (hp : SqR ps) (hb : PubT L (block ss) (block ss'))
    {agree : List Val → List (Name × Val) → List Val → List (Name × Val) → Prop}
    (ha : ∀ args kw args' kw', agree args kw args' kw' → ∀ F log env l F' log' env' l', bindParams none ps args kw Env.empty F log = some (.ok env, l) →
      bindParams none ps args' kw' Env.empty F' log' = some (.ok env', l') → Agree L env env') : SeenAlike agree (defun ps none ss) (defun ps none ss') := by
  intro args kw args' kw' hpub F F' r r' done done' hx hx'
  have gb : ∀ env, Grows (block ss env >>= fun o => pure (returned o)) := fun env => grows_bind (hb.grows env) fun _ => grows_pure _
  have gb' : ∀ env, Grows (block ss' env >>= fun o => pure (returned o)) := fun env => grows_bind (hb.grows' env) fun _ => grows_pure _
  have := same_bind (S := fun _ _ : Val => True) (same_one (hp none args kw Env.empty) (hp none args' kw' Env.empty) rfl
    (Q := fun env => ∃ F log l, bindParams none ps args kw Env.empty F log = some (.ok env, l))
    (Q' := fun env => ∃ F log l, bindParams none ps args' kw' Env.empty F log = some (.ok env, l))
    (fun F log v l h => ⟨F, log, l, h⟩) fun F log v l h => ⟨F, log, l, h⟩) gb gb' fun env env' ⟨⟨_, _, _, h1⟩, ⟨_, _, _, h2⟩⟩ =>
      same_bind (hb.same env env' (ha _ _ _ _ hpub _ _ _ _ _ _ _ _ h1 h2)) (fun _ => grows_pure _) (fun _ => grows_pure _) fun _ _ _ => same_pure trivial
  obtain ⟨d, d', hd, hd', h, _⟩ := this _ _ _ _ _ _ _ _ hx hx'
  rw [List.nil_append] at hd hd'
  subst hd hd'
  exact h

end Bip38.SrcX
