import Verif.Model.Threads
import Verif.Lemmas.Create
/-!
# Lemmas on calls as programs of reads
-/
namespace Bip38

variable {P : Prims}

/-- The result of a call that nobody interrupts. -/
def Prog.alone {α : Type} (w : World) : Prog α → Py α
  | .done r => r
  | .read q next => (next (w.value q)).alone w

@[simp] theorem alone_done {α : Type} (w : World) (r : Py α) : (Prog.done r).alone w = r := rfl

@[simp] theorem alone_pure {α : Type} (w : World) (a : α) : (pure a : Prog α).alone w = .ok a := rfl

@[simp] theorem alone_lift {α : Type} (w : World) (m : Py α) : (liftM m : Prog α).alone w = m := rfl

@[simp] theorem alone_lift' {α : Type} (w : World) (m : Py α) : (MonadLift.monadLift m : Prog α).alone w = m := rfl

@[simp] theorem alone_bind {α β : Type} (w : World) (p : Prog α) (f : α → Prog β) :
    (p >>= f).alone w = p.alone w >>= fun a => (f a).alone w := by
  show (p.bind f).alone w = _
  induction p with
  | done r => cases r <;> rfl
  | read q next ih => exact ih _

@[simp] theorem alone_ite {α : Type} (w : World) (c : Prop) [Decidable c] (p q : Prog α) :
    (if c then p else q).alone w = if c then p.alone w else q.alone w := by split <;> rfl

section
variable {w : World} {i : Nat} {o : ObjectRec} {c : Coin}

theorem alone_readNetwork (ho : w.objects[i]? = some o) : (readNetwork i).alone w = .ok o.network := by
  show Except.ok (w.objects.getD i .absent).network = _
  simp [List.getD, ho]

theorem alone_readNetworks (ho : w.objects[i]? = some o) : (readNetworks i).alone w = .ok o.networks := by
  show Except.ok (w.objects.getD i .absent).networks = _
  simp [List.getD, ho]

theorem alone_readClass (ho : w.objects[i]? = some o) : (readClass i).alone w = .ok o.cls := by
  show Except.ok (w.objects.getD i .absent).cls = _
  simp [List.getD, ho]

theorem alone_readTable {k : Nat} (hc : w.classes[k]? = some c) : (readTable k).alone w = .ok c := by
  show Except.ok (w.classes.getD k .absent) = _
  simp [List.getD, hc]

theorem bind_ok_py {α β : Type} (a : α) (f : α → Py β) : ((.ok a : Py α) >>= f) = f a := rfl

theorem alone_coin (ho : w.objects[i]? = some o) (hc : w.classes[o.cls]? = some c) : (coinSteps i).alone w = .ok c := by
  unfold coinSteps
  rw [alone_bind, alone_readClass ho, bind_ok_py, alone_readTable hc]

theorem alone_network (ho : w.objects[i]? = some o) (obj : BIP38) (h1 : obj.networks = o.networks) (h2 : obj.network = o.network) (n : Option String) :
    (networkSteps i n).alone w = (do
      raiseIf (obj.selectNetwork n ∉ obj.networks) .networkError (wrongNetwork obj.networks)
      .ok (obj.selectNetwork n)) := by
  have hsel : (chosenSteps i n).alone w = .ok (obj.selectNetwork n) := by
    unfold BIP38.selectNetwork chosenSteps
    cases n with
    | none => simp only; rw [alone_readNetwork ho, h2]
    | some s => simp only [alone_ite, alone_readNetwork ho, alone_pure, h2]; split <;> rfl
  unfold networkSteps
  rw [alone_bind, hsel, bind_ok_py, alone_bind, alone_readNetworks ho, bind_ok_py, alone_ite, alone_bind, alone_readNetworks ho, bind_ok_py, h1]
  by_cases h : obj.selectNetwork n ∈ o.networks
  · simp [h, raiseIf]; rfl
  · simp [h, raiseIf]; rfl

end

variable {w : World} {i : Nat} {obj : BIP38}

theorem object_some (ho : w.object i = some obj) : ∃ o, w.objects[i]? = some o ∧ w.classes[o.cls]? = some obj.cryptocurrency ∧
    obj.networks = o.networks ∧ obj.network = o.network ∧ obj.alphabet = o.alphabet := by
  unfold World.object at ho
  cases h : w.objects[i]? with
  | none => simp [h] at ho
  | some o =>
    cases h' : w.classes[o.cls]? with
    | none => simp [h, h'] at ho
    | some c =>
      simp [h, h'] at ho
      subst ho
      exact ⟨o, rfl, h', rfl, rfl, rfl⟩

theorem alone_coin' (ho : w.object i = some obj) : (coinSteps i).alone w = .ok obj.cryptocurrency := by
  obtain ⟨o, h1, h2, _⟩ := object_some ho
  exact alone_coin h1 h2

theorem alone_network' (ho : w.object i = some obj) (n : Option String) :
    (networkSteps i n).alone w = (do
      raiseIf (obj.selectNetwork n ∉ obj.networks) .networkError (wrongNetwork obj.networks)
      .ok (obj.selectNetwork n)) := by
  obtain ⟨o, h1, _, h3, h4, _⟩ := object_some ho
  exact alone_network h1 obj h3 h4 n

theorem assoc_py {α β γ : Type} (m : Py α) (f : α → Py β) (g : β → Py γ) : ((m >>= f) >>= g) = (m >>= fun a => f a >>= g) := by
  cases m <;> rfl

theorem alone_encrypt (ho : w.object i = some obj) (wif pass : Str) (n : Option String) :
    (encryptSteps P i wif pass n).alone w = obj.encrypt P wif pass n := by
  unfold encryptSteps BIP38.encrypt
  simp only [alone_bind, alone_network' ho, alone_coin' ho, alone_lift, alone_pure, alone_ite, assoc_py, bind_ok_py]

theorem alone_create (ho : w.object i = some obj) (it : Str) (type : String) (seed : Data) (n : Option String) (u : Bytes) :
    (createSteps P i it type seed n u).alone w = obj.createNewEncryptedWif P it type seed n u := by
  unfold createSteps BIP38.createNewEncryptedWif
  simp only [alone_bind, alone_network' ho, alone_coin' ho, alone_lift, alone_pure, assoc_py, bind_ok_py]

theorem alone_confirm (ho : w.object i = some obj) (pass code : Str) (n : Option String) (detail : Bool) :
    (confirmSteps P i pass code n detail).alone w = obj.confirmCode P pass code n detail := by
  unfold confirmSteps BIP38.confirmCode
  simp only [alone_bind, alone_network' ho, alone_coin' ho, alone_lift, alone_pure, alone_ite, assoc_py, bind_ok_py]

theorem alone_decryptNoEc (ho : w.object i = some obj) (d : Bytes) (pass : Str) (n : String) (detail : Bool) :
    (decryptNoEcSteps P i d pass n detail).alone w = obj.decryptNoEc P d pass n detail := by
  unfold decryptNoEcSteps BIP38.decryptNoEc
  simp only [alone_bind, alone_coin' ho, alone_lift, alone_pure, alone_ite, bind_ok_py]

theorem alone_decryptEc (ho : w.object i = some obj) (d : Bytes) (pass : Str) (n : String) (detail : Bool) :
    (decryptEcSteps P i d pass n detail).alone w = obj.decryptEc P d pass n detail := by
  unfold decryptEcSteps BIP38.decryptEc
  simp only [alone_bind, alone_coin' ho, alone_lift, alone_pure, alone_ite, bind_ok_py]

theorem alone_decrypt (ho : w.object i = some obj) (e pass : Str) (n : Option String) (detail : Bool) :
    (decryptSteps P i e pass n detail).alone w = obj.decrypt P e pass n detail := by
  unfold decryptSteps BIP38.decrypt
  simp only [alone_bind, alone_network' ho, alone_lift, alone_ite, assoc_py, bind_ok_py, alone_decryptNoEc ho, alone_decryptEc ho]

/-- Without interruption, a call as a program gives the answer of `Model/Bip38.lean`. -/
theorem alone_steps (ho : w.object i = some obj) (call : Call) : (call.steps P i).alone w = call.run P obj := by
  have hm : ∀ {α : Type} (p : Prog α) (f : α → Out), (do pure (f (← p)) : Prog Out).alone w = f <$> p.alone w := by
    intro α p f
    rw [alone_bind]
    cases p.alone w <;> rfl
  cases call with
  | encrypt wif pass n => exact (hm _ _).trans (by rw [alone_encrypt ho]; rfl)
  | decrypt e pass n detail => exact (hm _ _).trans (by rw [alone_decrypt ho]; rfl)
  | confirm pass code n detail => exact (hm _ _).trans (by rw [alone_confirm ho]; rfl)
  | create it type seed n u => exact (hm _ _).trans (by rw [alone_create ho]; rfl)
  | intermediate pass lot sequence salt u => exact (hm _ _).trans rfl

/-! ## How often a call reads what may change -/

/-- Every run of the program reads, besides the stable locations `L` (with their values in `w`), at most `n` times, and then only locations in `S`. -/
def Prog.atMost {α : Type} (w : World) (L S : Read → Prop) : Prog α → Nat → Prop
  | .done _, _ => True
  | .read q next, n => (L q ∧ (next (w.value q)).atMost w L S n) ∨ (S q ∧ 0 < n ∧ ∀ v, (next v).atMost w L S (n - 1))

section
variable {L S : Read → Prop}

theorem atMost_mono {α : Type} (p : Prog α) (n m : Nat) (h : n ≤ m) (hp : p.atMost w L S n) : p.atMost w L S m := by
  induction p generalizing n m with
  | done r => trivial
  | read q next ih =>
    rcases hp with ⟨h1, h2⟩ | ⟨h1, h2, h3⟩
    · exact Or.inl ⟨h1, ih _ n m h h2⟩
    · exact Or.inr ⟨h1, by omega, fun v => ih v (n - 1) (m - 1) (by omega) (h3 v)⟩

theorem atMost_bind {α β : Type} (p : Prog α) (f : α → Prog β) (a b : Nat) (hp : p.atMost w L S a) (hf : ∀ x, (f x).atMost w L S b) :
    (p >>= f).atMost w L S (a + b) := by
  show (p.bind f).atMost w L S (a + b)
  induction p generalizing a with
  | done r =>
    cases r with
    | error e => trivial
    | ok x => exact atMost_mono _ b _ (by omega) (hf x)
  | read q next ih =>
    rcases hp with ⟨h1, h2⟩ | ⟨h1, h2, h3⟩
    · exact Or.inl ⟨h1, ih _ a h2⟩
    · refine Or.inr ⟨h1, by omega, fun v => ?_⟩
      have := ih v (a - 1) (h3 v)
      rwa [show a - 1 + b = a + b - 1 by omega] at this

theorem atMost_lift {α β : Type} (m : Py α) (f : α → Prog β) (n : Nat) (hf : ∀ x, (f x).atMost w L S n) :
    ((liftM m : Prog α) >>= f).atMost w L S n := by
  have := atMost_bind (w := w) (L := L) (S := S) (liftM m : Prog α) f 0 n trivial hf
  rwa [Nat.zero_add] at this

theorem atMost_pure {α β : Type} (a : α) (f : α → Prog β) (n : Nat) (hf : (f a).atMost w L S n) :
    ((pure a : Prog α) >>= f).atMost w L S n := hf

theorem atMost_ite {α : Type} (c : Prop) [Decidable c] (p q : Prog α) (n : Nat) (hp : p.atMost w L S n) (hq : q.atMost w L S n) :
    (if c then p else q).atMost w L S n := by split <;> assumption

theorem atMost_end {α : Type} (a : α) (n : Nat) : (pure a : Prog α).atMost w L S n := trivial

theorem atMost_end' {α : Type} (m : Py α) (n : Nat) : (liftM m : Prog α).atMost w L S n := trivial

/-- The locations of object `i`. -/
def Attr (i : Nat) (q : Read) : Prop := q = .network i ∨ q = .networks i ∨ q = .cls i

/-- A way to bound the reads of `networkSteps` by `a` and of `coinSteps` by `b`. -/
structure Bounds (w : World) (L S : Read → Prop) (i a b : Nat) : Prop where
  network : ∀ n, (networkSteps i n).atMost w L S a
  coin : (coinSteps i).atMost w L S b

variable {a b : Nat}

theorem atMost_network {β : Type} (hb : Bounds w L S i a b) (n : Option String) (f : String → Prog β) (k : Nat) (hf : ∀ x, (f x).atMost w L S k) :
    (networkSteps i n >>= f).atMost w L S (a + k) := atMost_bind _ _ _ _ (hb.network n) hf

theorem atMost_coin {β : Type} (hb : Bounds w L S i a b) (f : Coin → Prog β) (k : Nat) (hf : ∀ x, (f x).atMost w L S k) :
    (coinSteps i >>= f).atMost w L S (b + k) := atMost_bind _ _ _ _ hb.coin hf

local macro "count" : tactic => `(tactic| repeat (first
  | with_reducible exact atMost_end _ _
  | with_reducible exact atMost_end' _ _
  | (with_reducible refine atMost_lift _ _ _ ?_; intro _)
  | with_reducible refine atMost_pure _ _ _ ?_
  | with_reducible refine atMost_ite _ _ _ _ ?_ ?_
  | (with_reducible refine atMost_coin (by assumption) _ _ ?_; intro _)
  | (with_reducible refine atMost_network (by assumption) _ _ _ ?_; intro _)
  | dsimp only))

theorem count_encrypt (hb : Bounds w L S i a b) (wif pass : Str) (n : Option String) : (encryptSteps P i wif pass n).atMost w L S (a + 3 * b) := by
  rw [show a + 3 * b = a + (b + (b + (b + 0))) by omega]
  unfold encryptSteps
  count

theorem count_create (hb : Bounds w L S i a b) (it : Str) (type : String) (seed : Data) (n : Option String) (u : Bytes) :
    (createSteps P i it type seed n u).atMost w L S (a + b) := by
  rw [show a + b = a + (b + 0) by omega]
  unfold createSteps
  count

theorem count_confirm (hb : Bounds w L S i a b) (pass code : Str) (n : Option String) (detail : Bool) :
    (confirmSteps P i pass code n detail).atMost w L S (a + b) := by
  rw [show a + b = a + (b + 0) by omega]
  unfold confirmSteps
  count

theorem count_decryptNoEc (hb : Bounds w L S i a b) (d : Bytes) (pass : Str) (n : String) (detail : Bool) :
    (decryptNoEcSteps P i d pass n detail).atMost w L S (b + (b + 0)) := by
  unfold decryptNoEcSteps
  count

theorem count_decryptEc (hb : Bounds w L S i a b) (d : Bytes) (pass : Str) (n : String) (detail : Bool) :
    (decryptEcSteps P i d pass n detail).atMost w L S (b + (b + 0)) := by
  unfold decryptEcSteps
  count

theorem count_decrypt (hb : Bounds w L S i a b) (e pass : Str) (n : Option String) (detail : Bool) :
    (decryptSteps P i e pass n detail).atMost w L S (a + 2 * b) := by
  rw [show a + 2 * b = a + (b + (b + 0)) by omega]
  unfold decryptSteps
  count
  · exact count_decryptNoEc hb _ _ _ _
  · refine atMost_ite _ _ _ _ (count_decryptEc hb _ _ _ _) (atMost_end' _ _)

/-- The number of times a call determines its class. -/
def coinReads : Call → Nat
  | .encrypt .. => 3
  | .decrypt .. => 2
  | .confirm .. | .create .. => 1
  | .intermediate .. => 0

theorem count_steps (hb : Bounds w L S i a b) (call : Call) : (call.steps P i).atMost w L S (a + coinReads call * b) := by
  have hm : ∀ {α : Type} (p : Prog α) (f : α → Out) (k : Nat), p.atMost w L S k → (do pure (f (← p)) : Prog Out).atMost w L S k := by
    intro α p f k hp
    exact atMost_bind p _ k 0 hp fun _ => trivial
  cases call with
  | encrypt wif pass n => exact hm _ _ _ (count_encrypt hb wif pass n)
  | decrypt e pass n detail => exact hm _ _ _ (count_decrypt hb e pass n detail)
  | confirm pass code n detail => simp only [coinReads, Nat.one_mul]; exact hm _ _ _ (count_confirm hb pass code n detail)
  | create it type seed n u => simp only [coinReads, Nat.one_mul]; exact hm _ _ _ (count_create hb it type seed n u)
  | intermediate pass lot sequence salt u => exact hm _ _ _ trivial

end

/-! ## Schedules -/

theorem thread_lt {m : Machine} {t : Nat} {p : Prog Out} (hp : m.threads[t]? = some p) : t < m.threads.length :=
  (List.getElem?_eq_some_iff.mp hp).1

/-- Object `i` exists, and the stable locations have the values they have in `w`. -/
def Stable (w : World) (i : Nat) (L : Read → Prop) (w' : World) : Prop := i < w'.objects.length ∧ ∀ q, L q → w'.value q = w.value q

/-- An event keeps object `i` and the stable locations. -/
def Keeps (P : Prims) (i : Nat) (L : Read → Prop) (e : Event) : Prop := ∀ m : Machine, i < m.world.objects.length →
  i < (m.step P e).world.objects.length ∧ ∀ q, L q → (m.step P e).world.value q = m.world.value q

variable {L S : Read → Prop} {w0 : World}

theorem stable_run (es : List Event) (m : Machine) (hs : Stable w0 i L m.world) (hk : ∀ e ∈ es, Keeps P i L e) :
    Stable w0 i L (m.run P es).world := by
  induction es generalizing m with
  | nil => exact hs
  | cons e es ih =>
    obtain ⟨h1, h2⟩ := hk e (by simp) m hs.1
    refine ih (m.step P e) ⟨h1, fun q hq => ?_⟩ (fun x hx => hk x (by simp [hx]))
    rw [h2 q hq, hs.2 q hq]

theorem alone_stable {α : Type} (p : Prog α) (hp : p.atMost w0 L S 0) (w : World) (hs : Stable w0 i L w) : p.alone w = p.alone w0 := by
  induction p with
  | done r => rfl
  | read q next ih =>
    rcases hp with ⟨h1, h2⟩ | ⟨_, h, _⟩
    · show (next (w.value q)).alone w = (next (w0.value q)).alone w0
      rw [hs.2 q h1]
      exact ih _ h2
    · omega

theorem step_other {m : Machine} {t : Nat} {p : Prog Out} (hp : m.threads[t]? = some p) (e : Event) (he : e ≠ .run t) :
    (m.step P e).threads[t]? = some p := by
  cases e with
  | start i c => simp only [Machine.step]; rw [List.getElem?_append_left (thread_lt hp), hp]
  | run s =>
    have : s ≠ t := fun h => he (by rw [h])
    simp [Machine.step, this, hp]
  | act a => exact hp

theorem step_run {m : Machine} {t : Nat} {p : Prog Out} (hp : m.threads[t]? = some p) :
    (m.step P (.run t)).threads[t]? = some (p.advance m.world) := by
  simp [Machine.step, hp]

/-- A call that reads at most once something that may change answers as it would at one moment of its run. -/
theorem one_moment (es : List Event) (m : Machine) (t : Nat) (p : Prog Out) (hp : m.threads[t]? = some p) (hc : p.atMost w0 L S 1)
    (hs : Stable w0 i L m.world) (hk : ∀ e ∈ es, Keeps P i L e) (r : Py Out) (hr : (m.run P es).answer t = some r) :
    ∃ es1 es2, es = es1 ++ es2 ∧ p.alone (m.run P es1).world = r := by
  induction es generalizing m p with
  | nil =>
    refine ⟨[], [], rfl, ?_⟩
    simp only [Machine.run, List.foldl, Machine.answer, hp] at hr
    split at hr
    · rename_i r' h
      simp only [Option.some.injEq] at h hr
      subst h hr
      rfl
    · simp at hr
  | cons e es ih =>
    have hs' : Stable w0 i L (m.step P e).world := stable_run [e] m hs (fun x hx => hk x (by simp_all))
    have hk' : ∀ x ∈ es, Keeps P i L x := fun x hx => hk x (by simp [hx])
    by_cases he : e = .run t
    · subst he
      have hstep := step_run (P := P) hp
      cases p with
      | done r' =>
        obtain ⟨es1, es2, h1, h2⟩ := ih (m.step P (.run t)) _ hstep hc hs' hk' hr
        exact ⟨.run t :: es1, es2, by rw [h1]; rfl, h2⟩
      | read q next =>
        rcases hc with ⟨h1, h2⟩ | ⟨h1, _, h3⟩
        · have hq : m.world.value q = w0.value q := hs.2 q h1
          simp only [Prog.advance, hq] at hstep
          obtain ⟨es1, es2, g1, g2⟩ := ih (m.step P (.run t)) _ hstep h2 hs' hk' hr
          refine ⟨.run t :: es1, es2, by rw [g1]; rfl, ?_⟩
          show (next ((Machine.run P (m.step P (.run t)) es1).world.value q)).alone _ = r
          rw [(stable_run es1 _ hs' (fun x hx => hk' x (by rw [g1]; simp [hx]))).2 q h1]
          exact g2
        · simp only [Prog.advance] at hstep
          have h0 := h3 (m.world.value q)
          obtain ⟨es1, es2, g1, g2⟩ := ih (m.step P (.run t)) _ hstep (atMost_mono _ 0 1 (by omega) h0) hs' hk' hr
          refine ⟨[], .run t :: es, rfl, ?_⟩
          have e1 := alone_stable _ h0 _ (stable_run es1 _ hs' (fun x hx => hk' x (by rw [g1]; simp [hx])))
          have e2 := alone_stable _ h0 m.world hs
          rw [g2] at e1
          exact e2.trans e1.symm
    · obtain ⟨es1, es2, g1, g2⟩ := ih (m.step P e) p (step_other hp e he) hc hs' hk' hr
      exact ⟨e :: es1, es2, by rw [g1]; rfl, g2⟩

/-- A call that reads nothing that may change answers as at its start. -/
theorem same_answer (es : List Event) (m : Machine) (t : Nat) (p : Prog Out) (hp : m.threads[t]? = some p) (hc : p.atMost m.world L S 0)
    (hi : i < m.world.objects.length)
       (hk : ∀ e ∈ es, Keeps P i L e) (r : Py Out) (hr : (m.run P es).answer t = some r) : p.alone m.world = r := by
  obtain ⟨es1, es2, h1, h2⟩ := one_moment (w0 := m.world) es m t p hp (atMost_mono _ 0 1 (by omega) hc) ⟨hi, fun _ _ => rfl⟩ hk r hr
  rw [← h2]
  exact (alone_stable p hc _ (stable_run es1 m ⟨hi, fun _ _ => rfl⟩ (fun x hx => hk x (by rw [h1]; simp [hx])))).symm

/-- A call with at most `n` reads has finished when its thread ran `n` times, whatever the other threads did. -/
theorem finishes (es : List Event) (m : Machine) (t : Nat) (p : Prog Out) (hp : m.threads[t]? = some p) (n : Nat)
    (hc : p.atMost w0 (fun _ => False) (fun _ => True) n) (hn : n ≤ turns t es) : ∃ r, (m.run P es).answer t = some r := by
  induction es generalizing m p n with
  | nil =>
    simp only [turns, List.countP_nil] at hn
    cases p with
    | done r => exact ⟨r, by simp [Machine.run, Machine.answer, hp]⟩
    | read q next =>
      rcases hc with ⟨h, _⟩ | ⟨_, h, _⟩
      · exact h.elim
      · omega
  | cons e es ih =>
    by_cases he : e = .run t
    · subst he
      have hstep := step_run (P := P) hp
      have hn' : n ≤ turns t es + 1 := by simpa [turns, List.countP_cons] using hn
      cases p with
      | done r => exact ih (m.step P (.run t)) _ hstep 0 trivial (by omega)
      | read q next =>
        rcases hc with ⟨h, _⟩ | ⟨_, h, h3⟩
        · exact h.elim
        · exact ih (m.step P (.run t)) _ hstep (n - 1) (h3 _) (by omega)
    · have hn' : n ≤ turns t es := by
        have : turns t (e :: es) = turns t es := by
          cases e with
          | run s => have : s ≠ t := fun h => he (by rw [h])
                     simp [turns, this]
          | start i c => simp [turns]
          | act a => simp [turns]
        omega
      exact ih (m.step P e) p (step_other hp e he) n hc hn'

end Bip38
