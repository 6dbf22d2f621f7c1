import Verif.Lemmas.Threads
import Verif.Props.World
/-!
# Property C78: objects shared by threads
-/
namespace Bip38.Props
open Bip38 Spec

variable {P : Prims}

section
variable {w : World} {i : Nat} {o : ObjectRec} {L S : Read → Prop}

theorem value_network (ho : w.objects[i]? = some o) : w.value (.network i) = o.network := by
  show (w.objects.getD i .absent).network = _
  rw [List.getD, ho]
  rfl

theorem value_cls (ho : w.objects[i]? = some o) : w.value (.cls i) = o.cls := by
  show (w.objects.getD i .absent).cls = _
  rw [List.getD, ho]
  rfl

theorem coin_bound (ho : w.objects[i]? = some o) (b : Nat) (h1 : L (.cls i)) (h2 : L (.table o.cls) ∨ (S (.table o.cls) ∧ 0 < b)) :
    (coinSteps i).atMost w L S b := by
  refine Or.inl ⟨h1, ?_⟩
  rw [value_cls ho]
  rcases h2 with h | ⟨h, h'⟩
  · exact Or.inl ⟨h, trivial⟩
  · exact Or.inr ⟨h, h', fun _ => trivial⟩

theorem networks_bound (a : Nat) (x : String) (h : L (.networks i)) : (do
    let networks ← readNetworks i
    if x ∈ networks then pure x
    else do
      let networks ← readNetworks i
      (raise .networkError (wrongNetwork networks) : Py String) : Prog String).atMost w L S a := by
  have hr : ∀ k, (readNetworks i).atMost w L S k := fun k => Or.inl ⟨h, trivial⟩
  have h2 := fun v : List String => atMost_ite (w := w) (L := L) (S := S) (x ∈ v) (pure x) _ a trivial
    (atMost_bind (readNetworks i) (fun networks => liftM (raise .networkError (wrongNetwork networks) : Py String)) a 0 (hr a) fun _ => trivial)
  have := atMost_bind (w := w) (L := L) (S := S) (readNetworks i) _ 0 a (hr 0) h2
  rwa [Nat.zero_add] at this

theorem network_bound (a : Nat) (h : L (.networks i)) (h2 : L (.network i) ∨ (S (.network i) ∧ 0 < a)) (n : Option String) :
    (networkSteps i n).atMost w L S a := by
  have hch : (chosenSteps i n).atMost w L S a := by
    have hr : (readNetwork i).atMost w L S a := by
      rcases h2 with h | ⟨h, h'⟩
      · exact Or.inl ⟨h, trivial⟩
      · exact Or.inr ⟨h, h', fun _ => trivial⟩
    unfold chosenSteps
    cases n with
    | none => exact hr
    | some s => exact atMost_ite _ _ _ _ hr trivial
  have := atMost_bind (w := w) (L := L) (S := S) (chosenSteps i n) _ a 0 hch fun x => networks_bound 0 x h
  exact this

end

/-- The event is an action that assigns to object `i` or changes class `k`. -/
def Disturbs (i k : Nat) (e : Event) : Prop := ∃ a, e = .act a ∧ (Assigns i a ∨ Changes k a)

theorem keeps_of {L : Read → Prop} {i : Nat} (e : Event)
    (h : ∀ a, e = .act a → ∀ w : World, i < w.objects.length → i < (w.step a).objects.length ∧ ∀ q, L q → (w.step a).value q = w.value q) :
    Keeps P i L e := by
  intro m hm
  cases e with
  | start j c => exact ⟨hm, fun _ _ => rfl⟩
  | run t => exact ⟨hm, fun _ _ => rfl⟩
  | act a => exact h a rfl m.world hm

theorem step_length (w : World) (a : Action) : w.objects.length ≤ (w.step a).objects.length := by
  cases a with
  | construct cls network =>
    simp only [World.step]
    split
    · exact le_rfl
    · split
      · exact le_rfl
      · simp
  | setClass => exact le_rfl
  | assignNetwork => simp [World.step, World.modify]
  | assignNetworks => simp [World.step, World.modify]
  | assignAlphabet => simp [World.step, World.modify]
  | assignClass => simp [World.step, World.modify]
  | call => exact le_rfl

/-- What an action leaves alone. -/
theorem step_object (w : World) (i : Nat) (hi : i < w.objects.length) (a : Action) (ha : ¬ Assigns i a) :
    (w.step a).objects.getD i .absent = w.objects.getD i .absent := by
  have ho : w.objects[i]? = some w.objects[i] := List.getElem?_eq_getElem hi
  have : (w.step a).objects[i]? = some w.objects[i] := by
    have hmod : ∀ j f, j ≠ i → (w.modify j f).objects[i]? = some w.objects[i] := by
      intro j f hj
      simp [World.modify, hj, ho]
    cases a with
    | construct cls network =>
      simp only [World.step]
      split
      · exact ho
      · split
        · exact ho
        · simp only [List.getElem?_append_left hi, ho]
    | setClass cls coin => exact ho
    | assignNetwork j n => exact hmod j _ ha
    | assignNetworks j n => exact hmod j _ ha
    | assignAlphabet j n => exact hmod j _ ha
    | assignClass j n => exact hmod j _ ha
    | call j c => exact ho
  rw [List.getD, List.getD, this, ho]

theorem step_table (w : World) (k : Nat) (a : Action) (ha : ¬ Changes k a) : (w.step a).classes.getD k .absent = w.classes.getD k .absent := by
  cases a with
  | construct cls network =>
    simp only [World.step]
    split
    · rfl
    · split <;> rfl
  | setClass cls coin =>
    have : cls ≠ k := fun h => ha h
    simp [World.step, List.getD, this]
  | assignNetwork => rfl
  | assignNetworks => rfl
  | assignAlphabet => rfl
  | assignClass => rfl
  | call => rfl

theorem start_thread (m : Machine) (i : Nat) (call : Call) :
    (m.step P (.start i call)).threads[m.threads.length]? = some (call.steps P i) := by
  simp [Machine.step]

theorem ask_of (w : World) (i : Nat) (o : ObjectRec) (ho : w.objects[i]? = some o) (c : Coin) (hc : w.classes[o.cls]? = some c) (call : Call) :
    w.ask P i call = some ((call.steps P i).alone w) := by
  have : w.object i = some { cryptocurrency := c, networks := o.networks, network := o.network, alphabet := o.alphabet } := by
    simp [World.object, ho, hc]
  rw [alone_steps this]
  simp [World.ask, this]

theorem classes_length (es : List Event) (m : Machine) : (m.run P es).world.classes.length = m.world.classes.length := by
  induction es generalizing m with
  | nil => rfl
  | cons e es ih =>
    refine (ih (m.step P e)).trans ?_
    cases e with
    | start => rfl
    | run => rfl
    | act a =>
      show (m.world.step a).classes.length = _
      cases a with
      | construct cls network =>
        simp only [World.step]
        split
        · rfl
        · split <;> rfl
      | setClass cls coin => simp [World.step]
      | assignNetwork => rfl
      | assignNetworks => rfl
      | assignAlphabet => rfl
      | assignClass => rfl
      | call => rfl

theorem ask_stable {w w' : World} {i : Nat} {L : Read → Prop} (hs : Stable w i L w') (hl : w'.classes.length = w.classes.length) (o : ObjectRec)
    (ho : w.objects[i]? = some o) (hL : L (.cls i)) (c : Coin) (hc : w.classes[o.cls]? = some c) (call : Call) :
    w'.ask P i call = some ((call.steps P i).alone w') := by
  have hlen := hs.1
  have hx : w'.objects[i]? = some w'.objects[i] := List.getElem?_eq_getElem hs.1
  have hcls : w'.objects[i].cls = o.cls := by rw [← value_cls hx, hs.2 _ hL, value_cls ho]
  have hlt : w'.objects[i].cls < w'.classes.length := by rw [hcls, hl]; exact (List.getElem?_eq_some_iff.mp hc).1
  exact ask_of w' i _ hx _ (List.getElem?_eq_getElem hlt) call

/-- C78: a call that runs while other threads start, run and finish calls on any objects, construct objects, and change other objects and classes in
any order, returns or raises what it would alone. -/
theorem C78_undisturbed (m : Machine) (i : Nat) (o : ObjectRec) (ho : m.world.objects[i]? = some o) (c : Coin)
    (hc : m.world.classes[o.cls]? = some c) (call : Call) (es : List Event) (he : ∀ e ∈ es, ¬ Disturbs i o.cls e) (r : Py Out)
    (hr : (m.run P (.start i call :: es)).answer m.threads.length = some r) : m.world.ask P i call = some r := by
  have hi : i < m.world.objects.length := (List.getElem?_eq_some_iff.mp ho).1
  let L : Read → Prop := fun q => q = .network i ∨ q = .networks i ∨ q = .cls i ∨ q = .table o.cls
  have hb : Bounds m.world L (fun _ => False) i 0 0 :=
    ⟨network_bound 0 (by simp [L]) (Or.inl (by simp [L])), coin_bound ho 0 (by simp [L]) (Or.inl (by simp [L]))⟩
  have hk : ∀ e ∈ es, Keeps P i L e := by
    intro e hee
    refine keeps_of e fun a ha w hw => ⟨lt_of_lt_of_le hw (step_length w a), ?_⟩
    have hna : ¬ Assigns i a := fun h => he e hee ⟨a, ha, Or.inl h⟩
    have hnc : ¬ Changes o.cls a := fun h => he e hee ⟨a, ha, Or.inr h⟩
    have e1 := step_object w i hw a hna
    have e2 := step_table w o.cls a hnc
    rintro q (rfl | rfl | rfl | rfl)
    · exact congrArg ObjectRec.network e1
    · exact congrArg ObjectRec.networks e1
    · exact congrArg ObjectRec.cls e1
    · exact e2
  have := same_answer es (m.step P (.start i call)) m.threads.length _ (start_thread m i call) (count_steps hb call) hi hk r hr
  rw [ask_of m.world i o ho c hc call, ← this]
  rfl

/-- C78: no call waits for another one: it has finished when its thread had nine turns, whatever happened in between. -/
theorem C78_finishes (m : Machine) (i : Nat) (call : Call) (es : List Event) (h : 9 ≤ turns m.threads.length es) :
    ∃ r, (m.run P (.start i call :: es)).answer m.threads.length = some r := by
  have hb : Bounds m.world (fun _ => False) (fun _ => True) i 3 2 := by
    refine ⟨fun n => ?_, ?_⟩
    · have h1 : ∀ k, 0 < k → (readNetworks i).atMost m.world (fun _ => False) (fun _ => True) k := fun k hk => Or.inr ⟨trivial, hk, fun _ => trivial⟩
      have h0 : (chosenSteps i n).atMost m.world (fun _ => False) (fun _ => True) 1 := by
        unfold chosenSteps
        have hr : (readNetwork i).atMost m.world (fun _ => False) (fun _ => True) 1 := Or.inr ⟨trivial, by omega, fun _ => trivial⟩
        cases n with
        | none => exact hr
        | some s => exact atMost_ite _ _ _ _ hr trivial
      refine atMost_bind _ _ 1 2 h0 fun x => atMost_bind _ _ 1 1 (h1 1 (by omega)) fun v => atMost_ite _ _ _ _ trivial ?_
      exact atMost_bind _ _ 1 0 (h1 1 (by omega)) fun _ => trivial
    · exact Or.inr ⟨trivial, by omega, fun _ => Or.inr ⟨trivial, by omega, fun _ => trivial⟩⟩
  refine finishes (w0 := m.world) es (m.step P (.start i call)) m.threads.length _ (start_thread m i call) _ (count_steps hb call) (le_trans ?_ h)
  cases call <;> simp [coinReads]

/-- C78: the attribute `network` of the object is set while a call runs (and other threads do what they want with other objects and classes): the
call answers as at one moment of its run. -/
theorem C78_network_assigned (m : Machine) (i : Nat) (o : ObjectRec) (ho : m.world.objects[i]? = some o) (c : Coin)
    (hc : m.world.classes[o.cls]? = some c) (call : Call) (es : List Event)
    (he : ∀ e ∈ es, Disturbs i o.cls e → ∃ n, e = .act (.assignNetwork i n)) (r : Py Out)
    (hr : (m.run P (.start i call :: es)).answer m.threads.length = some r) :
    ∃ before after, es = before ++ after ∧ (m.run P (.start i call :: before)).world.ask P i call = some r := by
  have hi : i < m.world.objects.length := (List.getElem?_eq_some_iff.mp ho).1
  let L : Read → Prop := fun q => q = .networks i ∨ q = .cls i ∨ q = .table o.cls
  have hb : Bounds m.world L (fun q => q = .network i) i 1 0 :=
    ⟨network_bound 1 (by simp [L]) (Or.inr (by simp)), coin_bound ho 0 (by simp [L]) (Or.inl (by simp [L]))⟩
  have hk : ∀ e ∈ es, Keeps P i L e := by
    intro e hee
    refine keeps_of e fun a ha w hw => ⟨lt_of_lt_of_le hw (step_length w a), ?_⟩
    by_cases hd : Disturbs i o.cls e
    · obtain ⟨n, hn⟩ := he e hee hd
      rw [hn] at ha
      cases ha
      have hx : w.objects[i]? = some w.objects[i] := List.getElem?_eq_getElem hw
      rintro q (rfl | rfl | rfl)
      · simp [World.value, World.step, World.modify, List.getD, hx]
        rfl
      · simp [World.value, World.step, World.modify, List.getD, hx]
        rfl
      · rfl
    · have hna : ¬ Assigns i a := fun h => hd ⟨a, ha, Or.inl h⟩
      have hnc : ¬ Changes o.cls a := fun h => hd ⟨a, ha, Or.inr h⟩
      have e1 := step_object w i hw a hna
      have e2 := step_table w o.cls a hnc
      rintro q (rfl | rfl | rfl)
      · exact congrArg ObjectRec.networks e1
      · exact congrArg ObjectRec.cls e1
      · exact e2
  obtain ⟨es1, es2, h1, h2⟩ := one_moment (w0 := m.world) es (m.step P (.start i call)) m.threads.length _ (start_thread m i call)
    (atMost_mono _ _ 1 (by omega) (count_steps hb call)) ⟨hi, fun _ _ => rfl⟩ hk r hr
  refine ⟨es1, es2, h1, ?_⟩
  have hst := stable_run (P := P) (w0 := m.world) es1 (m.step P (.start i call)) ⟨hi, fun _ _ => rfl⟩ (fun e h => hk e (by rw [h1]; simp [h]))
  rw [show m.run P (.start i call :: es1) = (m.step P (.start i call)).run P es1 from rfl,
    ask_stable hst (classes_length es1 _) o ho (by simp [L]) c hc call, h2]

/-- C78: the class of the object is changed, any number of times, while a call of `confirm_code`, `create_new_encrypted_wif` or `intermediate_code`
runs: the call answers as at one moment of its run. -/
theorem C78_class_changed (m : Machine) (i : Nat) (o : ObjectRec) (ho : m.world.objects[i]? = some o) (c : Coin)
    (hc : m.world.classes[o.cls]? = some c) (call : Call) (hcall : (∀ w p n, call ≠ .encrypt w p n) ∧ ∀ e p n d, call ≠ .decrypt e p n d)
    (es : List Event) (he : ∀ e ∈ es, Disturbs i o.cls e → ∃ k c', e = .act (.setClass k c')) (r : Py Out)
    (hr : (m.run P (.start i call :: es)).answer m.threads.length = some r) :
    ∃ before after, es = before ++ after ∧ (m.run P (.start i call :: before)).world.ask P i call = some r := by
  have hi : i < m.world.objects.length := (List.getElem?_eq_some_iff.mp ho).1
  let L : Read → Prop := fun q => q = .network i ∨ q = .networks i ∨ q = .cls i
  have hb : Bounds m.world L (fun q => q = .table o.cls) i 0 1 :=
    ⟨network_bound 0 (by simp [L]) (Or.inl (by simp [L])), coin_bound ho 1 (by simp [L]) (Or.inr (by simp))⟩
  have hk : ∀ e ∈ es, Keeps P i L e := by
    intro e hee
    refine keeps_of e fun a ha w hw => ⟨lt_of_lt_of_le hw (step_length w a), ?_⟩
    have hna : ¬ Assigns i a := by
      intro h
      obtain ⟨k, c', hkc⟩ := he e hee ⟨a, ha, Or.inl h⟩
      rw [hkc] at ha
      cases ha
      exact h
    have e1 := step_object w i hw a hna
    rintro q (rfl | rfl | rfl)
    · exact congrArg ObjectRec.network e1
    · exact congrArg ObjectRec.networks e1
    · exact congrArg ObjectRec.cls e1
  have hreads : 0 + coinReads call * 1 ≤ 1 := by
    cases call with
    | encrypt w p n => exact absurd rfl (hcall.1 w p n)
    | decrypt e p n d => exact absurd rfl (hcall.2 e p n d)
    | confirm => simp [coinReads]
    | create => simp [coinReads]
    | intermediate => simp [coinReads]
  obtain ⟨es1, es2, h1, h2⟩ := one_moment (w0 := m.world) es (m.step P (.start i call)) m.threads.length _ (start_thread m i call)
    (atMost_mono _ _ 1 hreads (count_steps hb call)) ⟨hi, fun _ _ => rfl⟩ hk r hr
  refine ⟨es1, es2, h1, ?_⟩
  have hst := stable_run (P := P) (w0 := m.world) es1 (m.step P (.start i call)) ⟨hi, fun _ _ => rfl⟩ (fun e h => hk e (by rw [h1]; simp [h]))
  rw [show m.run P (.start i call :: es1) = (m.step P (.start i call)).run P es1 from rfl,
    ask_stable hst (classes_length es1 _) o ho (by simp [L]) c hc call, h2]

/-! ## `encrypt` and `decrypt` while the class is changed -/

/-- Bitcoin with the prefixes of testnet under the name mainnet. -/
def movedBitcoin : Coin := ⟨"Bitcoin", [("mainnet", ⟨0xef, 0x6f⟩)], none⟩

/-- One object `BIP38(Bitcoin)`, no threads. -/
def startMachine : Machine := ⟨⟨[Coins.Bitcoin], [⟨0, Coins.Bitcoin.networkNames, "mainnet", bitcoinAlphabet⟩]⟩, []⟩

/-- The text a call returned. -/
def textOf : Option (Py Out) → Option Str
  | some (.ok (.text s)) => some s
  | some (.ok (.decrypted (.wif s))) => some s
  | _ => none

/-- The WIF of 32 bytes 1 with the hash functions of `echo`. -/
def echoWif : Str := b58encode (0x80 :: List.replicate 32 1 ++ (0x80 :: List.replicate 3 1))

/-- Its encryption under the empty passphrase with the primitives `echo 0xff`. -/
def echoRecord : Str := "6PRLMn99LkXTmwhkMEAC3Byn45yrsdqSgxR1tJ7VQ9NTr6fbz4in6uhad6".toList

/-- Thread 0 has `n` turns, the class is changed, thread 0 has `k` turns. -/
def oneChange (n k : Nat) : List Event :=
  List.replicate n (.run 0) ++ [.act (.setClass 0 movedBitcoin)] ++ List.replicate k (.run 0)

theorem worlds_of (P : Prims) (es : List Event) (he : ∀ e ∈ es, e = .run 0 ∨ e = .act (.setClass 0 movedBitcoin)) (m : Machine)
    (hm : m.world = startMachine.world ∨ m.world = startMachine.world.step (.setClass 0 movedBitcoin)) :
    (m.run P es).world = startMachine.world ∨ (m.run P es).world = startMachine.world.step (.setClass 0 movedBitcoin) := by
  induction es generalizing m with
  | nil => exact hm
  | cons e es ih =>
    refine ih (fun x hx => he x (by simp [hx])) (m.step P e) ?_
    rcases he e (by simp) with rfl | rfl
    · exact hm
    · right
      rcases hm with h | h
      · simp [Machine.step, h]
      · simp [Machine.step, h, World.step]

theorem torn (call : Call) (n k : Nat) (P : Prims) (t : Str)
    (h1 : textOf ((startMachine.run P (.start 0 call :: oneChange n k)).answer 0) = some t)
    (h2 : textOf (startMachine.world.ask P 0 call) ≠ some t)
    (h3 : textOf ((startMachine.world.step (.setClass 0 movedBitcoin)).ask P 0 call) ≠ some t) :
    ∃ r, (startMachine.run P (.start 0 call :: oneChange n k)).answer 0 = some r ∧
      ∀ before after, oneChange n k = before ++ after → (startMachine.run P (.start 0 call :: before)).world.ask P 0 call ≠ some r := by
  cases hr : (startMachine.run P (.start 0 call :: oneChange n k)).answer 0 with
  | none => rw [hr] at h1; simp [textOf] at h1
  | some r =>
    refine ⟨r, rfl, fun before after hb hx => ?_⟩
    have hw := worlds_of P before (fun e h => by
      have hin : e ∈ oneChange n k := by rw [hb]; simp [h]
      simp only [oneChange, List.mem_append, List.mem_replicate, List.mem_singleton] at hin
      rcases hin with (⟨_, h⟩ | h) | ⟨_, h⟩
      · exact Or.inl h
      · exact Or.inr h
      · exact Or.inl h) (startMachine.step P (.start 0 call)) (Or.inl rfl)
    rw [show startMachine.run P (.start 0 call :: before) = (startMachine.step P (.start 0 call)).run P before from rfl] at hx
    rw [hr] at h1
    rcases hw with h | h
    · rw [h] at hx; rw [hx] at h2; exact h2 h1
    · rw [h] at hx; rw [hx] at h3; exact h3 h1

/-- C78 (finding): `C78_class_changed` is false of `encrypt`, which reads the prefixes of its class three times: it can return a record that
it returns at no moment of its run (here: the WIF is read with the old prefix, the address written with the new one). -/
theorem C78_encrypt_refuted : ¬ ∀ (P : Prims), P.Lawful → ∀ (m : Machine) (i : Nat) (o : ObjectRec), m.world.objects[i]? = some o →
    ∀ c : Coin, m.world.classes[o.cls]? = some c → ∀ (w p : Str) (n : Option String) (es : List Event),
    (∀ e ∈ es, Disturbs i o.cls e → ∃ k c', e = .act (.setClass k c')) → ∀ r : Py Out,
    (m.run P (.start i (.encrypt w p n) :: es)).answer m.threads.length = some r →
    ∃ before after, es = before ++ after ∧ (m.run P (.start i (.encrypt w p n) :: before)).world.ask P i (.encrypt w p n) = some r := by
  intro hall
  obtain ⟨r, h1, h2⟩ := torn (.encrypt echoWif [] none) 6 2 (echo 0xff) "6PRPMHmLwBGwMpZrqv3DG684jLu35YD8dAVfyaTEpA9G4jCVYCarN1pWmi".toList
    (by decide +kernel) (by decide +kernel) (by decide +kernel)
  obtain ⟨b, a, hb, ha⟩ := hall (echo 0xff) (echo_lawful _) startMachine 0 _ rfl _ rfl echoWif [] none (oneChange 6 2)
    (by
      rintro e he ⟨x, rfl, -⟩
      simp [oneChange] at he
      exact ⟨_, _, by rw [he]⟩) r h1
  exact h2 b a hb ha

/-- C78 (finding): the same for `decrypt`, which reads the prefixes twice: the address is verified with the old prefix, the WIF written with the
new one. -/
theorem C78_decrypt_refuted : ¬ ∀ (P : Prims), P.Lawful → ∀ (m : Machine) (i : Nat) (o : ObjectRec), m.world.objects[i]? = some o →
    ∀ c : Coin, m.world.classes[o.cls]? = some c → ∀ (e p : Str) (n : Option String) (d : Bool) (es : List Event),
    (∀ e ∈ es, Disturbs i o.cls e → ∃ k c', e = .act (.setClass k c')) → ∀ r : Py Out,
    (m.run P (.start i (.decrypt e p n d) :: es)).answer m.threads.length = some r →
    ∃ before after, es = before ++ after ∧ (m.run P (.start i (.decrypt e p n d) :: before)).world.ask P i (.decrypt e p n d) = some r := by
  intro hall
  obtain ⟨r, h1, h2⟩ := torn (.decrypt echoRecord [] none false) 4 2 (echo 0xff)
    (b58encode (0xef :: List.replicate 32 1 ++ (0xef :: List.replicate 3 1)))
    (by decide +kernel) (by decide +kernel) (by decide +kernel)
  obtain ⟨b, a, hb, ha⟩ := hall (echo 0xff) (echo_lawful _) startMachine 0 _ rfl _ rfl echoRecord [] none false (oneChange 4 2)
    (by
      rintro e he ⟨x, rfl, -⟩
      simp [oneChange] at he
      exact ⟨_, _, by rw [he]⟩) r h1
  exact h2 b a hb ha

/-- The hypotheses of the other theorems can be met, and the calls return: two threads use one object, a third one constructs an object and changes it. -/
example : ∃ es : List Event, (∀ e ∈ es, ¬ Disturbs 0 0 e) ∧ 9 ≤ turns 0 es ∧
    textOf ((startMachine.run (echo 0xff) (.start 0 (.encrypt echoWif [] none) :: es)).answer 0) = some echoRecord ∧
    textOf ((startMachine.run (echo 0xff) (.start 0 (.encrypt echoWif [] none) :: es)).answer 1) = some echoWif := by
  refine ⟨[.run 0, .run 0, .start 0 (.decrypt echoRecord [] none false), .run 1, .run 0, .run 1, .run 0, .act (.construct 0 "testnet"), .run 1, .run 0,
    .act (.assignNetwork 1 "regtest"), .run 0, .run 1, .run 1, .run 0, .run 1, .run 0, .run 1, .run 0], ?_, by decide, by decide +kernel, by decide +kernel⟩
  intro e he ⟨a, ha, hx⟩
  subst ha
  simp at he
  rcases he with rfl | rfl
  · simp [Assigns, Changes] at hx
  · simp [Assigns, Changes] at hx

end Bip38.Props
