import Verif.Model.World
import Verif.Props.Network
/-!
# Property C75: objects in a program that changes classes and objects
-/
namespace Bip38.Props
open Bip38 Spec

variable {P : Prims}

/-! ## Isolation -/

/-- The action sets an attribute of object `i`. -/
def Assigns (i : Nat) : Action → Prop
  | .assignNetwork j _ | .assignNetworks j _ | .assignAlphabet j _ | .assignClass j _ => j = i
  | _ => False

/-- The action sets an attribute of class `k`. -/
def Changes (k : Nat) : Action → Prop
  | .setClass j _ => j = k
  | _ => False

theorem step_isolated (w : World) (i : Nat) (o : ObjectRec) (ho : w.objects[i]? = some o) (a : Action) (ha : ¬ Assigns i a)
    (hc : ¬ Changes o.cls a) :
    (w.step a).objects[i]? = some o ∧ (w.step a).classes[o.cls]? = w.classes[o.cls]? := by
  have hmod : ∀ j f, j ≠ i → (w.modify j f).objects[i]? = some o := by
    intro j f hj
    simp [World.modify, hj, ho]
  cases a with
  | construct cls network =>
    refine ⟨?_, ?_⟩
    · simp only [World.step]
      split
      · exact ho
      · split
        · exact ho
        · obtain ⟨hlt, _⟩ := List.getElem?_eq_some_iff.mp ho
          simp only [List.getElem?_append_left hlt, ho]
    · simp only [World.step]
      split
      · rfl
      · split <;> rfl
  | setClass cls coin =>
    refine ⟨ho, ?_⟩
    have : cls ≠ o.cls := fun h => hc h
    simp [World.step, this]
  | assignNetwork j n => exact ⟨hmod j _ ha, rfl⟩
  | assignNetworks j n => exact ⟨hmod j _ ha, rfl⟩
  | assignAlphabet j n => exact ⟨hmod j _ ha, rfl⟩
  | assignClass j n => exact ⟨hmod j _ ha, rfl⟩
  | call j c => exact ⟨ho, rfl⟩

theorem run_isolated (acts : List Action) (w : World) (i : Nat) (o : ObjectRec) (ho : w.objects[i]? = some o)
    (ha : ∀ a ∈ acts, ¬ Assigns i a ∧ ¬ Changes o.cls a) :
    (w.run acts).objects[i]? = some o ∧ (w.run acts).classes[o.cls]? = w.classes[o.cls]? := by
  induction acts generalizing w with
  | nil => exact ⟨ho, rfl⟩
  | cons a t ih =>
    obtain ⟨h1, h2⟩ := step_isolated w i o ho a (ha a (by simp)).1 (ha a (by simp)).2
    obtain ⟨g1, g2⟩ := ih (w.step a) h1 (fun b hb => ha b (by simp [hb]))
    exact ⟨g1, g2.trans h2⟩

/-- C75: whatever a program does — constructing objects, calling methods of any objects any number of times, setting attributes of other
objects, changing other classes —, an object answers every call as before. -/
theorem C75_isolated (w : World) (acts : List Action) (i : Nat) (o : ObjectRec) (ho : w.objects[i]? = some o)
    (ha : ∀ a ∈ acts, ¬ Assigns i a ∧ ¬ Changes o.cls a) (call : Call) : (w.run acts).ask P i call = w.ask P i call := by
  obtain ⟨h1, h2⟩ := run_isolated acts w i o ho ha
  simp only [World.ask, World.object, h1, h2, ho, Option.bind_eq_bind, Option.bind_some]

/-- C75: an object constructed in a program answers, at any later time, as the object `BIP38(coin, network)` of the other properties, if
neither its class nor its attributes were changed. -/
theorem C75_constructed (w : World) (k : Nat) (c : Coin) (hk : w.classes[k]? = some c) (network : String) (obj : BIP38)
    (hn : BIP38.new (.coin c) network = .ok obj) (acts : List Action)
    (ha : ∀ a ∈ acts, ¬ Assigns w.objects.length a ∧ ¬ Changes k a) (call : Call) :
    ((w.step (.construct k network)).run acts).ask P w.objects.length call = some (call.run P obj) := by
  have hst : w.step (.construct k network) = { w with objects := w.objects ++ [⟨k, obj.networks, obj.network, obj.alphabet⟩] } := by
    simp only [World.step, hk, hn]
  rw [hst]
  have ho : (World.mk w.classes (w.objects ++ [⟨k, obj.networks, obj.network, obj.alphabet⟩])).objects[w.objects.length]?
      = some ⟨k, obj.networks, obj.network, obj.alphabet⟩ := by simp
  rw [C75_isolated _ acts _ _ ho ha call]
  have hcoin : obj.cryptocurrency = c := (new_ok_iff hn).2.1
  simp only [World.ask, World.object, ho, hk, Option.bind_eq_bind, Option.bind_some, Option.map_some, ← hcoin]

/-! ## Objects whose attributes or class were changed -/

/-- The network argument of a call (`intermediate_code` has none). -/
def networkOf : Call → Option (Option String)
  | .encrypt _ _ n | .decrypt _ _ n _ | .confirm _ _ n _ | .create _ _ _ n _ => some n
  | .intermediate .. => none

/-- The same call with another network argument. -/
def atNetwork (n : Option String) : Call → Call
  | .encrypt w pass _ => .encrypt w pass n
  | .decrypt e pass _ detail => .decrypt e pass n detail
  | .confirm pass code _ detail => .confirm pass code n detail
  | .create it type seed _ u => .create it type seed n u
  | .intermediate pass lot sequence salt u => .intermediate pass lot sequence salt u

/-- C75: `networks` only serves to refuse names, `network` only as the default; what is left depends on the class and the name. So an object with
attributes of any values answers a call on a listed name as every other object of the class that lists this name. -/
theorem C75_attributes (obj obj' : BIP38) (hc : obj.cryptocurrency = obj'.cryptocurrency) (call : Call) (n n' : Option String)
    (hn : networkOf call = some n) (hsame : chosenNetwork obj n = chosenNetwork obj' n') (h : chosenNetwork obj n ∈ obj.networks)
    (h' : chosenNetwork obj' n' ∈ obj'.networks) : call.run P obj = (atNetwork n' call).run P obj' := by
  rw [← chosen_eq] at h h' hsame
  rw [← chosen_eq] at hsame
  have h2 : obj.selectNetwork n ∈ obj'.networks := hsame ▸ h'
  cases call with
  | intermediate => simp [networkOf] at hn
  | encrypt w pass m =>
    simp only [networkOf, Option.some.injEq] at hn
    subst hn
    simp only [Call.run, atNetwork]
    unfold BIP38.encrypt
    simp only [← hsame, h, h2, not_true_eq_false, raiseIf_false, bind_ok', hc]
  | decrypt e pass m detail =>
    simp only [networkOf, Option.some.injEq] at hn
    subst hn
    simp only [Call.run, atNetwork]
    unfold BIP38.decrypt BIP38.decryptNoEc BIP38.decryptEc
    simp only [← hsame, h, h2, not_true_eq_false, raiseIf_false, bind_ok', hc]
  | confirm pass code m detail =>
    simp only [networkOf, Option.some.injEq] at hn
    subst hn
    simp only [Call.run, atNetwork]
    unfold BIP38.confirmCode
    simp only [← hsame, h, h2, not_true_eq_false, raiseIf_false, bind_ok', hc]
  | create it type seed m u =>
    simp only [networkOf, Option.some.injEq] at hn
    subst hn
    simp only [Call.run, atNetwork]
    unfold BIP38.createNewEncryptedWif
    simp only [← hsame, h, h2, not_true_eq_false, raiseIf_false, bind_ok', hc]

/-- C75: a name that the object does not list is refused with `NetworkError`, even if the class has such a network; the text shows the
list of the object. -/
theorem C75_not_listed (obj : BIP38) (call : Call) (n : Option String) (hn : networkOf call = some n)
    (h : chosenNetwork obj n ∉ obj.networks) :
    call.run P obj = .error ⟨.networkError, if obj.networks = [] then "Wrong network type" else unknownNetwork obj.networks⟩ := by
  have hw : wrongNetwork obj.networks = if obj.networks = [] then "Wrong network type" else unknownNetwork obj.networks := by
    split
    · rename_i he
      rw [he]
      rfl
    · rename_i he
      exact wrongNetwork_eq _ he
  rw [← chosen_eq] at h
  rw [← hw]
  cases call with
  | intermediate => simp [networkOf] at hn
  | encrypt w pass m =>
    simp only [networkOf, Option.some.injEq] at hn
    subst hn
    simp only [Call.run]
    unfold BIP38.encrypt
    rw [py_bind_err (do_raise h)]
    rfl
  | decrypt e pass m detail =>
    simp only [networkOf, Option.some.injEq] at hn
    subst hn
    simp only [Call.run]
    unfold BIP38.decrypt
    rw [py_bind_err (do_raise h)]
    rfl
  | confirm pass code m detail =>
    simp only [networkOf, Option.some.injEq] at hn
    subst hn
    simp only [Call.run]
    unfold BIP38.confirmCode
    rw [py_bind_err (do_raise h)]
    rfl
  | create it type seed m u =>
    simp only [networkOf, Option.some.injEq] at hn
    subst hn
    simp only [Call.run]
    unfold BIP38.createNewEncryptedWif
    rw [py_bind_err (do_raise h)]
    rfl

theorem of_bind {α β : Type} {m : Py α} {f : α → Py β} {r : β} (h : (m >>= f) = .ok r) : ∃ x, m = .ok x ∧ f x = .ok r := by
  cases m with
  | error e => simp [bind, Except.bind] at h
  | ok x => exact ⟨x, rfl, h⟩

theorem lookup_missing {c : Coin} {m : String} (h : ∀ v, (m, v) ∉ c.networks) : lookupNet c m = .error ⟨.keyError, m⟩ := by
  unfold lookupNet Coin.net?
  have : c.networks.lookup m = none := by
    rw [List.lookup_eq_none_iff]
    rintro ⟨a, b⟩ hp
    by_contra hb
    simp at hb
    subst hb
    exact h _ hp
  rw [this]
  rfl

/-- Step through a method that returned with another class, up to the lookup that fails. -/
local macro "walk " hl:ident h:ident : tactic => `(tactic|
  repeat (first
    | rw [py_bind_err $hl]
    | (obtain ⟨x, hx, h'⟩ := of_bind $h
       clear $h
       rw [py_bind hx]
       clear hx
       have $h := h'
       clear h')))

theorem noEc_removed (obj : BIP38) (c' : Coin) (d : Bytes) (pass : Str) (m : String) (detail : Bool)
    (hl : lookupNet obj.cryptocurrency m = .error ⟨.keyError, m⟩) (r : DecryptOut)
    (h : ({ obj with cryptocurrency := c' } : BIP38).decryptNoEc P d pass m detail = .ok r) :
    obj.decryptNoEc P d pass m detail = .error ⟨.keyError, m⟩ := by
  unfold BIP38.decryptNoEc at h ⊢
  simp only at h ⊢
  walk hl h
  split at h
  · rename_i hf
    simp only [hf, if_true]
    walk hl h
  · rename_i hf
    simp only [hf, if_false]
    split at h
    · rename_i hf
      simp only [hf, if_true]
      walk hl h
    · rename_i hf
      simp only [hf, if_false]
      walk hl h

theorem ec_removed (obj : BIP38) (c' : Coin) (d : Bytes) (pass : Str) (m : String) (detail : Bool)
    (hl : lookupNet obj.cryptocurrency m = .error ⟨.keyError, m⟩) (r : DecryptOut)
    (h : ({ obj with cryptocurrency := c' } : BIP38).decryptEc P d pass m detail = .ok r) :
    obj.decryptEc P d pass m detail = .error ⟨.keyError, m⟩ := by
  unfold BIP38.decryptEc at h ⊢
  simp only at h ⊢
  walk hl h

theorem decrypt_removed (obj : BIP38) (c' : Coin) (e pass : Str) (n : Option String) (detail : Bool)
    (hl : lookupNet obj.cryptocurrency (obj.selectNetwork n) = .error ⟨.keyError, obj.selectNetwork n⟩) (r : DecryptOut)
    (h : ({ obj with cryptocurrency := c' } : BIP38).decrypt P e pass n detail = .ok r) :
    obj.decrypt P e pass n detail = .error ⟨.keyError, obj.selectNetwork n⟩ := by
  unfold BIP38.decrypt at h ⊢
  rw [show ({ obj with cryptocurrency := c' } : BIP38).selectNetwork n = obj.selectNetwork n from rfl] at h
  simp only at h ⊢
  walk hl h
  split at h
  · rename_i hf
    simp only [hf, if_true]
    exact noEc_removed obj c' _ _ _ _ hl r h
  · rename_i hf
    simp only [hf, if_false]
    split at h
    · rename_i hf
      simp only [hf, if_true]
      exact ec_removed obj c' _ _ _ _ hl r h
    · simp [raise] at h

theorem confirm_removed (obj : BIP38) (c' : Coin) (pass code : Str) (n : Option String) (detail : Bool)
    (hl : lookupNet obj.cryptocurrency (obj.selectNetwork n) = .error ⟨.keyError, obj.selectNetwork n⟩) (r : ConfirmOut)
    (h : ({ obj with cryptocurrency := c' } : BIP38).confirmCode P pass code n detail = .ok r) :
    obj.confirmCode P pass code n detail = .error ⟨.keyError, obj.selectNetwork n⟩ := by
  unfold BIP38.confirmCode at h ⊢
  rw [show ({ obj with cryptocurrency := c' } : BIP38).selectNetwork n = obj.selectNetwork n from rfl] at h
  simp only at h ⊢
  walk hl h

theorem create_removed (obj : BIP38) (c' : Coin) (it : Str) (type : String) (seed : Data) (n : Option String) (u : Bytes)
    (hl : lookupNet obj.cryptocurrency (obj.selectNetwork n) = .error ⟨.keyError, obj.selectNetwork n⟩) (r : Created)
    (h : ({ obj with cryptocurrency := c' } : BIP38).createNewEncryptedWif P it type seed n u = .ok r) :
    obj.createNewEncryptedWif P it type seed n u = .error ⟨.keyError, obj.selectNetwork n⟩ := by
  unfold BIP38.createNewEncryptedWif at h ⊢
  rw [show ({ obj with cryptocurrency := c' } : BIP38).selectNetwork n = obj.selectNetwork n from rfl] at h
  simp only at h ⊢
  walk hl h

/-- C75: a name that the object lists but its class has not (or has no more): no call on it returns, `encrypt` raises `KeyError` with the name at once,
and the other methods raise it where they would return if the class had such a network. -/
theorem C75_removed (obj : BIP38) (call : Call) (n : Option String) (hn : networkOf call = some n)
    (h : chosenNetwork obj n ∈ obj.networks) (hm : ∀ v, (chosenNetwork obj n, v) ∉ obj.cryptocurrency.networks) :
    (∀ r, call.run P obj ≠ .ok r) ∧
    (∀ c' r, call.run P { obj with cryptocurrency := c' } = .ok r → call.run P obj = .error ⟨.keyError, chosenNetwork obj n⟩) ∧
    (∀ w pass, call = .encrypt w pass n → call.run P obj = .error ⟨.keyError, chosenNetwork obj n⟩) := by
  have hl := lookup_missing hm
  rw [← chosen_eq] at h hl ⊢
  have henc : ∀ w pass, obj.encrypt P w pass n = .error ⟨.keyError, obj.selectNetwork n⟩ := by
    intro w pass
    unfold BIP38.encrypt getWifType
    simp only
    rw [py_bind (not_raise (not_not.mpr h)), hl]
    rfl
  have hmap : ∀ {α : Type} (f : α → Out) (m m' : Py α) (r : Out), (∀ a, m' = .ok a → m = .error ⟨.keyError, obj.selectNetwork n⟩) →
      f <$> m' = .ok r → f <$> m = .error ⟨.keyError, obj.selectNetwork n⟩ := by
    intro α f m m' r hx hr
    cases m' with
    | error e => simp [Functor.map, Except.map] at hr
    | ok a => rw [hx a rfl]; rfl
  have key : ∀ c' r, call.run P { obj with cryptocurrency := c' } = .ok r →
      call.run P obj = .error ⟨.keyError, obj.selectNetwork n⟩ := by
    intro c' r hr
    cases call with
    | intermediate => simp [networkOf] at hn
    | encrypt w pass m =>
      simp only [networkOf, Option.some.injEq] at hn
      subst hn
      simp only [Call.run, henc]
      rfl
    | decrypt e pass m detail =>
      simp only [networkOf, Option.some.injEq] at hn
      subst hn
      exact hmap _ _ _ r (fun a ha => decrypt_removed obj c' e pass m detail hl a ha) hr
    | confirm pass code m detail =>
      simp only [networkOf, Option.some.injEq] at hn
      subst hn
      exact hmap _ _ _ r (fun a ha => confirm_removed obj c' pass code m detail hl a ha) hr
    | create it type seed m u =>
      simp only [networkOf, Option.some.injEq] at hn
      subst hn
      exact hmap _ _ _ r (fun a ha => create_removed obj c' it type seed m u hl a ha) hr
  refine ⟨fun r hr => ?_, key, fun w pass he => ?_⟩
  · have := (key obj.cryptocurrency r hr).symm.trans hr
    simp at this
  · subst he
    simp only [Call.run, henc]
    rfl

/-! ## The same as programs -/

/-- C75: the class of an object is changed after its construction (any other `NETWORKS`, any alphabet). Later calls on a name the class
had at construction and has now work with the present prefixes, as on an object constructed now; names it did not have at construction are refused,
although an object constructed now would accept them; on names it has no more, no call returns. -/
theorem C75_class_changed (w : World) (k : Nat) (c c' : Coin) (hk : w.classes[k]? = some c) (network : String) (obj : BIP38)
    (hnew : BIP38.new (.coin c) network = .ok obj) (acts : List Action)
    (ha : ∀ a ∈ acts, ¬ Assigns w.objects.length a ∧ ¬ Changes k a) (call : Call) (n : Option String) (hn : networkOf call = some n) :
    ∃ answer, (((w.step (.construct k network)).step (.setClass k c')).run acts).ask P w.objects.length call = some answer ∧
      (∀ v v', (chosenNetwork obj n, v) ∈ c.networks → (chosenNetwork obj n, v') ∈ c'.networks →
        ∃ obj', BIP38.new (.coin c') (chosenNetwork obj n) = .ok obj' ∧ answer = (atNetwork none call).run P obj') ∧
      ((∀ v, (chosenNetwork obj n, v) ∉ c.networks) → answer = .error ⟨.networkError, unknownNetwork (c.networks.map Prod.fst)⟩) ∧
      (∀ v, (chosenNetwork obj n, v) ∈ c.networks → (∀ v', (chosenNetwork obj n, v') ∉ c'.networks) →
        (∀ r, answer ≠ .ok r) ∧ ∀ u pass, call = .encrypt u pass n → answer = .error ⟨.keyError, chosenNetwork obj n⟩) := by
  obtain ⟨hmem, hcoin, hnets, hnet⟩ := new_ok_iff hnew
  have hst : w.step (.construct k network) = { w with objects := w.objects ++ [⟨k, obj.networks, obj.network, obj.alphabet⟩] } := by
    simp only [World.step, hk, hnew]
  rw [hst]
  have hlt : k < w.classes.length := (List.getElem?_eq_some_iff.mp hk).1
  have ho : ((World.mk w.classes (w.objects ++ [⟨k, obj.networks, obj.network, obj.alphabet⟩])).step (.setClass k c')).objects[w.objects.length]?
      = some ⟨k, obj.networks, obj.network, obj.alphabet⟩ := by simp [World.step]
  have hc' : ((World.mk w.classes (w.objects ++ [⟨k, obj.networks, obj.network, obj.alphabet⟩])).step (.setClass k c')).classes[k]?
      = some c' := by simp [World.step, hlt]
  refine ⟨call.run P { obj with cryptocurrency := c' }, ?_, ?_, ?_, ?_⟩
  · rw [C75_isolated _ acts _ _ ho ha call]
    simp only [World.ask, World.object, ho, hc', Option.bind_eq_bind, Option.bind_some, Option.map_some]
  · intro v v' hv hv'
    obtain ⟨obj', hobj', hn', hcc⟩ := (C24_constructor_iff c' (chosenNetwork obj n)).mpr ⟨v', hv'⟩
    refine ⟨obj', hobj', ?_⟩
    have e1 : chosenNetwork { obj with cryptocurrency := c' } n = chosenNetwork obj n := rfl
    have e2 : chosenNetwork obj' none = chosenNetwork obj n := hn'
    refine C75_attributes _ obj' hcc.symm call n none hn ?_ ?_ ?_
    · rw [e1, e2]
    · rw [e1]
      show _ ∈ obj.networks
      rw [hnets]
      exact List.mem_map.mpr ⟨_, hv, rfl⟩
    · rw [e2, (new_ok_iff hobj').2.2.1]
      exact List.mem_map.mpr ⟨_, hv', rfl⟩
  · intro hno
    have hno' : chosenNetwork { obj with cryptocurrency := c' } n ∉ ({ obj with cryptocurrency := c' } : BIP38).networks := by
      show chosenNetwork obj n ∉ obj.networks
      rw [hnets]
      intro hx
      obtain ⟨⟨a, v⟩, hv, hav⟩ := List.mem_map.mp hx
      simp only at hav
      subst hav
      exact hno v hv
    have hne : obj.networks ≠ [] := by rw [hnets]; exact List.ne_nil_of_mem hmem
    have := C75_not_listed (P := P) { obj with cryptocurrency := c' } call n hn hno'
    simp only [hne, if_false] at this
    rw [this, hnets]
    rfl
  · intro v hv hno
    have hl : chosenNetwork { obj with cryptocurrency := c' } n ∈ ({ obj with cryptocurrency := c' } : BIP38).networks := by
      show chosenNetwork obj n ∈ obj.networks
      rw [hnets]
      exact List.mem_map.mpr ⟨_, hv, rfl⟩
    obtain ⟨g1, _, g3⟩ := C75_removed (P := P) { obj with cryptocurrency := c' } call n hn hl hno
    exact ⟨g1, g3⟩

/-- C75: the attribute `network` of an object is set. Later calls without a network argument answer as an object constructed for that network; if the
class has no such network, they raise `NetworkError`. Calls with a network argument are not affected. -/
theorem C75_network_assigned (w : World) (k : Nat) (c : Coin) (hk : w.classes[k]? = some c) (network : String) (obj : BIP38)
    (hnew : BIP38.new (.coin c) network = .ok obj) (m : String) (acts : List Action)
    (ha : ∀ a ∈ acts, ¬ Assigns w.objects.length a ∧ ¬ Changes k a) (call : Call) :
    (∀ obj', networkOf call = some none → BIP38.new (.coin c) m = .ok obj' →
      (((w.step (.construct k network)).step (.assignNetwork w.objects.length m)).run acts).ask P w.objects.length call
        = some (call.run P obj')) ∧
    (networkOf call = some none → (∀ v, (m, v) ∉ c.networks) →
      (((w.step (.construct k network)).step (.assignNetwork w.objects.length m)).run acts).ask P w.objects.length call
        = some (.error ⟨.networkError, unknownNetwork (c.networks.map Prod.fst)⟩)) ∧
    (∀ s, networkOf call = some (some s) → s ≠ "" →
      (((w.step (.construct k network)).step (.assignNetwork w.objects.length m)).run acts).ask P w.objects.length call
        = some (call.run P obj)) := by
  obtain ⟨hmem, hcoin, hnets, hnet⟩ := new_ok_iff hnew
  have hst : w.step (.construct k network) = { w with objects := w.objects ++ [⟨k, obj.networks, obj.network, obj.alphabet⟩] } := by
    simp only [World.step, hk, hnew]
  rw [hst]
  have ho : ((World.mk w.classes (w.objects ++ [⟨k, obj.networks, obj.network, obj.alphabet⟩])).step
      (.assignNetwork w.objects.length m)).objects[w.objects.length]? = some ⟨k, obj.networks, m, obj.alphabet⟩ := by
    simp [World.step, World.modify]
  have hc' : ((World.mk w.classes (w.objects ++ [⟨k, obj.networks, obj.network, obj.alphabet⟩])).step
      (.assignNetwork w.objects.length m)).classes[k]? = some c := hk
  have hask : (((World.mk w.classes (w.objects ++ [⟨k, obj.networks, obj.network, obj.alphabet⟩])).step
      (.assignNetwork w.objects.length m)).run acts).ask P w.objects.length call = some (call.run P { obj with network := m }) := by
    rw [C75_isolated _ acts _ _ ho ha call]
    simp only [World.ask, World.object, ho, hc', Option.bind_eq_bind, Option.bind_some, Option.map_some, ← hcoin]
  rw [hask]
  have hne : obj.networks ≠ [] := by rw [hnets]; exact List.ne_nil_of_mem hmem
  refine ⟨fun obj' hn hobj' => ?_, fun hn hno => ?_, fun s hn hs => ?_⟩
  · obtain ⟨hmem', hcoin', hnets', hnet'⟩ := new_ok_iff hobj'
    have := C75_attributes (P := P) { obj with network := m } obj' (hcoin.trans hcoin'.symm) call none none hn
      (by show m = obj'.network; exact hnet'.symm) (by show m ∈ obj.networks; rw [hnets]; exact hmem')
      (by show obj'.network ∈ obj'.networks; rw [hnets', hnet']; exact hmem')
    rw [this]
    cases call <;> simp_all [atNetwork, networkOf]
  · have hno' : m ∉ obj.networks := by
      rw [hnets]
      intro hx
      obtain ⟨⟨a, v⟩, hv, hav⟩ := List.mem_map.mp hx
      simp only at hav
      subst hav
      exact hno v hv
    have := C75_not_listed (P := P) { obj with network := m } call none hn hno'
    simp only [hne, if_false] at this
    rw [this, hnets]
    rfl
  · have e1 : chosenNetwork { obj with network := m } (some s) = chosenNetwork obj (some s) := by simp [chosenNetwork, hs]
    have hat : atNetwork (some s) call = call := by cases call <;> simp_all [atNetwork, networkOf]
    by_cases hin : chosenNetwork obj (some s) ∈ obj.networks
    · have := C75_attributes (P := P) { obj with network := m } obj rfl call (some s) (some s) hn e1 (e1 ▸ hin) hin
      rw [this, hat]
    · have h1 := C75_not_listed (P := P) { obj with network := m } call (some s) hn (e1 ▸ hin)
      have h2 := C75_not_listed (P := P) obj call (some s) hn hin
      rw [h1, h2]

/-- C75: what the answers are, for each method: those of the object that the constructor returned. -/
theorem C75_answers (w : World) (k : Nat) (c : Coin) (hk : w.classes[k]? = some c) (network : String) (obj : BIP38)
    (hn : BIP38.new (.coin c) network = .ok obj) (acts : List Action)
    (ha : ∀ a ∈ acts, ¬ Assigns w.objects.length a ∧ ¬ Changes k a) (text pass : Str) (n : Option String) (detail : Bool) (type : String)
    (seed salt : Data) (u : Bytes) (lot sequence : Option Int) :
    ((w.step (.construct k network)).run acts).ask P w.objects.length (.encrypt text pass n) = some (Out.text <$> obj.encrypt P text pass n) ∧
    ((w.step (.construct k network)).run acts).ask P w.objects.length (.decrypt text pass n detail)
      = some (Out.decrypted <$> obj.decrypt P text pass n detail) ∧
    ((w.step (.construct k network)).run acts).ask P w.objects.length (.confirm pass text n detail)
      = some (Out.confirmed <$> obj.confirmCode P pass text n detail) ∧
    ((w.step (.construct k network)).run acts).ask P w.objects.length (.create text type seed n u)
      = some (Out.created <$> obj.createNewEncryptedWif P text type seed n u) ∧
    ((w.step (.construct k network)).run acts).ask P w.objects.length (.intermediate pass lot sequence salt u)
      = some (Out.text <$> intermediateCode P pass lot sequence salt u) :=
  ⟨C75_constructed w k c hk network obj hn acts ha _, C75_constructed w k c hk network obj hn acts ha _,
    C75_constructed w k c hk network obj hn acts ha _, C75_constructed w k c hk network obj hn acts ha _,
    C75_constructed w k c hk network obj hn acts ha _⟩

/-- C75: an attribute of an object is set: the object then answers as one that differs from it in this attribute only; setting the alphabet changes
no answer. -/
theorem C75_assigned (w : World) (k : Nat) (c : Coin) (hk : w.classes[k]? = some c) (network : String) (obj : BIP38)
    (hn : BIP38.new (.coin c) network = .ok obj) (acts : List Action)
    (ha : ∀ a ∈ acts, ¬ Assigns w.objects.length a ∧ ¬ Changes k a) (call : Call) :
    (∀ alphabet, (((w.step (.construct k network)).step (.assignAlphabet w.objects.length alphabet)).run acts).ask P w.objects.length call
      = some (call.run P obj)) ∧
    (∀ names, (((w.step (.construct k network)).step (.assignNetworks w.objects.length names)).run acts).ask P w.objects.length call
      = some (call.run P { obj with networks := names })) ∧
    (∀ m, (((w.step (.construct k network)).step (.assignNetwork w.objects.length m)).run acts).ask P w.objects.length call
      = some (call.run P { obj with network := m })) ∧
    (∀ k' c', w.classes[k']? = some c' → (∀ a ∈ acts, ¬ Changes k' a) →
      (((w.step (.construct k network)).step (.assignClass w.objects.length k')).run acts).ask P w.objects.length call
      = some (call.run P { obj with cryptocurrency := c' })) := by
  have hcoin : obj.cryptocurrency = c := (new_ok_iff hn).2.1
  have hst : w.step (.construct k network) = { w with objects := w.objects ++ [⟨k, obj.networks, obj.network, obj.alphabet⟩] } := by
    simp only [World.step, hk, hn]
  rw [hst]
  refine ⟨fun al => ?_, fun names => ?_, fun m => ?_, fun k' c' hk' hc' => ?_⟩
  · have ho : ((World.mk w.classes (w.objects ++ [⟨k, obj.networks, obj.network, obj.alphabet⟩])).step
        (.assignAlphabet w.objects.length al)).objects[w.objects.length]? = some ⟨k, obj.networks, obj.network, al⟩ := by
      simp [World.step, World.modify]
    rw [C75_isolated _ acts _ _ ho ha call]
    have hc : ((World.mk w.classes (w.objects ++ [⟨k, obj.networks, obj.network, obj.alphabet⟩])).step
        (.assignAlphabet w.objects.length al)).classes[k]? = some c := hk
    simp only [World.ask, World.object, ho, hc, Option.bind_eq_bind, Option.bind_some, Option.map_some, ← hcoin]
    cases call <;> rfl
  · have ho : ((World.mk w.classes (w.objects ++ [⟨k, obj.networks, obj.network, obj.alphabet⟩])).step
        (.assignNetworks w.objects.length names)).objects[w.objects.length]? = some ⟨k, names, obj.network, obj.alphabet⟩ := by
      simp [World.step, World.modify]
    rw [C75_isolated _ acts _ _ ho ha call]
    have hc : ((World.mk w.classes (w.objects ++ [⟨k, obj.networks, obj.network, obj.alphabet⟩])).step
        (.assignNetworks w.objects.length names)).classes[k]? = some c := hk
    simp only [World.ask, World.object, ho, hc, Option.bind_eq_bind, Option.bind_some, Option.map_some, ← hcoin]
  · have ho : ((World.mk w.classes (w.objects ++ [⟨k, obj.networks, obj.network, obj.alphabet⟩])).step
        (.assignNetwork w.objects.length m)).objects[w.objects.length]? = some ⟨k, obj.networks, m, obj.alphabet⟩ := by
      simp [World.step, World.modify]
    rw [C75_isolated _ acts _ _ ho ha call]
    have hc : ((World.mk w.classes (w.objects ++ [⟨k, obj.networks, obj.network, obj.alphabet⟩])).step
        (.assignNetwork w.objects.length m)).classes[k]? = some c := hk
    simp only [World.ask, World.object, ho, hc, Option.bind_eq_bind, Option.bind_some, Option.map_some, ← hcoin]
  · have ho : ((World.mk w.classes (w.objects ++ [⟨k, obj.networks, obj.network, obj.alphabet⟩])).step
        (.assignClass w.objects.length k')).objects[w.objects.length]? = some ⟨k', obj.networks, obj.network, obj.alphabet⟩ := by
      simp [World.step, World.modify]
    rw [C75_isolated _ acts _ _ ho (fun a h => ⟨(ha a h).1, hc' a h⟩) call]
    have hc : ((World.mk w.classes (w.objects ++ [⟨k, obj.networks, obj.network, obj.alphabet⟩])).step
        (.assignClass w.objects.length k')).classes[k']? = some c' := hk'
    simp only [World.ask, World.object, ho, hc, Option.bind_eq_bind, Option.bind_some, Option.map_some]

/-! ## A program -/

/-- One class, Bitcoin, and no objects. -/
def startWorld : World := ⟨[Coins.Bitcoin], []⟩

/-- Bitcoin with a network added, one removed and another prefix of testnet. -/
def patchedBitcoin : Coin := ⟨"Bitcoin", [("mainnet", ⟨0x80, 0⟩), ("testnet", ⟨0xf0, 0x6f⟩), ("signet", ⟨0xef, 0x6f⟩)], none⟩

/-- The cases of `C75_class_changed` all occur: testnet is kept with another prefix, signet is added, regtest is removed. -/
example : startWorld.classes[0]? = some Coins.Bitcoin ∧ (∃ obj, BIP38.new (.coin Coins.Bitcoin) "mainnet" = .ok obj ∧
      chosenNetwork obj none = "mainnet") ∧
    (∃ v v', ("testnet", v) ∈ Coins.Bitcoin.networks ∧ ("testnet", v') ∈ patchedBitcoin.networks ∧ v ≠ v') ∧
    (∀ v, ("signet", v) ∉ Coins.Bitcoin.networks) ∧ (∃ v, ("signet", v) ∈ patchedBitcoin.networks) ∧
    (∃ v, ("regtest", v) ∈ Coins.Bitcoin.networks) ∧ ∀ v, ("regtest", v) ∉ patchedBitcoin.networks := by
  refine ⟨rfl, ⟨_, rfl, rfl⟩, ⟨⟨0xef, 0x6f⟩, ⟨0xf0, 0x6f⟩, by decide, by decide, by decide⟩, fun v => ?_, ⟨⟨0xef, 0x6f⟩, by decide⟩,
    ⟨⟨0xef, 0x6f⟩, by decide⟩, fun v => ?_⟩
  · simp [Coins.Bitcoin]
  · simp [patchedBitcoin]

/-- A program: an object is constructed, a second one, the first is set to testnet, methods are called. Object 0 then answers as an object for
testnet, object 1 as one for mainnet. -/
example (call : Call) (hn : networkOf call = some none) (w pass : Str) : ∃ t m, BIP38.new (.coin Coins.Bitcoin) "testnet" = .ok t ∧
    BIP38.new (.coin Coins.Bitcoin) "mainnet" = .ok m ∧
    (startWorld.run [.construct 0 "mainnet", .assignNetwork 0 "testnet", .construct 0 "mainnet", .call 1 (.encrypt w pass none)]).ask P 0 call
      = some (call.run P t) ∧
    (startWorld.run [.construct 0 "mainnet", .construct 0 "mainnet", .assignNetwork 0 "testnet", .call 0 (.encrypt w pass none)]).ask P 1 call
      = some (call.run P m) := by
  refine ⟨_, _, rfl, rfl, ?_, ?_⟩
  · exact (C75_network_assigned startWorld 0 Coins.Bitcoin rfl "mainnet" _ rfl "testnet" [.construct 0 "mainnet", .call 1 (.encrypt w pass none)]
      (by simp [Assigns, Changes]) call).1 _ hn rfl
  · exact C75_constructed (startWorld.step (.construct 0 "mainnet")) 0 Coins.Bitcoin rfl "mainnet" _ rfl
      [.assignNetwork 0 "testnet", .call 0 (.encrypt w pass none)] (by simp [Assigns, Changes, startWorld, World.step]; decide) call

end Bip38.Props
