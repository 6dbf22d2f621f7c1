import Verif.Spec.Import
/-!
# Importing: the invariant

`Inv T s`: every module of `sys.modules` that is not being executed (not in `T`) is complete: each name its text binds has the object it
should have, taken from a module that is itself complete.
-/
namespace Bip38.Import

/-- The names that a statement reads. -/
def Top.uses : Top → List String
  | .from _ _ _ => []
  | .import _ => []
  | .bind _ us => us
  | .run us => us

/-- Conditions on the text under which importing works, with a rank that decreases along `from .. import`. -/
structure Sound (P : Program) (rank : Mod → Nat) : Prop where
  taken : ∀ m t, P.lookup m = some t → ∀ level path names, Top.from level path names ∈ t.body →
    isInternal (target m t.isPackage level path) = true →
    target m t.isPackage level path ≠ [] ∧ rank (target m t.isPackage level path) < rank m ∧
    (∃ tx, P.lookup (target m t.isPackage level path) = some tx ∧
      ∀ p ∈ names, p.1 ∈ (tx.binds (target m t.isPackage level path)).map (·.1)) ∧
    ∀ a, a ≠ [] → a <+: target m t.isPackage level path → a <+: m ∨ ((P.lookup a).isSome ∧ rank a < rank m)
  uses : ∀ m t, P.lookup m = some t → ∀ pre top post, t.body = pre ++ top :: post → ∀ u ∈ top.uses,
    u ∈ builtins ∨ u ∈ (pre.flatMap (Top.binds m t.isPackage)).map (·.1)
  nodup : ∀ m t, P.lookup m = some t → ((t.binds m).map (·.1)).Nodup
  child : ∀ m t, P.lookup m = some t → ∀ n ∈ (t.binds m).map (·.1), P.lookup (m ++ [n]) = none
  nonempty : P.lookup [] = none
  parents : ∀ m, (P.lookup m).isSome → ∀ a, a ≠ [] → a <+: m → (P.lookup a).isSome
  depth : ∀ m, rank m < P.length

variable {P : Program} {rank : Mod → Nat}

/-- Everything loaded stays loaded and keeps its names, except for names of submodules. -/
def Ext (P : Program) (s s' : State) : Prop :=
  ∀ p ns, s.mods p = some ns → ∃ ns', s'.mods p = some ns' ∧ ∀ n, P.lookup (p ++ [n]) = none → ns' n = ns n

/-- The same for all modules but one. -/
def ExtBut (P : Program) (m : Mod) (s s' : State) : Prop :=
  ∀ p ns, p ≠ m → s.mods p = some ns → ∃ ns', s'.mods p = some ns' ∧ ∀ n, P.lookup (p ++ [n]) = none → ns' n = ns n

/-- A binding of module `m` is carried out in the namespace `ns`. -/
def Right (P : Program) (T : List Mod) (s : State) (m : Mod) (ns : Ns) : String × Binding → Prop
  | (n, .here) => ∃ k, ns n = some ⟨.own m n, k⟩
  | (n, .module x) => ns n = some ⟨.module x, 0⟩
  | (n, .taken x y) =>
    if isInternal x = true then
      x ∉ T ∧ P.lookup (x ++ [y]) = none ∧ (∃ nsx o, s.mods x = some nsx ∧ nsx y = some o ∧ ns n = some o) ∧
      ∀ a, a ≠ [] → a <+: x → a <+: m ∨ (a ∉ T ∧ s.mods a ≠ none)
    else ns n = some ⟨.external x y, 0⟩

def Inv (P : Program) (T : List Mod) (s : State) : Prop :=
  ∀ m ns, s.mods m = some ns → m ∉ T → ∃ t, P.lookup m = some t ∧ ∀ b ∈ t.binds m, Right P T s m ns b

theorem Ext.refl (s : State) : Ext P s s := fun _ ns h => ⟨ns, h, fun _ _ => rfl⟩

theorem Ext.trans {a b c : State} (h : Ext P a b) (h' : Ext P b c) : Ext P a c := fun p ns hp => by
  obtain ⟨n1, h1, e1⟩ := h p ns hp
  obtain ⟨n2, h2, e2⟩ := h' p n1 h1
  exact ⟨n2, h2, fun n hn => (e2 n hn).trans (e1 n hn)⟩

theorem ExtBut.refl (m : Mod) (s : State) : ExtBut P m s s := fun _ ns _ h => ⟨ns, h, fun _ _ => rfl⟩

theorem ExtBut.trans {m : Mod} {a b c : State} (h : ExtBut P m a b) (h' : ExtBut P m b c) : ExtBut P m a c := fun p ns hm hp => by
  obtain ⟨n1, h1, e1⟩ := h p ns hm hp
  obtain ⟨n2, h2, e2⟩ := h' p n1 hm h1
  exact ⟨n2, h2, fun n hn => (e2 n hn).trans (e1 n hn)⟩

theorem Ext.but {m : Mod} {a b : State} (h : Ext P a b) : ExtBut P m a b := fun p ns _ hp => h p ns hp

theorem Ext.loaded {a b : State} (h : Ext P a b) {p : Mod} (hp : a.mods p ≠ none) : b.mods p ≠ none := by
  obtain ⟨ns, e⟩ := Option.ne_none_iff_exists'.mp hp
  obtain ⟨ns', e', -⟩ := h p ns e
  simp [e']

/-- `Right` survives steps that keep the modules outside `T`, and a change of the own namespace elsewhere. -/
theorem Right.mono {T T' : List Mod} {s s' : State} {m : Mod} {ns ns' : Ns} {b : String × Binding} (h : Right P T s m ns b)
    (hT : ∀ x, x ∉ T → s.mods x ≠ none → x ∉ T')
    (hs : ∀ x nsx, x ∉ T → s.mods x = some nsx → ∃ nsx', s'.mods x = some nsx' ∧ ∀ n, P.lookup (x ++ [n]) = none → nsx' n = nsx n)
    (hn : ns' b.1 = ns b.1) : Right P T' s' m ns' b := by
  obtain ⟨n, b⟩ := b
  cases b with
  | here => obtain ⟨k, h⟩ := h; exact ⟨k, hn.trans h⟩
  | module x => exact hn.trans h
  | taken x y =>
    by_cases hx : isInternal x = true
    · simp only [Right, if_pos hx] at h ⊢
      obtain ⟨h1, h2, ⟨nsx, o, h3, h4, h5⟩, h6⟩ := h
      refine ⟨hT x h1 (by simp [h3]), h2, ?_, fun a ha hax => ?_⟩
      · obtain ⟨nsx', e1, e2⟩ := hs x nsx h1 h3
        exact ⟨nsx', o, e1, (e2 y h2).trans h4, hn.trans h5⟩
      · rcases h6 a ha hax with h | ⟨h, h'⟩
        · exact .inl h
        · obtain ⟨nsa, e⟩ := Option.ne_none_iff_exists'.mp h'
          obtain ⟨nsa', e', -⟩ := hs a nsa h e
          exact .inr ⟨hT a h h', by simp [e']⟩
    · simp only [Right, if_neg hx] at h ⊢
      exact hn.trans h

/-- Steps that load nothing keep the invariant. -/
theorem Inv.ext (hS : Sound P rank) {T : List Mod} {s s' : State} (h : Inv P T s) (he : Ext P s s')
    (hl : ∀ p, s.mods p = none → s'.mods p = none) : Inv P T s' := fun m ns' hm hT => by
  cases hs : s.mods m with
  | none => rw [hl m hs] at hm; cases hm
  | some ns =>
    obtain ⟨t, ht, hb⟩ := h m ns hs hT
    obtain ⟨ns2, e1, e2⟩ := he m ns hs
    rw [hm] at e1; cases e1
    exact ⟨t, ht, fun b hbm => (hb b hbm).mono (fun _ h _ => h) (fun x nsx _ hx => he x nsx hx)
      (e2 _ (hS.child m t ht b.1 (List.mem_map_of_mem hbm)))⟩

theorem bind_mods {s : State} {m p : Mod} {n : String} {o : Obj} :
    (s.bind m n o).mods p = if p = m then (s.mods m).map (·.set n o) else s.mods p := by
  unfold State.bind
  cases h : s.mods m with
  | none => by_cases hp : p = m <;> simp [hp, h]
  | some ns => by_cases hp : p = m <;> simp [hp, State.put]

/-- Making a module an attribute of its package. -/
theorem Ext.attr {s : State} {m : Mod} {o : Obj} {k : Nat} (hm : m ≠ []) (hP : (P.lookup m).isSome) :
    Ext P s { (s.bind m.dropLast (m.getLastD "") o) with next := k } := fun p ns hp => by
  have e : m.dropLast ++ [m.getLastD ""] = m := by
    rw [List.getLastD_eq_getLast?, List.getLast?_eq_some_getLast hm]; exact List.dropLast_concat_getLast hm
  show ∃ ns', (s.bind m.dropLast (m.getLastD "") o).mods p = some ns' ∧ _
  rw [bind_mods]
  by_cases h : p = m.dropLast
  · subst h
    simp only [if_true, hp, Option.map_some]
    refine ⟨_, rfl, fun n hn => ?_⟩
    unfold Ns.set
    by_cases h : n = m.getLastD ""
    · subst h; rw [e] at hn; simp [hn] at hP
    · rw [if_neg h]
  · exact ⟨ns, by rw [if_neg h, hp], fun _ _ => rfl⟩

/-- What an import guarantees: the invariant, nothing lost, and an exception only if something outside raised or the module is not in the
package. -/
def Err (P : Program) (F : Faults) (m : Mod) (e : Exc) : Prop :=
  (∃ p i, e = .fault p i ∧ (F.before p i = true ∨ F.after p i = true)) ∨
    ∃ a, a ≠ [] ∧ a <+: m ∧ e = .notFound a ∧ P.lookup a = none

/-- Specification of the function that executes a module. -/
def LoadSpec (P : Program) (rank : Mod → Nat) (F : Faults) (k : Nat) (ld : Mod → State → Result) : Prop :=
  ∀ m T s, Inv P T s → s.mods m = none → m ≠ [] → (∀ a, a ≠ [] → a <+: m → a ≠ m → s.mods a ≠ none) → rank m < k →
    (∀ p ∈ T, rank m < rank p) →
    Inv P T (ld m s).1 ∧ Ext P s (ld m s).1 ∧ ((ld m s).2 = none → (ld m s).1.mods m ≠ none) ∧
    ∀ e, (ld m s).2 = some e → Err P F m e

theorem importFrom_spec {F : Faults} {k : Nat} {ld : Mod → State → Result} (hld : LoadSpec P rank F k ld) {T : List Mod} :
    ∀ (cs : List String) (d : Mod) (s : State), Inv P T s → (∀ a, a ≠ [] → a <+: d → s.mods a ≠ none) →
      (∀ a, a ≠ [] → a <+: d ++ cs → s.mods a ≠ none ∨ (rank a < k ∧ ∀ p ∈ T, rank a < rank p)) →
      Inv P T (importFrom ld d cs s).1 ∧ Ext P s (importFrom ld d cs s).1 ∧
      ((importFrom ld d cs s).2 = none → ∀ a, a ≠ [] → a <+: d ++ cs → (importFrom ld d cs s).1.mods a ≠ none) ∧
      ∀ e, (importFrom ld d cs s).2 = some e → Err P F (d ++ cs) e
  | [], d, s, hI, hd, _ => ⟨hI, Ext.refl s, fun _ a ha h => hd a ha (by simpa using h), fun _ h => nomatch h⟩
  | c :: cs, d, s, hI, hd, hr => by
    have e : d ++ c :: cs = (d ++ [c]) ++ cs := by simp
    have hpre : ∀ a, a <+: d ++ [c] → a <+: d ∨ a = d ++ [c] := fun a h => by
      rcases List.prefix_concat_iff.mp (by simpa using h) with h | h
      · exact .inr h
      · exact .inl h
    rw [e] at hr ⊢
    unfold importFrom
    cases hc : s.mods (d ++ [c]) with
    | some ns =>
      exact importFrom_spec hld cs (d ++ [c]) s hI
        (fun a ha h => (hpre a h).elim (hd a ha) fun h => by rw [h, hc]; simp) hr
    | none =>
      have hx := (hr (d ++ [c]) (by simp) (List.prefix_append _ _)).resolve_left (by simp [hc])
      obtain ⟨l1, l2, l3, l4⟩ := hld (d ++ [c]) T s hI hc (by simp)
        (fun a ha h hne => hd a ha ((hpre a h).resolve_right hne)) hx.1 hx.2
      cases hl : ld (d ++ [c]) s with
      | mk s' r =>
        rw [hl] at l1 l2 l3 l4
        cases r with
        | some er =>
          refine ⟨l1, l2, fun h => (nomatch h), fun e he => ?_⟩
          cases he
          rcases l4 er rfl with h | ⟨a, h1, h2, h3⟩
          · exact .inl h
          · exact .inr ⟨a, h1, h2.trans (List.prefix_append _ _), h3⟩
        | none =>
          obtain ⟨r1, r2, r3, r4⟩ := importFrom_spec hld cs (d ++ [c]) s' l1
            (fun a ha h => (hpre a h).elim (fun h => l2.loaded (hd a ha h)) fun h => by rw [h]; exact l3 rfl)
            (fun a ha h => (hr a ha h).imp (fun h => l2.loaded h) id)
          exact ⟨r1, l2.trans r2, r3, r4⟩

/-- The bindings `B` of module `m` are carried out. -/
def Have (P : Program) (T : List Mod) (m : Mod) (B : List (String × Binding)) (s : State) : Prop :=
  ∃ ns, s.mods m = some ns ∧ ∀ b ∈ B, Right P T s m ns b

theorem Inv.bind_top {T : List Mod} {m : Mod} {s : State} {n : String} {o : Obj} {k : Nat} (h : Inv P T s) (hm : m ∈ T) :
    Inv P T { (s.bind m n o) with next := k } := fun p ns hp hT => by
  have hne : p ≠ m := fun h => hT (h ▸ hm)
  have hp' : s.mods p = some ns := by
    have : (s.bind m n o).mods p = some ns := hp
    rwa [bind_mods, if_neg hne] at this
  obtain ⟨t, ht, hb⟩ := h p ns hp' hT
  refine ⟨t, ht, fun b hbm => (hb b hbm).mono (fun _ h _ => h) (fun x nsx hx hxs => ⟨nsx, ?_, fun _ _ => rfl⟩) rfl⟩
  have : x ≠ m := fun h => hx (h ▸ hm)
  show (s.bind m n o).mods x = some nsx
  rw [bind_mods, if_neg this, hxs]

/-- Binding one more name in the module that is being executed. -/
theorem bind_step {T : List Mod} {m : Mod} {s : State} {n : String} {o : Obj} {k : Nat} {B : List (String × Binding)} {b : Binding}
    (hm : m ∈ T) (hI : Inv P T s) (hB : Have P T m B s) (hn : n ∉ B.map (·.1))
    (hb : ∀ s' ns, (∀ x nsx, x ∉ T → s.mods x = some nsx → s'.mods x = some nsx) → (∀ x, s.mods x ≠ none → s'.mods x ≠ none) →
      ns n = some o → Right P T s' m ns (n, b)) :
    let s' : State := { (s.bind m n o) with next := k }
    Inv P T s' ∧ ExtBut P m s s' ∧ Have P T m (B ++ [(n, b)]) s' := by
  intro s'
  have hs : ∀ p, p ≠ m → s'.mods p = s.mods p := fun p hp => by
    show (s.bind m n o).mods p = _
    rw [bind_mods, if_neg hp]
  obtain ⟨ns, hns, hR⟩ := hB
  have hsm : s'.mods m = some (ns.set n o) := by
    show (s.bind m n o).mods m = _
    rw [bind_mods, if_pos rfl, hns]; rfl
  have hT : ∀ x nsx, x ∉ T → s.mods x = some nsx → s'.mods x = some nsx := fun x nsx hx e =>
    (hs x fun h => hx (h ▸ hm)).trans e
  have hL : ∀ x, s.mods x ≠ none → s'.mods x ≠ none := fun x hx => by
    by_cases h : x = m
    · subst h; simp [hsm]
    · rwa [hs x h]
  refine ⟨hI.bind_top hm, fun p ns' hp he => ⟨ns', (hs p hp).trans he, fun _ _ => rfl⟩, ns.set n o, hsm, fun c hc => ?_⟩
  rcases List.mem_append.mp hc with hc | hc
  · refine (hR c hc).mono (fun _ h _ => h) (fun x nsx hx e => ⟨nsx, hT x nsx hx e, fun _ _ => rfl⟩) ?_
    have : c.1 ≠ n := fun h => hn (h ▸ List.mem_map_of_mem hc)
    simp [Ns.set, this]
  · cases List.mem_singleton.mp hc
    exact hb s' _ hT hL (by simp [Ns.set])

theorem takeExternal_spec {T : List Mod} {m x : Mod} (hm : m ∈ T) (hx : isInternal x = false) :
    ∀ (names : List (String × String)) (B : List (String × Binding)) (s : State), Inv P T s → Have P T m B s →
      ((B ++ names.map fun p => (p.2, Binding.taken x p.1)).map (·.1)).Nodup →
      Inv P T (takeExternal m x names s) ∧ ExtBut P m s (takeExternal m x names s) ∧
      Have P T m (B ++ names.map fun p => (p.2, Binding.taken x p.1)) (takeExternal m x names s)
  | [], B, s, hI, hB, _ => ⟨hI, ExtBut.refl m s, by simpa [takeExternal] using hB⟩
  | (n, al) :: rest, B, s, hI, hB, hd => by
    have hn : al ∉ B.map (·.1) := by
      simp only [List.map_append, List.map_cons, List.nodup_append] at hd
      exact fun h => hd.2.2 al h al (by simp) rfl
    obtain ⟨h1, h2, h3⟩ := bind_step (k := s.next) (b := .taken x n) (o := ⟨.external x n, 0⟩) hm hI hB hn
      (fun s' ns _ _ h => by simp only [Right, hx]; simpa using h)
    have e : B ++ ((n, al) :: rest).map (fun p => (p.2, Binding.taken x p.1)) =
        (B ++ [(al, Binding.taken x n)]) ++ rest.map (fun p => (p.2, Binding.taken x p.1)) := by simp
    have hst : ({ (s.bind m al ⟨.external x n, 0⟩) with next := s.next } : State) = s.bind m al ⟨.external x n, 0⟩ := by
      unfold State.bind; cases s.mods m <;> rfl
    dsimp only at h1 h2 h3
    rw [hst] at h1 h2 h3
    rw [e] at hd ⊢
    obtain ⟨r1, r2, r3⟩ := takeExternal_spec hm hx rest _ _ h1 h3 hd
    exact ⟨r1, h2.trans r2, r3⟩

theorem takeNames_spec {T : List Mod} {m x : Mod} (hm : m ∈ T) (hx : isInternal x = true) (hxT : x ∉ T)
    (hanc : ∀ a, a ≠ [] → a <+: x → a <+: m ∨ a ∉ T) :
    ∀ (names : List (String × String)) (B : List (String × Binding)) (s : State), Inv P T s → Have P T m B s →
      (∀ a, a ≠ [] → a <+: x → s.mods a ≠ none) →
      (∃ nsx, s.mods x = some nsx ∧ ∀ p ∈ names, nsx p.1 ≠ none ∧ P.lookup (x ++ [p.1]) = none) →
      ((B ++ names.map fun p => (p.2, Binding.taken x p.1)).map (·.1)).Nodup →
      (takeNames m x names s).2 = none ∧ Inv P T (takeNames m x names s).1 ∧ ExtBut P m s (takeNames m x names s).1 ∧
      Have P T m (B ++ names.map fun p => (p.2, Binding.taken x p.1)) (takeNames m x names s).1
  | [], B, s, hI, hB, _, _, _ => ⟨rfl, hI, ExtBut.refl m s, by simpa [takeNames] using hB⟩
  | (n, al) :: rest, B, s, hI, hB, ha, ⟨nsx, hsx, hnm⟩, hd => by
    have hn : al ∉ B.map (·.1) := by
      simp only [List.map_append, List.map_cons, List.nodup_append] at hd
      exact fun h => hd.2.2 al h al (by simp) rfl
    obtain ⟨o, ho⟩ := Option.ne_none_iff_exists'.mp (hnm (n, al) List.mem_cons_self).1
    have hch := (hnm (n, al) List.mem_cons_self).2
    dsimp only at ho hch
    obtain ⟨h1, h2, h3⟩ := bind_step (k := s.next) (b := .taken x n) (o := o) hm hI hB hn
      (fun s' ns hk hl h => by
        simp only [Right, if_pos hx]
        refine ⟨hxT, hch, ⟨nsx, o, hk x nsx hxT hsx, ho, h⟩, fun a h1 h2 => ?_⟩
        exact (hanc a h1 h2).imp id fun h => ⟨h, hl a (ha a h1 h2)⟩)
    have e : B ++ ((n, al) :: rest).map (fun p => (p.2, Binding.taken x p.1)) =
        (B ++ [(al, Binding.taken x n)]) ++ rest.map (fun p => (p.2, Binding.taken x p.1)) := by simp
    have hst : ({ (s.bind m al o) with next := s.next } : State) = s.bind m al o := by
      unfold State.bind; cases s.mods m <;> rfl
    dsimp only at h1 h2 h3
    rw [hst] at h1 h2 h3
    rw [e] at hd ⊢
    have hl : ∀ p, s.mods p ≠ none → (s.bind m al o).mods p ≠ none := fun p hp => by
      rw [bind_mods]; split
      · rename_i h; subst h; simpa using hp
      · exact hp
    have hxm : x ≠ m := fun h => hxT (h ▸ hm)
    obtain ⟨r0, r1, r2, r3⟩ := takeNames_spec hm hx hxT hanc rest _ (s.bind m al o) h1 h3
      (fun a h1 h2 => hl a (ha a h1 h2))
      ⟨nsx, by rw [bind_mods, if_neg hxm, hsx], fun p hp => hnm p (List.mem_cons_of_mem _ hp)⟩ hd
    simp only [takeNames, hsx, Option.bind_some, ho]
    exact ⟨r0, r1, h2.trans r2, r3⟩

theorem Have.step {T : List Mod} {m : Mod} {B : List (String × Binding)} {s s' : State} {t : Text} (hS : Sound P rank)
    (ht : P.lookup m = some t) (hB : ∀ b ∈ B, b ∈ t.binds m) (h : Have P T m B s) (he : Ext P s s') : Have P T m B s' := by
  obtain ⟨ns, h1, h2⟩ := h
  obtain ⟨ns', e1, e2⟩ := he m ns h1
  exact ⟨ns', e1, fun b hb => (h2 b hb).mono (fun _ h _ => h) (fun x nsx _ hx => he x nsx hx)
    (e2 _ (hS.child m t ht b.1 (List.mem_map_of_mem (hB b hb))))⟩

theorem Right.bound {T : List Mod} {s : State} {m : Mod} {ns : Ns} {b : String × Binding} (h : Right P T s m ns b) : ns b.1 ≠ none := by
  obtain ⟨n, b⟩ := b
  cases b with
  | here => obtain ⟨k, h⟩ := h; simp [h]
  | module x => have h : ns n = _ := h; simp [h]
  | taken x y =>
    by_cases hx : isInternal x = true
    · simp only [Right, if_pos hx] at h
      obtain ⟨-, -, ⟨nsx, o, -, -, h⟩, -⟩ := h
      simp [h]
    · simp only [Right, if_neg hx] at h; simp [h]

theorem missing_none {T : List Mod} {m : Mod} {B : List (String × Binding)} {s : State} {us : List String} (h : Have P T m B s)
    (hu : ∀ u ∈ us, u ∈ builtins ∨ u ∈ B.map (·.1)) : missing s m us = none := by
  obtain ⟨ns, h1, h2⟩ := h
  unfold missing
  rw [List.find?_eq_none]
  intro u hus
  rcases hu u hus with h | h
  · simp [h]
  · obtain ⟨b, hb, rfl⟩ := List.mem_map.mp h
    obtain ⟨o, ho⟩ := Option.ne_none_iff_exists'.mp (h2 b hb).bound
    simp [h1, ho]

/-- What a statement, or several, of module `m` guarantee. -/
def Step (P : Program) (F : Faults) (T : List Mod) (m : Mod) (B : List (String × Binding)) (s : State) (r : Result) : Prop :=
  Inv P T r.1 ∧ ExtBut P m s r.1 ∧ r.1.mods m ≠ none ∧ (r.2 = none → Have P T m B r.1) ∧
  ∀ e, r.2 = some e → ∃ p i, e = .fault p i ∧ (F.before p i = true ∨ F.after p i = true)

theorem execTop_spec (hS : Sound P rank) {F : Faults} {k : Nat} {ld : Mod → State → Result} (hld : LoadSpec P rank F k ld)
    {T : List Mod} {m : Mod} {t : Text} (ht : P.lookup m = some t) (hk : rank m ≤ k) (hT : ∀ p ∈ T, rank m < rank p)
    {pre post : List Top} {top : Top} (hbody : t.body = pre ++ top :: post) {i : Nat} {s : State}
    (hI : Inv P (m :: T) s) (hB : Have P (m :: T) m (pre.flatMap (Top.binds m t.isPackage)) s)
    (hanc : ∀ a, a ≠ [] → a <+: m → s.mods a ≠ none) :
    Step P F (m :: T) m ((pre ++ [top]).flatMap (Top.binds m t.isPackage)) s (execTop ld F m t.isPackage i top s) := by
  have hm : m ∈ m :: T := List.mem_cons_self
  have hload : s.mods m ≠ none := by obtain ⟨ns, h, -⟩ := hB; simp [h]
  have hall : t.binds m = (pre ++ [top]).flatMap (Top.binds m t.isPackage) ++ post.flatMap (Top.binds m t.isPackage) := by
    simp [Text.binds, hbody]
  have hnd : (((pre ++ [top]).flatMap (Top.binds m t.isPackage)).map (·.1)).Nodup := by
    have := hS.nodup m t ht
    rw [hall, List.map_append, List.nodup_append] at this
    exact this.1
  have hsub : ∀ b ∈ pre.flatMap (Top.binds m t.isPackage), b ∈ t.binds m := fun b hb => by
    rw [hall]; simp [List.flatMap_append] at hb ⊢; exact .inl hb
  have hf : (pre ++ [top]).flatMap (Top.binds m t.isPackage) =
      pre.flatMap (Top.binds m t.isPackage) ++ top.binds m t.isPackage := by simp
  have keep : ∀ {s' : State}, Have P (m :: T) m ((pre ++ [top]).flatMap (Top.binds m t.isPackage)) s' → s'.mods m ≠ none :=
    fun ⟨ns, h, _⟩ => by simp [h]
  unfold execTop
  by_cases hb : F.before m i = true
  · rw [if_pos hb]
    exact ⟨hI, ExtBut.refl m s, hload, fun h => (nomatch h), fun e he => by cases he; exact ⟨m, i, rfl, .inl hb⟩⟩
  rw [if_neg hb]
  cases top with
  | «from» level path names =>
    have hmem : Top.from level path names ∈ t.body := by rw [hbody]; simp
    by_cases hx : isInternal (target m t.isPackage level path) = true
    · obtain ⟨hx0, hx1, ⟨tx, hx2, hx3⟩, hx4⟩ := hS.taken m t ht level path names hmem hx
      simp only [if_pos hx]
      generalize hxe : target m t.isPackage level path = x at hx hx0 hx1 hx2 hx3 hx4 ⊢
      have hxT : x ∉ m :: T := fun h => by
        rcases List.mem_cons.mp h with h | h
        · subst h; omega
        · have := hT x h; omega
      obtain ⟨q1, q2, q3, q4⟩ := importFrom_spec hld (T := m :: T) x [] s hI (fun a ha h => absurd (List.prefix_nil.mp h) ha)
        (fun a ha h => by
          rcases hx4 a ha (by simpa using h) with h' | ⟨-, h'⟩
          · exact .inl (hanc a ha h')
          · refine .inr ⟨by omega, fun p hp => ?_⟩
            rcases List.mem_cons.mp hp with rfl | hp
            · exact h'
            · have := hT p hp; omega)
      cases hr : importFrom ld [] x s with
      | mk s1 r =>
        rw [hr] at q1 q2 q3 q4
        have hB1 := hB.step hS ht hsub q2
        have hload1 := q2.loaded hload
        cases r with
        | some e =>
          refine ⟨q1, q2.but, hload1, fun h => (nomatch h), fun e' he => ?_⟩
          cases he
          rcases q4 e rfl with h | ⟨a, h1, h2, -, h4⟩
          · exact h
          · exfalso
            have h2 : a <+: x := by simpa using h2
            have := hS.parents x (by simp [hx2]) a h1 h2
            simp [h4] at this
        | none =>
          by_cases hfa : F.after m i = true
          · simp only [if_pos hfa]
            exact ⟨q1, q2.but, hload1, fun h => (nomatch h), fun e he => by cases he; exact ⟨m, i, rfl, .inr hfa⟩⟩
          simp only [if_neg hfa]
          have q3 := q3 rfl
          simp only [List.nil_append] at q3
          obtain ⟨nsx, hnsx⟩ := Option.ne_none_iff_exists'.mp (q3 x hx0 (List.prefix_refl x))
          obtain ⟨tx', htx', hR⟩ := q1 x nsx hnsx hxT
          rw [hx2] at htx'; cases htx'
          rw [hf] at hnd ⊢
          have hbt : Top.binds m t.isPackage (.from level path names) = names.map fun p => (p.2, Binding.taken x p.1) := by
            simp only [Top.binds, hxe]
          rw [hbt] at hnd ⊢
          obtain ⟨r0, r1, r2, r3⟩ := takeNames_spec (P := P) hm hx hxT
            (fun a ha h => (hx4 a ha h).imp id fun h hmem => by
              rcases List.mem_cons.mp hmem with h' | h'
              · subst h'; omega
              · have := hT a h'; omega)
            names _ s1 q1 hB1 q3
            ⟨nsx, hnsx, fun p hp => by
              obtain ⟨b, hb, e⟩ := List.mem_map.mp (hx3 p hp)
              refine ⟨?_, hS.child x tx hx2 p.1 (hx3 p hp)⟩
              rw [← e]; exact (hR b hb).bound⟩ hnd
          refine ⟨r1, q2.but.trans r2, ?_, fun _ => r3, fun e he => ?_⟩
          · obtain ⟨ns, h, -⟩ := r3; simp [h]
          · rw [r0] at he; cases he
    · simp only [if_neg hx]
      have hx' : isInternal (target m t.isPackage level path) = false := by simpa using hx
      have hnd' := hf ▸ hnd
      obtain ⟨h1, h2, h3⟩ := takeExternal_spec hm hx' names _ s hI hB hnd'
      exact ⟨h1, h2, keep (by rw [hf]; exact h3), fun _ => by rw [hf]; exact h3, fun _ h => (nomatch h)⟩
  | «import» x =>
    have hn : x ∉ (pre.flatMap (Top.binds m t.isPackage)).map (·.1) := by
      rw [hf, List.map_append, List.nodup_append] at hnd
      exact fun h => hnd.2.2 x h x (by simp [Top.binds]) rfl
    obtain ⟨h1, h2, h3⟩ := bind_step (k := s.next) (b := .module x) (o := ⟨.module x, 0⟩) hm hI hB hn (fun s' ns _ _ h => h)
    have hst : ({ (s.bind m x ⟨.module x, 0⟩) with next := s.next } : State) = s.bind m x ⟨.module x, 0⟩ := by
      unfold State.bind; cases s.mods m <;> rfl
    dsimp only at h1 h2 h3
    rw [hst] at h1 h2 h3
    have h3 : Have P (m :: T) m ((pre ++ [Top.import x]).flatMap (Top.binds m t.isPackage)) (s.bind m x ⟨.module x, 0⟩) := by
      rw [hf]; exact h3
    exact ⟨h1, h2, keep h3, fun _ => h3, fun _ h => (nomatch h)⟩
  | bind n uses =>
    have hmiss := missing_none hB (hS.uses m t ht pre (.bind n uses) post hbody)
    have hmiss : missing s m uses = none := hmiss
    simp only [hmiss]
    have hn : n ∉ (pre.flatMap (Top.binds m t.isPackage)).map (·.1) := by
      rw [hf, List.map_append, List.nodup_append] at hnd
      exact fun h => hnd.2.2 n h n (by simp [Top.binds]) rfl
    obtain ⟨h1, h2, h3⟩ := bind_step (k := s.next + 1) (b := .here) (o := ⟨.own m n, s.next⟩) hm hI hB hn (fun s' ns _ _ h => ⟨_, h⟩)
    rw [hf]
    refine ⟨h1, h2, ?_, fun _ => h3, fun _ h => (nomatch h)⟩
    obtain ⟨ns, h, -⟩ := h3
    exact fun h' => nomatch h.symm.trans h'
  | run uses =>
    have hmiss := missing_none hB (hS.uses m t ht pre (.run uses) post hbody)
    have hmiss : missing s m uses = none := hmiss
    simp only [hmiss]
    rw [hf]
    exact ⟨hI, ExtBut.refl m s, hload, fun _ => by simpa [Top.binds] using hB, fun _ h => (nomatch h)⟩

theorem execBody_spec (hS : Sound P rank) {F : Faults} {k : Nat} {ld : Mod → State → Result} (hld : LoadSpec P rank F k ld)
    {T : List Mod} {m : Mod} {t : Text} (ht : P.lookup m = some t) (hk : rank m ≤ k) (hT : ∀ p ∈ T, rank m < rank p) :
    ∀ (ts pre : List Top) (i : Nat) (s : State), t.body = pre ++ ts → Inv P (m :: T) s →
      Have P (m :: T) m (pre.flatMap (Top.binds m t.isPackage)) s → (∀ a, a ≠ [] → a <+: m → s.mods a ≠ none) →
      Step P F (m :: T) m (t.binds m) s (execBody ld F m t.isPackage i ts s)
  | [], pre, i, s, hb, hI, hB, _ => by
    have : t.binds m = pre.flatMap (Top.binds m t.isPackage) := by simp [Text.binds, hb]
    refine ⟨hI, ExtBut.refl m s, ?_, fun _ => this ▸ hB, fun _ h => (nomatch h)⟩
    obtain ⟨ns, h, -⟩ := hB
    exact fun h' => nomatch h.symm.trans h'
  | top :: ts, pre, i, s, hb, hI, hB, ha => by
    have h := execTop_spec (i := i) hS hld ht hk hT hb hI hB ha
    unfold execBody
    cases hr : execTop ld F m t.isPackage i top s with
    | mk s1 r =>
      rw [hr] at h
      obtain ⟨h1, h2, h3, h4, h5⟩ := h
      cases r with
      | some e => exact ⟨h1, h2, h3, fun h => (nomatch h), h5⟩
      | none =>
        obtain ⟨r1, r2, r3, r4, r5⟩ := execBody_spec hS hld ht hk hT ts (pre ++ [top]) (i + 1) s1 (by simp [hb]) h1 (h4 rfl)
          (fun a ha' hp => by
            by_cases e : a = m
            · subst e; exact h3
            · obtain ⟨ns, hns⟩ := Option.ne_none_iff_exists'.mp (ha a ha' hp)
              obtain ⟨ns', hns', -⟩ := h2 a ns e hns
              exact fun h => nomatch hns'.symm.trans h)
        exact ⟨r1, h2.trans r2, r3, r4, r5⟩

theorem load_spec (hS : Sound P rank) (F : Faults) : ∀ k, LoadSpec P rank F k (load P F k)
  | 0 => fun _ _ _ _ _ _ _ h => absurd h (Nat.not_lt_zero _)
  | k + 1 => fun m T s hI hno hm hanc hk hT => by
    have hmT : m ∉ T := fun h => absurd (hT m h) (Nat.lt_irrefl _)
    unfold load
    cases ht : P.lookup m with
    | none =>
      refine ⟨hI, Ext.refl s, fun h => (nomatch h), fun e he => ?_⟩
      cases he
      exact .inr ⟨m, hm, List.prefix_refl m, rfl, ht⟩
    | some t =>
      have hne : ∀ p ns, s.mods p = some ns → p ≠ m := fun p ns h e => by subst e; rw [hno] at h; cases h
      have hput : ∀ p, p ≠ m → (s.put m fun _ => none).mods p = s.mods p := fun p h => by simp [State.put, h]
      have h0 : Inv P (m :: T) (s.put m fun _ => none) := fun p ns hp hpT => by
        have hpm : p ≠ m := fun h => hpT (h ▸ List.mem_cons_self)
        rw [hput p hpm] at hp
        obtain ⟨t, ht, hb⟩ := hI p ns hp (fun h => hpT (List.mem_cons_of_mem _ h))
        refine ⟨t, ht, fun b hbm => (hb b hbm).mono (fun x hx hl h => ?_) (fun x nsx _ hx => ⟨nsx, ?_, fun _ _ => rfl⟩) rfl⟩
        · rcases List.mem_cons.mp h with h | h
          · subst h; exact hl hno
          · exact hx h
        · rw [hput x (hne x nsx hx), hx]
      have hB0 : Have P (m :: T) m (([] : List Top).flatMap (Top.binds m t.isPackage)) (s.put m fun _ => none) :=
        ⟨fun _ => none, by simp [State.put], fun b hb => by simp at hb⟩
      have h := execBody_spec hS (load_spec hS F k) ht (Nat.lt_succ_iff.mp hk) hT t.body [] 0 _ rfl h0 hB0
        (fun a ha hp => by
          by_cases e : a = m
          · subst e; simp [State.put]
          · rw [hput a e]; exact hanc a ha hp e)
      simp only
      cases hr : execBody (load P F k) F m t.isPackage 0 t.body (s.put m fun _ => none) with
      | mk s1 r =>
        rw [hr] at h
        obtain ⟨h1, h2, h3, h4, h5⟩ := h
        have hext : ∀ p ns, s.mods p = some ns → ∃ ns', s1.mods p = some ns' ∧ ∀ n, P.lookup (p ++ [n]) = none → ns' n = ns n :=
          fun p ns hp => h2 p ns (hne p ns hp) (by rw [hput p (hne p ns hp), hp])
        cases r with
        | some e =>
          have hrem : ∀ p, p ≠ m → (s1.remove m).mods p = s1.mods p := fun p h => by simp [State.remove, h]
          refine ⟨fun p ns hp hpT => ?_, fun p ns hp => ?_, fun h => (nomatch h), fun e' he => .inl (h5 e' he)⟩
          · have hpm : p ≠ m := fun h => by subst h; simp [State.remove] at hp
            rw [hrem p hpm] at hp
            have hpT' : p ∉ m :: T := fun h => (List.mem_cons.mp h).elim hpm hpT
            obtain ⟨t, ht, hb⟩ := h1 p ns hp hpT'
            refine ⟨t, ht, fun b hbm => (hb b hbm).mono (fun x hx _ h => hx (List.mem_cons_of_mem _ h))
              (fun x nsx hx hxs => ⟨nsx, ?_, fun _ _ => rfl⟩) rfl⟩
            rw [hrem x fun h => hx (h ▸ List.mem_cons_self), hxs]
          · rw [hrem p (hne p ns hp)]; exact hext p ns hp
        | none =>
          have hat : Ext P s1 { (s1.bind m.dropLast (m.getLastD "") ⟨.submodule m, s1.next⟩) with next := s1.next + 1 } :=
            Ext.attr hm (by simp [ht])
          have hInv1 : Inv P T s1 := fun p ns hp hpT => by
            by_cases hpm : p = m
            · subst hpm
              obtain ⟨ns', hns', hb⟩ := h4 rfl
              rw [hp] at hns'; cases hns'
              exact ⟨t, ht, fun b hbm => (hb b hbm).mono (fun x hx _ h => hx (List.mem_cons_of_mem _ h))
                (fun x nsx _ hxs => ⟨nsx, hxs, fun _ _ => rfl⟩) rfl⟩
            · obtain ⟨t, ht, hb⟩ := h1 p ns hp (fun h => (List.mem_cons.mp h).elim hpm hpT)
              exact ⟨t, ht, fun b hbm => (hb b hbm).mono (fun x hx _ h => hx (List.mem_cons_of_mem _ h))
                (fun x nsx _ hxs => ⟨nsx, hxs, fun _ _ => rfl⟩) rfl⟩
          refine ⟨hInv1.ext hS hat (fun p hp => ?_), fun p ns hp => ?_, fun _ => hat.loaded h3, fun _ h => (nomatch h)⟩
          · show (s1.bind _ _ _).mods p = none
            rw [bind_mods]; split
            · rename_i h; subst h; simp [hp]
            · exact hp
          · obtain ⟨ns1, e1, e2⟩ := hext p ns hp
            obtain ⟨ns2, e3, e4⟩ := hat p ns1 e1
            exact ⟨ns2, e3, fun n hn => (e4 n hn).trans (e2 n hn)⟩

/-- One import by a program. -/
theorem attempt_spec (hS : Sound P rank) (F : Faults) (m : Mod) {s : State} (hI : Inv P [] s) :
    Inv P [] (attempt P F m s).1 ∧ Ext P s (attempt P F m s).1 ∧
    ((attempt P F m s).2 = none → ∀ a, a ≠ [] → a <+: m → (attempt P F m s).1.mods a ≠ none) ∧
    ∀ e, (attempt P F m s).2 = some e → Err P F m e := by
  have h := importFrom_spec (load_spec hS F P.length) (T := []) m [] s hI (fun a ha h => absurd (List.prefix_nil.mp h) ha)
    (fun a _ _ => .inr ⟨hS.depth a, fun _ h => (nomatch h)⟩)
  rw [List.nil_append] at h
  exact h

theorem after_inv (hS : Sound P rank) : ∀ h, Inv P [] (after P h)
  | [] => fun _ _ h => nomatch h
  | (m, F) :: h => (attempt_spec hS F m (after_inv hS h)).1

/-- A name that denotes a statement of the package is the object of that statement. -/
theorem Inv.denotes {s : State} (hI : Inv P [] s) {m : Mod} {n : String} {site : Site} (hd : Denotes P m n site) :
    ∀ ns, s.mods m = some ns → (∃ o, ns n = some o ∧ o.site = site) ∧
      match site with
      | .own x y => ∃ nsx, s.mods x = some nsx ∧ ns n = nsx y
      | _ => ns n = some ⟨site, 0⟩ := by
  induction hd with
  | @here m t n ht hb =>
    intro ns hns
    obtain ⟨t', ht', hR⟩ := hI m ns hns (by simp)
    rw [ht] at ht'; cases ht'
    obtain ⟨k, hk⟩ := hR _ hb
    exact ⟨⟨_, hk, rfl⟩, ns, hns, rfl⟩
  | @module m t n x ht hb =>
    intro ns hns
    obtain ⟨t', ht', hR⟩ := hI m ns hns (by simp)
    rw [ht] at ht'; cases ht'
    have : ns n = _ := hR _ hb
    exact ⟨⟨_, this, rfl⟩, this⟩
  | @external m t n x y ht hb hx =>
    intro ns hns
    obtain ⟨t', ht', hR⟩ := hI m ns hns (by simp)
    rw [ht] at ht'; cases ht'
    have := hR _ hb
    simp only [Right, hx] at this
    have : ns n = some ⟨.external x y, 0⟩ := by simpa using this
    exact ⟨⟨_, this, rfl⟩, this⟩
  | @taken m t n x y site ht hb hx _ ih =>
    intro ns hns
    obtain ⟨t', ht', hR⟩ := hI m ns hns (by simp)
    rw [ht] at ht'; cases ht'
    have := hR _ hb
    simp only [Right, if_pos hx] at this
    obtain ⟨-, -, ⟨nsx, o, h1, h2, h3⟩, -⟩ := this
    obtain ⟨⟨o', e1, e2⟩, e3⟩ := ih nsx h1
    have e : ns n = nsx y := h3.trans h2.symm
    refine ⟨⟨o', e.trans e1, e2⟩, ?_⟩
    cases site <;> simp only [e] <;> exact e3

/-! ## Deciding the conditions -/

/-- Every name a statement reads is built in or bound by an earlier statement. -/
def usesOk (m : Mod) (isPackage : Bool) : List String → List Top → Bool
  | _, [] => true
  | seen, t :: ts => t.uses.all (fun u => builtins.contains u || seen.contains u) &&
      usesOk m isPackage (seen ++ (t.binds m isPackage).map (·.1)) ts

def takenOk (P : Program) (rank : Mod → Nat) (m : Mod) (isPackage : Bool) : Top → Bool
  | .from level path names =>
    let x := target m isPackage level path
    !isInternal x || (!x.isEmpty && decide (rank x < rank m) &&
      (match P.lookup x with
        | some tx => names.all fun p => ((tx.binds x).map (·.1)).contains p.1
        | none => false) &&
      (List.range (x.length + 1)).all fun i => (x.take i).isEmpty || (x.take i).isPrefixOf m ||
        ((P.lookup (x.take i)).isSome && decide (rank (x.take i) < rank m)))
  | _ => true

def rankOf (ranks : List (Mod × Nat)) (m : Mod) : Nat := (ranks.lookup m).getD 0

def soundFile (P : Program) (rank : Mod → Nat) (m : Mod) (t : Text) : Bool :=
  t.body.all (takenOk P rank m t.isPackage) && usesOk m t.isPackage [] t.body && decide ((t.binds m).map (·.1)).Nodup &&
  ((t.binds m).map (·.1)).all (fun n => (P.lookup (m ++ [n])).isNone) &&
  (List.range (m.length + 1)).all fun i => (m.take i).isEmpty || (P.lookup (m.take i)).isSome

def soundB (P : Program) (ranks : List (Mod × Nat)) : Bool :=
  P.all (fun q => soundFile P (rankOf ranks) q.1 q.2) && (P.lookup []).isNone && ranks.all (fun r => decide (r.2 < P.length)) &&
  decide (0 < P.length)

theorem mem_of_lookup {α β : Type} [BEq α] [LawfulBEq α] : ∀ {l : List (α × β)} {a : α} {b : β}, l.lookup a = some b → (a, b) ∈ l
  | (c, d) :: l, a, b, h => by
    rw [List.lookup_cons] at h
    split at h
    · rename_i e; cases h; rw [eq_of_beq e]; exact List.mem_cons_self
    · exact List.mem_cons_of_mem _ (mem_of_lookup h)

theorem usesOk_spec {m : Mod} {isPackage : Bool} : ∀ (ts : List Top) (seen : List String), usesOk m isPackage seen ts = true →
    ∀ pre top post, ts = pre ++ top :: post → ∀ u ∈ top.uses,
      u ∈ builtins ∨ u ∈ seen ++ (pre.flatMap (Top.binds m isPackage)).map (·.1)
  | [], _, _, pre, _, _, e => by simp at e
  | t :: ts, seen, h, pre, top, post, e => fun u hu => by
    simp only [usesOk, Bool.and_eq_true, List.all_eq_true, Bool.or_eq_true, List.contains_iff_mem] at h
    cases pre with
    | nil =>
      simp only [List.nil_append, List.cons.injEq] at e
      obtain ⟨rfl, rfl⟩ := e
      simpa using h.1 u hu
    | cons p pre =>
      simp only [List.cons_append, List.cons.injEq] at e
      obtain ⟨rfl, e⟩ := e
      have := usesOk_spec ts _ h.2 pre top post e u hu
      simpa [List.append_assoc] using this

theorem sound_of {P : Program} {ranks : List (Mod × Nat)} (h : soundB P ranks = true) : Sound P (rankOf ranks) := by
  simp only [soundB, Bool.and_eq_true, List.all_eq_true, decide_eq_true_eq, Option.isNone_iff_eq_none] at h
  obtain ⟨⟨⟨hf, h0⟩, hr⟩, hl⟩ := h
  have hfile : ∀ m t, P.lookup m = some t → soundFile P (rankOf ranks) m t = true := fun m t ht => hf (m, t) (mem_of_lookup ht)
  have hpre : ∀ {a x : Mod}, a <+: x → ∃ i ∈ List.range (x.length + 1), a = x.take i := fun {a x} h =>
    ⟨a.length, List.mem_range.mpr (Nat.lt_succ_of_le h.length_le), List.prefix_iff_eq_take.mp h⟩
  refine ⟨fun m t ht level path names hm hx => ?_, fun m t ht pre top post e u hu => ?_, fun m t ht => ?_, fun m t ht n hn => ?_, h0,
    fun m hm a ha hp => ?_, fun m => ?_⟩
  · have h := hfile m t ht
    simp only [soundFile, Bool.and_eq_true, List.all_eq_true] at h
    have h := h.1.1.1.1 _ hm
    simp only [takenOk, hx, Bool.not_true, Bool.false_or, Bool.and_eq_true, Bool.not_eq_true', decide_eq_true_eq, List.all_eq_true,
      Bool.or_eq_true, List.isEmpty_iff, List.isPrefixOf_iff_prefix] at h
    obtain ⟨⟨⟨h1, h2⟩, h3⟩, h4⟩ := h
    refine ⟨fun e => by simp [e] at h1, h2, ?_, fun a ha hp => ?_⟩
    · cases hl : P.lookup (target m t.isPackage level path) with
      | none => rw [hl] at h3; cases h3
      | some tx =>
        rw [hl] at h3
        exact ⟨tx, rfl, fun p hp => by
          have := List.all_eq_true.mp h3 p hp
          exact List.contains_iff_mem.mp this⟩
    · obtain ⟨i, hi, rfl⟩ := hpre hp
      rcases h4 i hi with (h | h) | h
      · exact absurd h ha
      · exact .inl h
      · exact .inr h
  · have h := hfile m t ht
    simp only [soundFile, Bool.and_eq_true] at h
    simpa using usesOk_spec t.body [] h.1.1.1.2 pre top post e u hu
  · have h := hfile m t ht
    simp only [soundFile, Bool.and_eq_true, decide_eq_true_eq] at h
    exact h.1.1.2
  · have h := hfile m t ht
    simp only [soundFile, Bool.and_eq_true, List.all_eq_true, Option.isNone_iff_eq_none] at h
    exact h.1.2 n hn
  · obtain ⟨t, ht⟩ := Option.isSome_iff_exists.mp hm
    have h := hfile m t ht
    simp only [soundFile, Bool.and_eq_true, List.all_eq_true, Bool.or_eq_true, List.isEmpty_iff] at h
    obtain ⟨i, hi, rfl⟩ := hpre hp
    exact (h.2 i hi).resolve_left ha
  · unfold rankOf
    cases hm : ranks.lookup m with
    | none => exact hl
    | some r => exact hr (m, r) (mem_of_lookup hm)

/-- What a name denotes, computed. -/
def denote (P : Program) : Nat → Mod → String → Option Site
  | 0, _, _ => none
  | k + 1, m, n =>
    match P.lookup m with
    | none => none
    | some t =>
      match (t.binds m).lookup n with
      | none => none
      | some .here => some (.own m n)
      | some (.module x) => some (.module x)
      | some (.taken x y) => if isInternal x then denote P k x y else some (.external x y)

theorem denotes_of {P : Program} : ∀ {k : Nat} {m : Mod} {n : String} {site : Site}, denote P k m n = some site → Denotes P m n site
  | k + 1, m, n, site, h => by
    unfold denote at h
    cases ht : P.lookup m with
    | none => simp [ht] at h
    | some t =>
      simp only [ht] at h
      cases hb : (t.binds m).lookup n with
      | none => simp [hb] at h
      | some b =>
        have hmem := mem_of_lookup hb
        simp only [hb] at h
        cases b with
        | here => cases h; exact .here ht hmem
        | module x => cases h; exact .module ht hmem
        | taken x y =>
          by_cases hx : isInternal x = true
          · simp only [if_pos hx] at h; exact .taken ht hmem hx (denotes_of h)
          · simp only [if_neg hx] at h; cases h; exact .external ht hmem (by simpa using hx)

/-- The modules of `/repo/bip38` ordered so that each takes names only from earlier ones. -/
def ranks : List (Mod × Nat) :=
  [(["bip38", "crypto"], 1), (["bip38", "secp256k1", "point"], 1), (["bip38", "secp256k1", "public_key"], 2),
   (["bip38", "secp256k1", "private_key"], 3), (["bip38", "secp256k1"], 4), (["bip38", "p2pkh_address"], 5), (["bip38", "wif"], 2),
   (["bip38", "bip38"], 6), (["bip38"], 7)]

set_option maxRecDepth 100000 in
theorem package_sound : Sound package (rankOf ranks) := sound_of (by decide +kernel)

end Bip38.Import
