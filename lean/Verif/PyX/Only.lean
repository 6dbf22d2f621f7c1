import Verif.Py.Text
import Verif.PyX.Meaning
/-!
# What a text defines is determined, with external calls as events

As `Verif/Py/Only.lean` (written by `tools/gen_only.py`): `Defines` (`Verif/PyX/Meaning.lean`) says that definitions mean themselves under the names that they define.  Here is what is needed to show that only one
list of definitions does: the names and kinds of the definitions, and of the members of classes, can be read off the tree (`shape_eq`); then one definition
after the other is determined, as those it refers to are (`Verif/PyX/OnlyOf.lean`).
-/
set_option linter.style.longLine false
namespace Bip38.SrcX.Text
open Bip38.Src Bip38.Py

/-- The kind of a member of a class. -/
inductive MemKey
  | ctor | method | fn | attr

/-- The kind of a definition. -/
inductive Key
  | ext (path : Nat) | fn | value
  | cls (c : Option Cls) (members : List (Nat × MemKey))
  | exc (c : ExcClass)

def Mem.key : Mem → MemKey
  | .ctor _ => .ctor
  | .method _ => .method
  | .fn _ => .fn
  | .attr _ => .attr

def memKey (p : Nat × Mem) : Nat × MemKey := (p.1, p.2.key)

def Ent.key : Ent → Key
  | .ext p => .ext p
  | .fn _ => .fn
  | .value _ => .value
  | .cls c ms => .cls c (ms.map memKey)
  | .exc c _ _ => .exc c

def key (p : Nat × Ent) : Nat × Key := (p.1, p.2.key)

/-- The names and kinds of the members of a class. -/
def memShape : List PS → List (Nat × MemKey)
  | [] => []
  | s :: l => match s with
    | .ann _ _ .missing => memShape l
    | .ann (.name n) _ _ => (n, .attr) :: memShape l
    | .def [] n _ _ _ => (n, if Nat.beq n v!"__init__" then .ctor else .method) :: memShape l
    | .def _ n _ _ _ => (n, .fn) :: memShape l
    | _ => memShape l

/-- The names and kinds of the definitions. -/
def shape : List PS → List (Nat × Key)
  | [] => []
  | s :: l => match s with
    | .assign (.name n) _ | .ann (.name n) _ _ => (n, .value) :: shape l
    | .def [] n _ _ _ => (n, .fn) :: shape l
    | .cls n [] b => (n, .cls (clsOf n) (memShape b)) :: shape l
    | .cls n [.name _] _ => (n, .exc ((excOf n).getD .error)) :: shape l
    | _ => shape l

theorem memShape_eq {ctx : Ctx} {mf : Nat → List (Nat × Cls × Fn)} {init : List Param → List Stmt → Fn} :
    ∀ {body : List PS} {ms : List (Nat × Mem)}, classMembers ctx mf init body = some ms → ms.map memKey = memShape body
  | [], ms, h => by cases h; rfl
  | s :: l, ms, h => by
    unfold classMembers at h
    cases hr : classMembers ctx mf init l with
    | none => rw [hr] at h; cases h
    | some rest =>
      rw [hr] at h
      have ih := memShape_eq hr
      simp only [Option.bind_eq_bind, Option.bind_some] at h
      split at h
      · cases h; simpa [memShape] using ih
      · cases h; simpa [memShape] using ih
      · rename_i hm
        obtain ⟨e, he, h⟩ := Option.bind_eq_some_iff.mp h
        cases h
        rw [memShape.eq_3]
        · simp [memKey, Mem.key, ih]
        · exact hm
      · split at h
        · split at h
          · split at h
            · rename_i hn
              obtain ⟨⟨ps, k, b⟩, he, h⟩ := Option.bind_eq_some_iff.mp h
              dsimp only at h
              split at h
              · cases h; simp [memShape, memKey, Mem.key, ih, hn]
              · cases h
            · rename_i hn
              obtain ⟨⟨ps, k, b⟩, he, h⟩ := Option.bind_eq_some_iff.mp h
              cases h; simp [memShape, memKey, Mem.key, ih, hn]
          · cases h
        · split at h
          · split at h
            · obtain ⟨⟨ps, k, b⟩, he, h⟩ := Option.bind_eq_some_iff.mp h
              cases h; simp [memShape, memKey, Mem.key, ih]
            · cases h
          · split at h
            · obtain ⟨⟨ps, k, b⟩, he, h⟩ := Option.bind_eq_some_iff.mp h
              cases h; simp [memShape, memKey, Mem.key, ih]
            · cases h
        · cases h
      · cases h

theorem shape_eq {ctx : Ctx} {mf : Nat → List (Nat × Cls × Fn)} : ∀ {tree : List PS} {defs : Scope}, definitions ctx mf tree = some defs →
    defs.map key = shape tree
  | [], defs, h => by cases h; rfl
  | s :: l, defs, h => by
    unfold definitions at h
    cases hr : definitions ctx mf l with
    | none => rw [hr] at h; cases h
    | some rest =>
      rw [hr] at h
      have ih := shape_eq hr
      simp only [Option.bind_eq_bind, Option.bind_some] at h
      split at h
      · cases h; simpa [shape] using ih
      · cases h; simpa [shape] using ih
      · cases h; simpa [shape] using ih
      · cases h; simpa [shape] using ih
      · obtain ⟨e, he, h⟩ := Option.bind_eq_some_iff.mp h
        cases h; simpa [shape, key, Ent.key] using ih
      · obtain ⟨e, he, h⟩ := Option.bind_eq_some_iff.mp h
        cases h; simpa [shape, key, Ent.key] using ih
      · obtain ⟨e, he, h⟩ := Option.bind_eq_some_iff.mp h
        cases h; simpa [shape, key, Ent.key] using ih
      · obtain ⟨ms, hm, h⟩ := Option.bind_eq_some_iff.mp h
        cases h; simpa [shape, key, Ent.key, memShape_eq hm] using ih
      · split at h
        · obtain ⟨ms, hm, h⟩ := Option.bind_eq_some_iff.mp h
          split at h
          · obtain ⟨e, he, h⟩ := Option.bind_eq_some_iff.mp h
            cases h; simpa [shape, key, Ent.key, he] using ih
          · cases h
        · split at h
          · obtain ⟨e, he, h⟩ := Option.bind_eq_some_iff.mp h
            cases h; simpa [shape, key, Ent.key, he] using ih
          · cases h
      · split at h
        · cases h; simpa [shape] using ih
        · cases h
      · cases h

/-! ### The definitions, one by one -/

theorem key_nil {defs : Scope} (h : defs.map key = []) : defs = [] := by simpa using h

theorem key_cons {defs : Scope} {n : Nat} {k : Key} {l : List (Nat × Key)} (h : defs.map key = (n, k) :: l) :
    ∃ x rest, defs = (n, x) :: rest ∧ x.key = k ∧ rest.map key = l := by
  match defs, h with
  | [], h => cases h
  | (m, x) :: rest, h =>
    simp only [List.map_cons, List.cons.injEq, key, Prod.mk.injEq] at h
    obtain ⟨⟨rfl, h1⟩, h2⟩ := h
    exact ⟨_, _, rfl, h1, h2⟩

theorem key_value {defs : Scope} {n : Nat} {l : List (Nat × Key)} (h : defs.map key = (n, .value) :: l) :
    ∃ e rest, defs = (n, .value e) :: rest ∧ rest.map key = l := by
  obtain ⟨x, rest, rfl, hx, hr⟩ := key_cons h
  cases x <;> simp [Ent.key] at hx
  exact ⟨_, _, rfl, hr⟩

theorem key_fn {defs : Scope} {n : Nat} {l : List (Nat × Key)} (h : defs.map key = (n, .fn) :: l) :
    ∃ f rest, defs = (n, .fn f) :: rest ∧ rest.map key = l := by
  obtain ⟨x, rest, rfl, hx, hr⟩ := key_cons h
  cases x <;> simp [Ent.key] at hx
  exact ⟨_, _, rfl, hr⟩

theorem key_exc {defs : Scope} {n : Nat} {c : ExcClass} {l : List (Nat × Key)} (h : defs.map key = (n, .exc c) :: l) :
    ∃ (e : (ExcClass → Fn) × Fn) (rest : Scope), defs = (n, .exc c e.1 e.2) :: rest ∧ rest.map key = l := by
  obtain ⟨x, rest, rfl, hx, hr⟩ := key_cons h
  cases x <;> simp [Ent.key] at hx
  subst hx
  exact ⟨(_, _), _, rfl, hr⟩

theorem key_cls {defs : Scope} {n : Nat} {c : Option Cls} {ks : List (Nat × MemKey)} {l : List (Nat × Key)} (h : defs.map key = (n, .cls c ks) :: l) :
    ∃ ms rest, defs = (n, .cls c ms) :: rest ∧ ms.map memKey = ks ∧ rest.map key = l := by
  obtain ⟨x, rest, rfl, hx, hr⟩ := key_cons h
  cases x <;> simp [Ent.key] at hx
  obtain ⟨rfl, hx⟩ := hx
  exact ⟨_, _, rfl, hx, hr⟩

theorem mem_nil {ms : List (Nat × Mem)} (h : ms.map memKey = []) : ms = [] := by simpa using h

theorem mem_cons {ms : List (Nat × Mem)} {n : Nat} {k : MemKey} {l : List (Nat × MemKey)} (h : ms.map memKey = (n, k) :: l) :
    ∃ x rest, ms = (n, x) :: rest ∧ x.key = k ∧ rest.map memKey = l := by
  match ms, h with
  | [], h => cases h
  | (m, x) :: rest, h =>
    simp only [List.map_cons, List.cons.injEq, memKey, Prod.mk.injEq] at h
    obtain ⟨⟨rfl, h1⟩, h2⟩ := h
    exact ⟨_, _, rfl, h1, h2⟩

theorem mem_ctor {ms : List (Nat × Mem)} {n : Nat} {l : List (Nat × MemKey)} (h : ms.map memKey = (n, .ctor) :: l) :
    ∃ f rest, ms = (n, .ctor f) :: rest ∧ rest.map memKey = l := by
  obtain ⟨x, rest, rfl, hx, hr⟩ := mem_cons h
  cases x <;> simp [Mem.key] at hx
  exact ⟨_, _, rfl, hr⟩
theorem mem_method {ms : List (Nat × Mem)} {n : Nat} {l : List (Nat × MemKey)} (h : ms.map memKey = (n, .method) :: l) :
    ∃ f rest, ms = (n, .method f) :: rest ∧ rest.map memKey = l := by
  obtain ⟨x, rest, rfl, hx, hr⟩ := mem_cons h
  cases x <;> simp [Mem.key] at hx
  exact ⟨_, _, rfl, hr⟩
theorem mem_fn {ms : List (Nat × Mem)} {n : Nat} {l : List (Nat × MemKey)} (h : ms.map memKey = (n, .fn) :: l) :
    ∃ f rest, ms = (n, .fn f) :: rest ∧ rest.map memKey = l := by
  obtain ⟨x, rest, rfl, hx, hr⟩ := mem_cons h
  cases x <;> simp [Mem.key] at hx
  exact ⟨_, _, rfl, hr⟩
theorem mem_attr {ms : List (Nat × Mem)} {n : Nat} {l : List (Nat × MemKey)} (h : ms.map memKey = (n, .attr) :: l) :
    ∃ f rest, ms = (n, .attr f) :: rest ∧ rest.map memKey = l := by
  obtain ⟨x, rest, rfl, hx, hr⟩ := mem_cons h
  cases x <;> simp [Mem.key] at hx
  exact ⟨_, _, rfl, hr⟩

/-- The function under a name. -/
def fnOf (n : Nat) : Option Scope → Option Fn
  | none => none
  | some defs => match find? n defs with
    | some (.fn f) => some f
    | _ => none

/-- The value under a name. -/
def valueOf (n : Nat) : Option Scope → Option Expr
  | none => none
  | some defs => match find? n defs with
    | some (.value e) => some e
    | _ => none

/-- The exception class under a name: how it is made and shown. -/
def excAt (n : Nat) : Option Scope → Option ((ExcClass → Fn) × Fn)
  | none => none
  | some defs => match find? n defs with
    | some (.exc _ init str) => some (init, str)
    | _ => none

/-- The member of a class. -/
def memOf (c n : Nat) : Option Scope → Option Mem
  | none => none
  | some defs => match find? c defs with
    | some (.cls _ ms) => find? n ms
    | _ => none

end Bip38.SrcX.Text
