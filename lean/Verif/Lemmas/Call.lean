import Verif.Spec.Call
import Verif.Src.Lemmas
/-!
# Lemmas about calls of the text
-/
namespace Bip38.Spec

open Bip38 Src

theorem getField_some {kw : List (Name × Val)} (hk : (kw.map Prod.fst).Nodup) {n : Name} {v : Val} : getField kw n = some v ↔ (n, v) ∈ kw := by
  induction kw with
  | nil => simp [getField]
  | cons a rest ih =>
    obtain ⟨m, w⟩ := a
    simp only [List.map_cons, List.nodup_cons] at hk
    unfold getField
    by_cases h : m = n
    · subst h
      simp only [if_true, List.mem_cons]
      constructor
      · rintro ⟨⟩; exact Or.inl rfl
      · rintro (h | h)
        · injection h with _ h; rw [h]
        · exact absurd (List.mem_map_of_mem (f := Prod.fst) h) hk.1
    · rw [if_neg h, ih hk.2]
      simp only [List.mem_cons]
      constructor
      · exact Or.inr
      · rintro (h' | h')
        · injection h' with h1; exact absurd h1.symm h
        · exact h'

theorem getField_none {kw : List (Name × Val)} (hk : (kw.map Prod.fst).Nodup) {n : Name} : getField kw n = none ↔ ∀ v, (n, v) ∉ kw := by
  constructor
  · intro h v hv
    rw [(getField_some hk).2 hv] at h
    cases h
  · intro h
    cases hg : getField kw n with
    | none => rfl
    | some v => exact absurd ((getField_some hk).1 hg) (h v)

theorem mem_eraseKw {kw : List (Name × Val)} (hk : (kw.map Prod.fst).Nodup) {n m : Name} {v : Val} :
    (m, v) ∈ eraseKw kw n ↔ m ≠ n ∧ (m, v) ∈ kw := by
  induction kw with
  | nil => simp [eraseKw]
  | cons a rest ih =>
    obtain ⟨k, w⟩ := a
    simp only [List.map_cons, List.nodup_cons] at hk
    unfold eraseKw
    by_cases h : k = n
    · subst h
      simp only [if_true, List.mem_cons]
      constructor
      · intro hm
        refine ⟨?_, Or.inr hm⟩
        rintro rfl
        exact hk.1 (List.mem_map_of_mem (f := Prod.fst) hm)
      · rintro ⟨h1, h2 | h2⟩
        · injection h2 with h2; exact absurd h2 h1
        · exact h2
    · rw [if_neg h]
      simp only [List.mem_cons, ih hk.2]
      constructor
      · rintro (h1 | h1)
        · injection h1 with h2 h3
          exact ⟨by rw [h2]; exact h, Or.inl (by rw [h2, h3])⟩
        · exact ⟨h1.1, Or.inr h1.2⟩
      · rintro ⟨h1, h2 | h2⟩
        · exact Or.inl h2
        · exact Or.inr ⟨h1, h2⟩

theorem eraseKw_sublist (kw : List (Name × Val)) (n : Name) : (eraseKw kw n).Sublist kw := by
  induction kw with
  | nil => exact List.Sublist.slnil
  | cons a rest ih =>
    obtain ⟨k, w⟩ := a
    unfold eraseKw
    by_cases h : k = n
    · rw [if_pos h]; exact List.sublist_cons_self _ _
    · rw [if_neg h]; exact ih.cons_cons _

theorem eraseKw_nodup {kw : List (Name × Val)} (hk : (kw.map Prod.fst).Nodup) (n : Name) : ((eraseKw kw n).map Prod.fst).Nodup :=
  hk.sublist ((eraseKw_sublist kw n).map _)

/-- The parameters, as written in the text. -/
def params (sig : Signature) : List Param := sig.map fun s => ⟨s.1, s.2.map fun v => (pure v : Run Val)⟩

theorem bind_params (sig : Signature) (hs : (sig.map Prod.fst).Nodup) (args : List Val) (kw : List (Name × Val)) (hk : (kw.map Prod.fst).Nodup) :
    (∃ full, Binds sig args kw full ∧ ∀ env, bindParams none (params sig) args kw env = bindParams none (params sig) full [] env) ∨
    ((¬ ∃ full, Binds sig args kw full) ∧ ∃ m, ∀ env, bindParams none (params sig) args kw env = Run.raise .typeError m) := by
  induction sig generalizing args kw with
  | nil =>
    cases args with
    | nil =>
      cases kw with
      | nil => exact Or.inl ⟨[], ⟨by simp, by simp, by simp, by simp, by simp, by simp⟩, fun _ => rfl⟩
      | cons a rest =>
        refine Or.inr ⟨?_, _, fun _ => rfl⟩
        rintro ⟨full, h⟩
        have := h.names a.1 a.2 (by simp)
        simp at this
    | cons a rest =>
      refine Or.inr ⟨?_, _, fun _ => rfl⟩
      rintro ⟨full, h⟩
      have := h.few
      simp at this
  | cons p sig ih =>
    obtain ⟨n, d⟩ := p
    simp only [List.map_cons, List.nodup_cons] at hs
    cases args with
    | cons a args =>
      cases hg : getField kw n with
      | some v =>
        refine Or.inr ⟨?_, "multiple values for argument", fun env => ?_⟩
        · rintro ⟨full, h⟩
          have := h.names n v ((getField_some hk).1 hg)
          simp only [List.length_cons, List.drop_succ_cons] at this
          exact hs.1 (((List.drop_sublist _ _).map _).subset this)
        · show bindParams none (⟨n, _⟩ :: params sig) (a :: args) kw env = _
          rw [bindParams, hg]
      | none =>
        have hn := (getField_none hk).1 hg
        rcases ih hs.2 args kw hk with ⟨full, hb, he⟩ | ⟨hb, m, he⟩
        · refine Or.inl ⟨a :: full, ⟨?_, ?_, ?_, ?_, ?_, ?_⟩, fun env => ?_⟩
          · simpa using hb.few
          · simpa using hb.length
          · simpa using hb.names
          · rintro (_ | i) hi
            · rfl
            · simpa using hb.positional i (by simpa using hi)
          · rintro (_ | i) m e hi hm v hv
            · simp at hi
            · simpa using hb.keyword i m e (by simpa using hi) (by simpa using hm) v hv
          · rintro (_ | i) m e hi hm hv
            · simp at hi
            · simpa using hb.default i m e (by simpa using hi) (by simpa using hm) hv
          · show bindParams none (⟨n, _⟩ :: params sig) (a :: args) kw env = bindParams none (params sig) full [] (env.set n a)
            rw [bindParams, hg]
            exact he _
        · refine Or.inr ⟨?_, m, fun env => ?_⟩
          · rintro ⟨full, h⟩
            apply hb
            cases full with
            | nil => have := h.length; simp at this
            | cons b full =>
              refine ⟨full, ?_, ?_, ?_, ?_, ?_, ?_⟩
              · simpa using h.few
              · simpa using h.length
              · simpa using h.names
              · intro i hi
                simpa using h.positional (i + 1) (by simpa using hi)
              · intro i m e hi hm v hv
                simpa using h.keyword (i + 1) m e (by simpa using hi) (by simpa using hm) v hv
              · intro i m e hi hm hv
                simpa using h.default (i + 1) m e (by simpa using hi) (by simpa using hm) hv
          · show bindParams none (⟨n, _⟩ :: params sig) (a :: args) kw env = _
            rw [bindParams, hg]
            exact he _
    | nil =>
      cases hg : getField kw n with
      | some v =>
        have hv := (getField_some hk).1 hg
        have hk' := eraseKw_nodup hk n
        rcases ih hs.2 [] (eraseKw kw n) hk' with ⟨full, hb, he⟩ | ⟨hb, m, he⟩
        · refine Or.inl ⟨v :: full, ⟨?_, ?_, ?_, ?_, ?_, ?_⟩, fun env => ?_⟩
          · simp
          · simpa using hb.length
          · intro m w hm
            by_cases h : m = n
            · simp [h]
            · have := hb.names m w ((mem_eraseKw hk).2 ⟨h, hm⟩)
              simp only [List.length_nil, List.drop_zero] at this
              simp [this]
          · simp
          · rintro (_ | i) m e - hm w hw
            · simp only [List.getElem?_cons_zero, Option.some.injEq, Prod.mk.injEq] at hm
              obtain ⟨rfl, rfl⟩ := hm
              have h2 := (getField_some hk).2 hw
              rw [hg] at h2
              simpa using h2
            · simp only [List.getElem?_cons_succ] at hm ⊢
              refine hb.keyword i m e (by simp) hm w ((mem_eraseKw hk).2 ⟨?_, hw⟩)
              rintro rfl
              exact hs.1 (List.mem_map_of_mem (f := Prod.fst) (List.mem_of_getElem? hm))
          · rintro (_ | i) m e - hm hw
            · simp only [List.getElem?_cons_zero, Option.some.injEq, Prod.mk.injEq] at hm
              obtain ⟨rfl, rfl⟩ := hm
              exact absurd hv (hw v)
            · simp only [List.getElem?_cons_succ] at hm ⊢
              exact hb.default i m e (by simp) hm fun w hw' => hw w ((mem_eraseKw hk).1 hw').2
          · show bindParams none (⟨n, _⟩ :: params sig) [] kw env = bindParams none (params sig) full [] (env.set n v)
            rw [bindParams, hg]
            exact he _
        · refine Or.inr ⟨?_, m, fun env => ?_⟩
          · rintro ⟨full, h⟩
            apply hb
            cases full with
            | nil => have := h.length; simp at this
            | cons b full =>
              refine ⟨full, ?_, ?_, ?_, ?_, ?_, ?_⟩
              · simp
              · simpa using h.length
              · intro m w hm
                obtain ⟨h1, h2⟩ := (mem_eraseKw hk).1 hm
                have := h.names m w h2
                simp only [List.length_nil, List.drop_zero, List.map_cons, List.mem_cons] at this
                rcases this with this | this
                · exact absurd this h1
                · simpa using this
              · simp
              · intro i m e _ hm w hw
                simpa using h.keyword (i + 1) m e (by simp) (by simpa using hm) w ((mem_eraseKw hk).1 hw).2
              · intro i m e _ hm hw
                have hmn : m ≠ n := by
                  rintro rfl
                  exact hs.1 (List.mem_map_of_mem (f := Prod.fst) (List.mem_of_getElem? hm))
                simpa using h.default (i + 1) m e (by simp) (by simpa using hm) fun w hw' => hw w ((mem_eraseKw hk).2 ⟨hmn, hw'⟩)
          · show bindParams none (⟨n, _⟩ :: params sig) [] kw env = _
            rw [bindParams, hg]
            exact he _
      | none =>
        have hn := (getField_none hk).1 hg
        cases d with
        | none =>
          refine Or.inr ⟨?_, "missing argument", fun env => ?_⟩
          · rintro ⟨full, h⟩
            exact (h.default 0 n none (by simp) rfl hn).1 rfl
          · show bindParams none (⟨n, _⟩ :: params sig) [] kw env = _
            rw [bindParams, hg]
            rfl
        | some d =>
          rcases ih hs.2 [] kw hk with ⟨full, hb, he⟩ | ⟨hb, m, he⟩
          · refine Or.inl ⟨d :: full, ⟨?_, ?_, ?_, ?_, ?_, ?_⟩, fun env => ?_⟩
            · simp
            · simpa using hb.length
            · intro m w hm
              have := hb.names m w hm
              simp only [List.length_nil, List.drop_zero] at this
              simp [this]
            · simp
            · rintro (_ | i) m e - hm w hw
              · simp only [List.getElem?_cons_zero, Option.some.injEq, Prod.mk.injEq] at hm
                obtain ⟨rfl, rfl⟩ := hm
                exact absurd hw (hn w)
              · simp only [List.getElem?_cons_succ] at hm ⊢
                exact hb.keyword i m e (by simp) hm w hw
            · rintro (_ | i) m e - hm hw
              · simp only [List.getElem?_cons_zero, Option.some.injEq, Prod.mk.injEq] at hm
                obtain ⟨rfl, rfl⟩ := hm
                exact ⟨by simp, rfl⟩
              · simp only [List.getElem?_cons_succ] at hm ⊢
                exact hb.default i m e (by simp) hm hw
            · show bindParams none (⟨n, _⟩ :: params sig) [] kw env = bindParams none (params sig) full [] (env.set n d)
              rw [bindParams, hg]
              exact he _
          · refine Or.inr ⟨?_, m, fun env => ?_⟩
            · rintro ⟨full, h⟩
              apply hb
              cases full with
              | nil => have := h.length; simp at this
              | cons b full =>
                refine ⟨full, ?_, ?_, ?_, ?_, ?_, ?_⟩
                · simp
                · simpa using h.length
                · intro m w hm
                  have := h.names m w hm
                  simp only [List.length_nil, List.drop_zero, List.map_cons, List.mem_cons] at this
                  rcases this with this | this
                  · subst this
                    exact absurd hm (hn w)
                  · simpa using this
                · simp
                · intro i m e _ hm w hw
                  simpa using h.keyword (i + 1) m e (by simp) (by simpa using hm) w hw
                · intro i m e _ hm hw
                  simpa using h.default (i + 1) m e (by simp) (by simpa using hm) hw
            · show bindParams none (⟨n, _⟩ :: params sig) [] kw env = _
              rw [bindParams, hg]
              exact he _

theorem defun_calledAs (sig : Signature) (hs : (sig.map Prod.fst).Nodup) (body : List Stmt) : CalledAs (defun (params sig) none body) sig := by
  intro args kw hk
  rcases bind_params sig hs args kw hk with ⟨full, hb, he⟩ | ⟨hb, m, he⟩
  · exact Or.inl ⟨full, hb, by rw [defun_eq, defun_eq, he]⟩
  · refine Or.inr ⟨hb, m, ?_⟩
    rw [defun_eq, he]
    rfl

theorem defclass_calledAs (c : Cls) (sig : Signature) (hs : (sig.map Prod.fst).Nodup) (body : List Stmt) :
    CalledAs (defclass c (params sig) body) sig := by
  intro args kw hk
  rcases bind_params sig hs args kw hk with ⟨full, hb, he⟩ | ⟨hb, m, he⟩
  · exact Or.inl ⟨full, hb, by rw [defclass_eq, defclass_eq, he]⟩
  · refine Or.inr ⟨hb, m, ?_⟩
    rw [defclass_eq, he]
    rfl

/-- A call with positional arguments and defaults: the values of the parameters are unique. -/
theorem Binds.unique {sig : Signature} {args : List Val} {kw : List (Name × Val)} {f g : List Val} (hf : Binds sig args kw f)
    (hg : Binds sig args kw g) : f = g := by
  apply List.ext_getElem?
  intro i
  by_cases hi : i < args.length
  · rw [hf.positional i hi, hg.positional i hi]
  · rw [not_lt] at hi
    cases hs : sig[i]? with
    | none =>
      rw [List.getElem?_eq_none_iff] at hs
      rw [List.getElem?_eq_none (by rw [hf.length]; exact hs), List.getElem?_eq_none (by rw [hg.length]; exact hs)]
    | some p =>
      obtain ⟨n, d⟩ := p
      by_cases h : ∃ v, (n, v) ∈ kw
      · obtain ⟨v, hv⟩ := h
        rw [hf.keyword i n d hi hs v hv, hg.keyword i n d hi hs v hv]
      · have h' : ∀ v, (n, v) ∉ kw := fun v hv => h ⟨v, hv⟩
        rw [(hf.default i n d hi hs h').2, (hg.default i n d hi hs h').2]

end Bip38.Spec
