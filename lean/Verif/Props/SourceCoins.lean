import Verif.Src.Cryptocurrencies
import Verif.Src.Builtin
/-!
# C97: the text of `cryptocurrencies.py`
-/
namespace Bip38.Props
open Bip38 Src

/-! ## Comparing values made of numbers, texts, `None` and dictionaries -/

mutual
/-- Equality of such values, computed. -/
def sameVal : Val → Val → Bool
  | .none, .none => true
  | .int a, .int b => a == b
  | .str a, .str b => a == b
  | .dict a, .dict b => sameDict a b
  | _, _ => false
def sameDict : List (Str × Val) → List (Str × Val) → Bool
  | [], [] => true
  | (k, v) :: a, (l, w) :: b => k == l && sameVal v w && sameDict a b
  | _, _ => false
end

mutual
theorem eq_of_sameVal : ∀ (a b : Val), sameVal a b = true → a = b
  | .none, b, h => by cases b <;> first | rfl | (simp [sameVal] at h)
  | .int a, b, h => by cases b <;> simp [sameVal] at h; rw [h]
  | .str a, b, h => by cases b <;> simp [sameVal] at h; rw [h]
  | .dict a, b, h => by
    cases b <;> simp [sameVal] at h
    rename_i b
    rw [eq_of_sameDict a b h]
  | .bool _, b, h | .bytes _, b, h | .bytearray _, b, h | .list _, b, h | .tuple _, b, h | .kwargs _, b, h | .obj _ _, b, h
  | .type _, b, h | .coin _, b, h | .typing _, b, h | .hash _, b, h | .aes _, b, h | .jacobi _, b, h | .affine _ _, b, h
  | .verifyingKey _, b, h | .pubkey _, b, h | .signingKey _, b, h | .curve, b, h => by simp [sameVal] at h
theorem eq_of_sameDict : ∀ (a b : List (Str × Val)), sameDict a b = true → a = b
  | [], b, h => by cases b <;> first | rfl | (simp [sameDict] at h)
  | (k, v) :: a, [], h => by simp [sameDict] at h
  | (k, v) :: a, (l, w) :: b, h => by
    simp only [sameDict, Bool.and_eq_true, beq_iff_eq] at h
    rw [h.1.1, eq_of_sameVal v w h.1.2, eq_of_sameDict a b h.2]
end

def sameRun : Run Val → Run Val → Bool
  | some (.ok v), some (.ok w) => sameVal v w
  | _, _ => false

theorem eq_of_sameRun {a b : Run Val} (h : sameRun a b = true) : a = b := by
  unfold sameRun at h
  split at h
  · rw [eq_of_sameVal _ _ h]
  · cases h

/-! ## The table -/

/-- The classes of the module are the interface and the classes of the model's table, in that order, no name twice. -/
theorem C97_classes : cryptocurrencies.map (·.name) = "ICryptocurrency" :: Coins.all.map (·.name) ∧
    (cryptocurrencies.map (·.name)).Nodup := by decide +kernel

/-- The attributes of every class, found as Python finds them (own body, else the base class), are those that the text of the functions is
given (C81–C95: `cryptocurrency.NETWORKS`, `cryptocurrency.ALPHABET`). -/
theorem C97_attributes (c : Coin) (h : c ∈ Coins.all) :
    classAttr cryptocurrencies 2 c.name "NETWORKS" = pyAttr (.coin (.coin c)) v!"NETWORKS" ∧
    classAttr cryptocurrencies 2 c.name "ALPHABET" = pyAttr (.coin (.coin c)) v!"ALPHABET" := by
  have all : Coins.all.all (fun c =>
      sameRun (classAttr cryptocurrencies 2 c.name "NETWORKS") (pyAttr (.coin (.coin c)) v!"NETWORKS") &&
      sameRun (classAttr cryptocurrencies 2 c.name "ALPHABET") (pyAttr (.coin (.coin c)) v!"ALPHABET")) = true := by decide +kernel
  have := List.all_eq_true.mp all c h
  simp only [Bool.and_eq_true] at this
  exact ⟨eq_of_sameRun this.1, eq_of_sameRun this.2⟩

/-- `ICryptocurrency` itself has no networks (asking for them raises `AttributeError`) and no alphabet of its own. -/
theorem C97_base : (∃ e, classAttr cryptocurrencies 2 "ICryptocurrency" "NETWORKS" = some (.error e) ∧ e.cls = .attributeError ∧
      pyAttr (.coin .base) v!"NETWORKS" = some (.error e)) ∧
    classAttr cryptocurrencies 2 "ICryptocurrency" "ALPHABET" = pyAttr (.coin .base) v!"ALPHABET" :=
  ⟨⟨_, rfl, rfl, rfl⟩, rfl⟩

/-- Every class of the module is a subclass of `ICryptocurrency`, as the constructor of `BIP38` demands. -/
theorem C97_subclass (c : Coin) (h : c ∈ Coins.all) :
    classBelow cryptocurrencies 2 c.name "ICryptocurrency" = true ∧
    pyIssubclass [.coin (.coin c), .coin .base] [] = pure (.bool true) := by
  have all : ∀ c ∈ Coins.all, classBelow cryptocurrencies 2 c.name "ICryptocurrency" = true := by decide +kernel
  exact ⟨all c h, rfl⟩

/-! ## Classes of the user -/

theorem findClass_fresh {cs : List ClassText} {u : ClassText} {n : String} (h : n ≠ u.name) : findClass (cs ++ [u]) n = findClass cs n := by
  have : (u.name == n) = false := by simpa using fun e => h e.symm
  simp [findClass, this]

theorem findClass_own {cs : List ClassText} {u : ClassText} : findClass (cs ++ [u]) u.name = some u := by simp [findClass]

/-- A class statement with a new name does not change the attributes of the classes there are. -/
theorem C97_others {cs : List ClassText} {u : ClassText} (hb : ∀ c ∈ cs, u.name ∉ c.bases) (n : String) :
    ∀ (k : Nat) (cls : String), cls ≠ u.name → classAttr (cs ++ [u]) k cls n = classAttr cs k cls n
  | 0, _, _ => rfl
  | k + 1, cls, hc => by
    unfold classAttr
    rw [findClass_fresh hc]
    cases h : findClass cs cls with
    | none => rfl
    | some c =>
      have hmem : c ∈ cs := List.mem_reverse.mp (List.mem_of_find?_eq_some h)
      cases ha : c.assigned n with
      | some e => simp only [ha]
      | none =>
        cases hbs : c.bases with
        | nil => simp only [ha, hbs]
        | cons b rest =>
          cases rest with
          | cons _ _ => simp only [ha, hbs]
          | nil =>
            have : b ≠ u.name := fun e => hb c hmem (by rw [hbs, e]; exact List.mem_singleton_self _)
            simp only [ha, hbs]
            exact C97_others hb n k b this

/-- A user's class derived from a class of the table, under a new name: what its body assigns last is its attribute, and what its body does
not assign it has from the class of the table; so a class that only assigns `NETWORKS` has the alphabet of its base. -/
theorem C97_derived (u : ClassText) (c : Coin) (h : c ∈ Coins.all) (hb : u.bases = [c.name])
    (hn : ∀ t ∈ cryptocurrencies, u.name ≠ t.name ∧ u.name ∉ t.bases) (n : String) :
    classAttr (cryptocurrencies ++ [u]) 3 u.name n =
      (match u.assigned n with
        | some e => e Env.empty
        | none => classAttr cryptocurrencies 2 c.name n) ∧
    classBelow (cryptocurrencies ++ [u]) 3 u.name "ICryptocurrency" = true ∧
    (u.assigned "ALPHABET" = none → classAttr (cryptocurrencies ++ [u]) 3 u.name "ALPHABET" = pure (alphabetVal c)) := by
  have hc : c.name ≠ u.name := fun e => by
    have : c.name ∈ cryptocurrencies.map (·.name) := by
      rw [C97_classes.1]; exact List.mem_cons_of_mem _ (List.mem_map_of_mem h)
    obtain ⟨t, ht, e'⟩ := List.mem_map.mp this
    exact (hn t ht).1 (e'.trans e).symm
  have key : ∀ n, classAttr (cryptocurrencies ++ [u]) 3 u.name n =
      (match u.assigned n with
        | some e => e Env.empty
        | none => classAttr cryptocurrencies 2 c.name n) := fun n => by
    conv_lhs => unfold classAttr
    rw [findClass_own]
    simp only [hb]
    cases u.assigned n with
    | some e => rfl
    | none => exact C97_others (fun t ht => (hn t ht).2) n 2 c.name hc
  refine ⟨key n, ?_, fun ha => ?_⟩
  · have hI : ("ICryptocurrency" : String) ≠ u.name := fun e =>
      (hn class_ICryptocurrency_L12 List.mem_cons_self).1 e.symm
    have hsub := (C97_subclass c h).1
    have same : ∀ (k : Nat) (cls : String), cls ≠ u.name →
        classBelow (cryptocurrencies ++ [u]) k cls "ICryptocurrency" = classBelow cryptocurrencies k cls "ICryptocurrency" := by
      intro k
      induction k with
      | zero => intros; rfl
      | succ k ih =>
        intro cls hcls
        unfold classBelow
        rw [findClass_fresh hcls]
        cases hf : findClass cryptocurrencies cls with
        | none => rfl
        | some t =>
          have hmem : t ∈ cryptocurrencies := List.mem_reverse.mp (List.mem_of_find?_eq_some hf)
          simp only
          congr 1
          rw [Bool.eq_iff_iff, List.any_eq_true, List.any_eq_true]
          constructor
          · rintro ⟨b, h1, h2⟩
            exact ⟨b, h1, by rwa [ih b (fun e => (hn t hmem).2 (e ▸ h1))] at h2⟩
          · rintro ⟨b, h1, h2⟩
            exact ⟨b, h1, by rwa [ih b (fun e => (hn t hmem).2 (e ▸ h1))]⟩
    unfold classBelow
    rw [findClass_own]
    simp only [hb, List.any_cons, List.any_nil, Bool.or_false]
    rw [same 2 c.name hc, hsub, Bool.or_true]
  · rw [key, ha]
    exact (C97_attributes c h).2

/-- A class of a user: Bitcoin's signet. -/
example : ∃ u : ClassText, u.bases = ["Bitcoin"] ∧ u.assigned "ALPHABET" = none ∧
    (∀ t ∈ cryptocurrencies, u.name ≠ t.name ∧ u.name ∉ t.bases) ∧ Coins.Bitcoin ∈ Coins.all :=
  ⟨⟨"Signet", ["Bitcoin"], [("NETWORKS", eDict [("mainnet", eDict [("wif_prefix", eConst (.int 0xef)), ("address_prefix", eConst (.int 0x6f))])])]⟩,
    rfl, rfl, by decide +kernel, by decide +kernel⟩

end Bip38.Props
