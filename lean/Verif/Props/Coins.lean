import Verif.Model.Bip38
import Verif.Spec.Base58
import Verif.Spec.Coin
/-!
# Property C36: every class of the coin table is usable
-/
namespace Bip38.Props
open Bip38 Spec

/-- What a usable entry of the coin table looks like. -/
structure UsableCoin (c : Coin) : Prop where
  mainnet : "mainnet" ∈ c.networkNames
  distinct : c.networkNames.Nodup
  prefixes : ∀ e ∈ c.networks, e.2.wifPrefix < 256 ∧ e.2.addressPrefix < 65536
  alphabet : ∀ a, c.alphabet = some a → ValidAlphabet a ∧ a.length = 58

def usableCheck (c : Coin) : Bool :=
  decide ("mainnet" ∈ c.networkNames) && decide c.networkNames.Nodup
    && c.networks.all (fun e => decide (e.2.wifPrefix < 256) && decide (e.2.addressPrefix < 65536))
    && (match c.alphabet with
        | none => true
        | some a => decide (a.length = 58) && decide a.Nodup && a.all (fun c => decide (c.toNat < 128)))

theorem usableCheck_sound (c : Coin) (h : usableCheck c = true) : UsableCoin c := by
  unfold usableCheck at h
  simp only [Bool.and_eq_true, decide_eq_true_eq, List.all_eq_true] at h
  obtain ⟨⟨⟨h1, h2⟩, h3⟩, h4⟩ := h
  refine ⟨h1, h2, h3, ?_⟩
  intro a ha
  rw [ha] at h4
  simp only [Bool.and_eq_true, decide_eq_true_eq, List.all_eq_true] at h4
  exact ⟨⟨by omega, h4.1.2, h4.2⟩, h4.1.1⟩

theorem all_check : Coins.all.all usableCheck = true := by decide +kernel

/-- C36: every listed cryptocurrency is usable. -/
theorem C36_table (c : Coin) (h : c ∈ Coins.all) : UsableCoin c :=
  usableCheck_sound c (List.all_eq_true.mp all_check c h)

/-- C36: every listed cryptocurrency is a proper coin, the hypothesis of the theorems about WIF texts and `BIP38` objects. -/
theorem C36_proper (c : Coin) (h : c ∈ Coins.all) : ProperCoin c := ⟨(C36_table c h).distinct⟩

/-- C36: the constructor succeeds for every listed coin with the default network, and with each network it lists. -/
theorem C36_constructs (c : Coin) (h : c ∈ Coins.all) :
    (∃ b, BIP38.new (.coin c) = .ok b ∧ b.cryptocurrency = c ∧ b.network = "mainnet") ∧
    ∀ n ∈ c.networkNames, ∃ b, BIP38.new (.coin c) n = .ok b ∧ b.cryptocurrency = c ∧ b.network = n
      ∧ b.networks = c.networkNames := by
  have hu := C36_table c h
  have : ∀ n ∈ c.networkNames, ∃ b, BIP38.new (.coin c) n = .ok b ∧ b.cryptocurrency = c ∧ b.network = n
      ∧ b.networks = c.networkNames := by
    intro n hn
    simp [BIP38.new, raiseIf, hn, bind, Except.bind]
  refine ⟨?_, this⟩
  obtain ⟨b, h1, h2, h3, _⟩ := this "mainnet" hu.mainnet
  exact ⟨b, h1, h2, h3⟩

theorem lookup_of_mem (l : List (String × Net)) (hn : (l.map (·.1)).Nodup) (n : String) (v : Net) (h : (n, v) ∈ l) :
    l.lookup n = some v := by
  induction l with
  | nil => simp at h
  | cons e l ih =>
    obtain ⟨m, w⟩ := e
    rw [List.map_cons, List.nodup_cons] at hn
    rw [List.lookup_cons]
    simp only [List.mem_cons, Prod.mk.injEq] at h
    rcases h with ⟨rfl, rfl⟩ | h
    · simp
    · have hne : n ≠ m := by
        rintro rfl
        exact hn.1 (List.mem_map.mpr ⟨(n, v), h, rfl⟩)
      have : (n == m) = false := by simpa using hne
      rw [this]
      exact ih hn.2 h

theorem mem_of_lookup (l : List (String × Net)) (n : String) (v : Net) (h : l.lookup n = some v) : (n, v) ∈ l := by
  induction l with
  | nil => simp at h
  | cons e l ih =>
    obtain ⟨m, w⟩ := e
    rw [List.lookup_cons] at h
    split at h
    · rename_i he
      have : n = m := by simpa using he
      subst this
      simp at h; subst h; simp
    · exact List.mem_cons_of_mem _ (ih h)

/-- C36: looking up a network gives the prefixes listed for it, and only listed networks are found. -/
theorem C36_lookup (c : Coin) (h : ProperCoin c) (n : String) (v : Net) : c.net? n = some v ↔ (n, v) ∈ c.networks :=
  ⟨mem_of_lookup _ n v, lookup_of_mem _ h.distinct n v⟩

/-- C36: in the library every WIF prefix is one byte, every address prefix one or two. -/
theorem C36_prefixes (c : Coin) (h : c ∈ Coins.all) (n : String) (v : Net) (hn : c.net? n = some v) :
    v.wifPrefix < 256 ∧ v.addressPrefix < 65536 :=
  (C36_table c h).prefixes _ ((C36_lookup c (C36_proper c h) n v).mp hn)

/-- C36: class names are distinct, so the table has one entry per class. -/
theorem C36_names_distinct : (Coins.all.map (·.name)).Nodup := by decide +kernel

example : Coins.Bitcoin ∈ Coins.all ∧ Coins.Bitcoin.net? "testnet" = some ⟨0xef, 0x6f⟩ ∧ Coins.all.length = 155 := by
  decide +kernel

end Bip38.Props
