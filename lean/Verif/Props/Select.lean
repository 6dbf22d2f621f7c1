import Verif.Props.Decrypt
/-!
# Properties C24, C25: selection of the network, and the passphrase
-/
namespace Bip38.Props
open Bip38 Spec

variable {P : Prims}

/-! ## C24 -/

/-- C24: the constructor succeeds exactly for the networks of the coin, and then uses that network by default. -/
theorem C24_constructor_iff (c : Coin) (n : String) :
    (∃ obj, BIP38.new (.coin c) n = .ok obj ∧ obj.network = n ∧ obj.cryptocurrency = c) ↔ ∃ v, (n, v) ∈ c.networks := by
  have hm : n ∈ c.networkNames ↔ ∃ v, (n, v) ∈ c.networks := by
    simp [Coin.networkNames]
  rw [← hm]
  constructor
  · rintro ⟨obj, h, _⟩
    exact (new_ok_iff h).1
  · intro h
    cases hb : BIP38.new (.coin c) n with
    | ok obj => exact ⟨obj, rfl, (new_ok_iff hb).2.2.2, (new_ok_iff hb).2.1⟩
    | error x =>
      unfold BIP38.new at hb
      simp only at hb
      rw [py_bind (not_raise (not_not.mpr h))] at hb
      simp at hb

theorem wrongNetwork_eq (ns : List String) (h : ns ≠ []) : wrongNetwork ns = unknownNetwork ns := errText_list _ _ _ h

/-- C24: all failures of the constructor. The text of the error for an unknown network names the networks of the coin. -/
theorem C24_constructor_errors (n : String) :
    (∀ c : Coin, (∀ v, (n, v) ∉ c.networks) → BIP38.new (.coin c) n = .error ⟨.networkError,
      if c.networks = [] then "Wrong network type" else unknownNetwork (c.networks.map Prod.fst)⟩) ∧
    BIP38.new .otherClass n = .error ⟨.cryptocurrencyError, report "Invalid cryptocurrency sub-class"
      "typing.Type[bip38.cryptocurrencies.ICryptocurrency]" "<class 'type'>"⟩ ∧
    (∃ x, BIP38.new .notAClass n = .error x ∧ x.cls = .typeError) ∧
    (∃ x, BIP38.new .base n = .error x ∧ x.cls = .attributeError) := by
  refine ⟨fun c h => ?_, ?_, ⟨_, rfl, rfl⟩, ⟨_, rfl, rfl⟩⟩
  swap
  · rw [← errText_one]; rfl
  have hm : n ∉ c.networkNames := by
    intro hn
    obtain ⟨⟨n', v⟩, hv, rfl⟩ := List.mem_map.mp hn
    exact h v hv
  unfold BIP38.new
  simp only
  rw [py_bind_err (do_raise hm)]
  by_cases he : c.networks = []
  · have hn : c.networkNames = [] := by simp [Coin.networkNames, he]
    rw [if_pos he, hn]
    rfl
  · have hn : c.networkNames ≠ [] := by simpa [Coin.networkNames] using he
    rw [if_neg he, wrongNetwork_eq _ hn]
    rfl

/-- The network a call works on: the argument if it is given and not empty, else the one of the constructor. -/
def chosenNetwork (obj : BIP38) (network : Option String) : String :=
  match network with
  | none => obj.network
  | some n => if n = "" then obj.network else n

theorem chosen_eq (obj : BIP38) (network : Option String) : obj.selectNetwork network = chosenNetwork obj network := by
  cases network <;> rfl

/-- C24: a network the coin does not have makes all four methods raise `NetworkError`, whatever the other arguments; the text names
the networks of the coin. -/
theorem C24_unknown_network (c : Coin) (n0 : String) (obj : BIP38) (hb : BIP38.new (.coin c) n0 = .ok obj) (network : Option String)
    (hn : ∀ v, (chosenNetwork obj network, v) ∉ c.networks) :
    (∀ w pass, obj.encrypt P w pass network = .error ⟨.networkError, unknownNetwork (c.networks.map Prod.fst)⟩) ∧
    (∀ e pass detail, obj.decrypt P e pass network detail = .error ⟨.networkError, unknownNetwork (c.networks.map Prod.fst)⟩) ∧
    (∀ pass code detail, obj.confirmCode P pass code network detail
      = .error ⟨.networkError, unknownNetwork (c.networks.map Prod.fst)⟩) ∧
    (∀ it type seed u, obj.createNewEncryptedWif P it type seed network u
      = .error ⟨.networkError, unknownNetwork (c.networks.map Prod.fst)⟩) := by
  have hne : c.networks.map Prod.fst ≠ [] := List.ne_nil_of_mem (new_ok_iff hb).1
  have hnet : obj.networks = c.networks.map Prod.fst := (new_ok_iff hb).2.2.1
  have hsel := chosen_eq obj network
  have hm : obj.selectNetwork network ∉ obj.networks := by
    rw [(new_ok_iff hb).2.2.1, hsel]
    intro h
    obtain ⟨⟨n', v⟩, hv, he⟩ := List.mem_map.mp h
    exact hn v (by rw [← he]; exact hv)
  rw [← wrongNetwork_eq _ hne, ← hnet]
  refine ⟨fun w pass => ?_, fun e pass detail => ?_, fun pass code detail => ?_, fun it type seed u => ?_⟩
  · unfold BIP38.encrypt; simp only; rw [py_bind_err (do_raise hm)]
  · unfold BIP38.decrypt; simp only; rw [py_bind_err (do_raise hm)]
  · unfold BIP38.confirmCode; simp only; rw [py_bind_err (do_raise hm)]
  · unfold BIP38.createNewEncryptedWif; simp only; rw [py_bind_err (do_raise hm)]

/-- C24: two arguments that choose the same network give the same results; in particular `None`, the empty string and the name of the
network of the constructor are interchangeable. -/
theorem C24_same_choice (obj : BIP38) (a b : Option String) (h : chosenNetwork obj a = chosenNetwork obj b) :
    (∀ w pass, obj.encrypt P w pass a = obj.encrypt P w pass b) ∧
    (∀ e pass detail, obj.decrypt P e pass a detail = obj.decrypt P e pass b detail) ∧
    (∀ pass code detail, obj.confirmCode P pass code a detail = obj.confirmCode P pass code b detail) ∧
    (∀ it type seed u, obj.createNewEncryptedWif P it type seed a u = obj.createNewEncryptedWif P it type seed b u) := by
  have hsel : obj.selectNetwork a = obj.selectNetwork b := by rw [chosen_eq, chosen_eq, h]
  refine ⟨fun w pass => ?_, fun e pass detail => ?_, fun pass code detail => ?_, fun it type seed u => ?_⟩
  · unfold BIP38.encrypt; rw [hsel]
  · unfold BIP38.decrypt; rw [hsel]
  · unfold BIP38.confirmCode; rw [hsel]
  · unfold BIP38.createNewEncryptedWif; rw [hsel]

theorem C24_default_network (obj : BIP38) : chosenNetwork obj none = obj.network ∧ chosenNetwork obj (some "") = obj.network
    ∧ chosenNetwork obj (some obj.network) = obj.network := by
  refine ⟨rfl, by simp [chosenNetwork], ?_⟩
  unfold chosenNetwork
  simp only
  split <;> rfl

/-- Cases of C24. -/
example : bitcoinObject.decrypt P "6P".toList [] (some "regtest2")
      = .error ⟨.networkError, "Wrong network type, (expected: 'mainnet', 'testnet', 'regtest' | got: '<class 'str'>')"⟩ ∧
    bitcoinObject.decrypt P "6P".toList [] (some "") = bitcoinObject.decrypt P "6P".toList [] (some "mainnet") := by
  have h : unknownNetwork (Coins.Bitcoin.networks.map Prod.fst)
      = "Wrong network type, (expected: 'mainnet', 'testnet', 'regtest' | got: '<class 'str'>')" := by decide +kernel
  rw [← h]
  exact ⟨(C24_unknown_network Coins.Bitcoin "mainnet" bitcoinObject rfl (some "regtest2") (by
      have : ("regtest2" : String) ∉ Coins.Bitcoin.networks.map Prod.fst := by decide +kernel
      intro v hv; exact this (List.mem_map.mpr ⟨_, hv, rfl⟩))).2.1 _ _ _,
   (C24_same_choice bitcoinObject (some "") (some "mainnet") rfl).2.1 _ _ _⟩

/-! ## C25 -/

/-- C25: passphrases with the same NFC normal form are interchangeable in all four methods that take a passphrase. -/
theorem C25_nfc (p q : Str) (h : P.nfc p = P.nfc q) :
    (∀ (obj : BIP38) w network, obj.encrypt P w p network = obj.encrypt P w q network) ∧
    (∀ (obj : BIP38) e network detail, obj.decrypt P e p network detail = obj.decrypt P e q network detail) ∧
    (∀ (obj : BIP38) code network detail, obj.confirmCode P p code network detail = obj.confirmCode P q code network detail) ∧
    (∀ lot sequence salt u, intermediateCode P p lot sequence salt u = intermediateCode P q lot sequence salt u) := by
  have hs : ∀ salt len, scryptPassphrase P p salt len = scryptPassphrase P q salt len := by
    intro salt len; unfold scryptPassphrase; rw [h]
  have hpf : passFactorOf P p = passFactorOf P q := by
    funext a b d; unfold passFactorOf; simp only [hs]
  have h2 : ∀ (obj : BIP38) rec m d, obj.decryptNoEc P rec p m d = obj.decryptNoEc P rec q m d := by
    intro obj rec m d; unfold BIP38.decryptNoEc; simp only [hs]
  have h3 : ∀ (obj : BIP38) rec m d, obj.decryptEc P rec p m d = obj.decryptEc P rec q m d := by
    intro obj rec m d; unfold BIP38.decryptEc; rw [hpf]
  refine ⟨fun obj w network => ?_, fun obj e network detail => ?_, fun obj code network detail => ?_, fun lot sequence salt u => ?_⟩
  · unfold BIP38.encrypt; simp only [hs]
  · unfold BIP38.decrypt; simp only [h2, h3]
  · unfold BIP38.confirmCode; rw [hpf]
  · have h4 : lotFactor P p = lotFactor P q := by funext a b d; unfold lotFactor; simp only [hs]
    have h5 : noLotFactor P p = noLotFactor P q := by funext a; unfold noLotFactor; simp only [hs]
    unfold intermediateCode; rw [h4, h5]

/-- A case of C25: a normal form that identifies `é` with `e` followed by a combining acute accent. -/
example : let P := { toy 1 0xff with nfc := fun s => if s = ['e', '\u0301'] then ['é'] else s }
    ['e', '\u0301'] ≠ ['é'] ∧ P.nfc ['e', '\u0301'] = P.nfc ['é'] := ⟨by decide, rfl⟩

end Bip38.Props
