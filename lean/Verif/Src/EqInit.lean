import Verif.Src.EqBase
/-!
# The text of `BIP38.__init__` and `BIP38.intermediate_code` computes what the model says
-/
namespace Bip38.Src

open Run

variable (H : Host)

theorem keys_eq (c : Coin) : mKeys (networksVal c) [] [] = pure (strsVal c.networkNames) := by
  show pure (Val.list ((c.networks.map fun p => (p.1.toList, netVal p.2)).map fun p => Val.str p.1)) = _
  unfold strsVal Coin.networkNames
  rw [List.map_map, List.map_map]
  rfl

theorem networks_keys (c : Coin) : callMethod [] mKeys (networksVal c) [] [] = pure (strsVal c.networkNames) := keys_eq c

theorem init_src (c : CoinArg) (n : String) :
    BIP38_init H [.coin c, .str n.toList] [] = ofPy (BIP38.new c n) >>= fun b => pure (bipVal b) := by
  unfold BIP38_init BIP38.new
  rw [defclass_eq]
  ev []
  rw [block_cons]
  cases c with
  | notAClass => rfl
  | otherClass =>
    have e : pyIssubclass [.coin .otherClass, .coin .base] [] = pure (.bool false) := rfl
    have ht : ExpectedVal (.typing "typing.Type[bip38.cryptocurrencies.ICryptocurrency]".toList)
        (.one true "typing.Type[bip38.cryptocurrencies.ICryptocurrency]".toList) := .one (by decide) rfl (by decide)
    have ht2 : format (.type (typeOf (.coin .otherClass))) = pure "<class 'type'>".toList := rfl
    ev [e]
    ev [block_cons, raise_expected H .cryptocurrencyError rfl "Invalid cryptocurrency sub-class" ht ht2]
    rfl
  | base => rfl
  | coin c =>
    have e : pyIssubclass [.coin (.coin c), .coin .base] [] = pure (.bool true) := rfl
    have hl : pyList [strsVal c.networkNames] [] = pure (strsVal c.networkNames) := rfl
    ev [e, ofPy_raiseIf_bind]
    rw [block_cons]
    ev [networks_keys, hl]
    rw [block_cons]
    ev [mem_strs]
    by_cases hn : n ∈ c.networkNames
    · have n1 : ¬ n ∉ c.networkNames := fun h => h hn
      simp only [if_neg n1]
      ev [hn]
      rw [block_cons]
      ev []
      have hb : pyAttr (.coin (.coin Coins.Bitcoin)) v!"ALPHABET" = pure (.str bitcoinAlphabet) := rfl
      cases ha : c.alphabet with
      | none =>
        have h1 : alphabetVal c = .none := by unfold alphabetVal; rw [ha]
        ev [h1]
        rfl
      | some a =>
        have h1 : alphabetVal c = .str a := by unfold alphabetVal; rw [ha]
        cases a with
        | nil =>
          ev [h1]
          rfl
        | cons x a =>
          ev [h1]
          rfl
    · simp only [if_pos hn]
      ev [hn]
      ev [block_cons, raise_network]

end Bip38.Src
