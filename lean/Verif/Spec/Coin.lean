import Verif.Model.Coins
/-! # Specification of a cryptocurrency class -/
namespace Bip38.Spec

/-- A cryptocurrency class: its network names are distinct, because they are the keys of a dictionary. The prefixes are any
numbers, of any size. All classes of the library are proper (`C36_proper`), and so are all classes a user adds. -/
structure ProperCoin (c : Coin) : Prop where
  distinct : c.networkNames.Nodup

instance (c : Coin) : Decidable (ProperCoin c) := decidable_of_iff c.networkNames.Nodup ⟨fun h => ⟨h⟩, fun h => h.1⟩

end Bip38.Spec
