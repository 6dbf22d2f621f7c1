import Verif.Props.Detail
/-!
# Property C56: networks act only through their prefixes
-/
namespace Bip38.Props
open Bip38 Spec

variable {P : Prims} {obj obj' : BIP38} {network network' : Option String} {c c' : Coin} {n n' : String} {v v' : Net}

theorem raiseIf_false (x : ExcClass) (m : String) : raiseIf False x m = .ok () := rfl

/-- C56: `encrypt` and `decrypt` depend on cryptocurrency and network only through the WIF prefix and the address prefix. -/
theorem C56_same_prefixes (hs : Selects obj network c n v) (hs' : Selects obj' network' c' n' v) (w e pass : Str) (detail : Bool) :
    obj.encrypt P w pass network = obj'.encrypt P w pass network'
      ∧ obj.decrypt P e pass network detail = obj'.decrypt P e pass network' detail := by
  have h1 := hs.lookup
  have h2 := hs'.lookup
  have m1 := hs.mem
  have m2 := hs'.mem
  constructor
  · unfold BIP38.encrypt getWifType wifToPrivateKey
    rw [hs.select, hs'.select]
    simp only [h1, h2, m1, m2, not_true_eq_false, raiseIf_false, bind_ok']
  · unfold BIP38.decrypt BIP38.decryptNoEc BIP38.decryptEc privateKeyToWif
    rw [hs.select, hs'.select]
    simp only [h1, h2, m1, m2, not_true_eq_false, raiseIf_false, bind_ok']

/-- C56: `create_new_encrypted_wif` and `confirm_code` depend on cryptocurrency and network only through the address prefix. -/
theorem C56_same_address_prefix (hs : Selects obj network c n v) (hs' : Selects obj' network' c' n' v')
    (hv : v.addressPrefix = v'.addressPrefix) (it code pass : Str) (type : String) (seed : Data) (u : Bytes) (detail : Bool) :
    obj.createNewEncryptedWif P it type seed network u = obj'.createNewEncryptedWif P it type seed network' u
      ∧ obj.confirmCode P pass code network detail = obj'.confirmCode P pass code network' detail := by
  have h1 := hs.lookup
  have h2 := hs'.lookup
  have m1 := hs.mem
  have m2 := hs'.mem
  constructor
  · unfold BIP38.createNewEncryptedWif
    rw [hs.select, hs'.select]
    simp only [h1, h2, m1, m2, not_true_eq_false, raiseIf_false, bind_ok', hv]
  · unfold BIP38.confirmCode
    rw [hs.select, hs'.select]
    simp only [h1, h2, m1, m2, not_true_eq_false, raiseIf_false, bind_ok', hv]

/-- Two coins with the same prefixes (so a Ripple object behaves as a Bitcoin object, although its alphabet is another one: C37). -/
example : ∃ o o', Selects o none Coins.Bitcoin "mainnet" ⟨0x80, 0⟩ ∧ Selects o' none Coins.Ripple "mainnet" ⟨0x80, 0⟩ ∧ o.cryptocurrency ≠ o'.cryptocurrency := by
  refine ⟨_, _, ⟨by decide, ⟨"mainnet", rfl⟩, rfl, by decide⟩, ⟨by decide, ⟨"mainnet", rfl⟩, rfl, by decide⟩, by decide⟩

/-- A class that is not in the library, made by a user. -/
def userCoin : Coin := ⟨"MyCoin", [("mainnet", ⟨0x99, 0x1cb8⟩), ("dev", ⟨0x80, 0x00⟩)], none⟩

/-- It meets the hypotheses of the theorems too. -/
example : userCoin ∉ Coins.all ∧ ∃ o, Selects o (some "dev") userCoin "dev" ⟨0x80, 0⟩ :=
  ⟨by decide +kernel, _, by decide, ⟨"mainnet", rfl⟩, rfl, by decide⟩

end Bip38.Props
