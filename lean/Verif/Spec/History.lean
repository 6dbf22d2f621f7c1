import Verif.Spec.Bip38
/-!
# Histories: any number of uses of the library one after the other

A user holds a WIF of some network, or an encrypted text and its passphrase.  Every step uses the public API once: encrypt the
WIF on its network, decrypt the encrypted text on any network of any coin, or rewrite the WIF for another network.
-/
namespace Bip38.Spec

/-- A BIP38 object, the `network` argument given to its methods, and the coin and network this selects. -/
structure Place where
  obj : BIP38
  network : Option String
  coin : Coin
  name : String
  net : Net
  selects : Selects obj network coin name net

/-- What the user holds: a WIF of a place, or an encrypted text with its passphrase. -/
inductive Holding where
  | wif (pl : Place) (w : Str)
  | encrypted (e pass : Str)

/-- One call (for `move`: three calls) of the API. -/
inductive Step (P : Prims) : Holding → Holding → Prop
  | encrypt (pl : Place) (w pass e : Str) (h : pl.obj.encrypt P w pass pl.network = .ok e) :
      Step P (.wif pl w) (.encrypted e pass)
  | decrypt (pl : Place) (e pass w : Str) (h : pl.obj.decrypt P e pass pl.network = .ok (.wif w)) :
      Step P (.encrypted e pass) (.wif pl w)
  | decryptDetail (pl : Place) (e pass : Str) (d : DecryptDetail) (h : pl.obj.decrypt P e pass pl.network true = .ok (.detail d)) :
      Step P (.encrypted e pass) (.wif pl d.wif)
  | move (pl pl' : Place) (w k w' : Str) (type : String) (hk : wifToPrivateKey w pl.coin pl.name = .ok k)
      (ht : getWifType w pl.coin pl.name = .ok type) (hw : privateKeyToWif P (.str k) type pl'.coin pl'.name = .ok w') :
      Step P (.wif pl w) (.wif pl' w')

/-- Any number of steps. -/
inductive Steps (P : Prims) : Holding → Holding → Prop
  | none (s : Holding) : Steps P s s
  | more {s t u : Holding} : Steps P s t → Step P t u → Steps P s u

/-- What the holding is worth: the WIF reads as `key` and `type` on its network; the encrypted text gives, on every network on
which `decrypt` returns anything, a WIF that reads so. -/
def Worth (P : Prims) (key : Bytes) (type : String) : Holding → Prop
  | .wif pl w => wifToPrivateKey w pl.coin pl.name = .ok (hex key) ∧ getWifType w pl.coin pl.name = .ok type
  | .encrypted e pass => ∀ pl : Place,
      (∀ w, pl.obj.decrypt P e pass pl.network = .ok (.wif w) →
        wifToPrivateKey w pl.coin pl.name = .ok (hex key) ∧ getWifType w pl.coin pl.name = .ok type) ∧
      (∀ d, pl.obj.decrypt P e pass pl.network true = .ok (.detail d) → d.privateKey = hex key ∧ d.wifType = type ∧
        wifToPrivateKey d.wif pl.coin pl.name = .ok (hex key) ∧ getWifType d.wif pl.coin pl.name = .ok type)

/-- Changing the passphrase at one place, any number of times: decrypt, then encrypt the WIF obtained with a new passphrase. -/
inductive Rekeyed (P : Prims) (pl : Place) (e pass : Str) : Str → Str → Prop
  | none : Rekeyed P pl e pass e pass
  | more {e1 pass1 : Str} (w e2 pass2 : Str) : Rekeyed P pl e pass e1 pass1 → pl.obj.decrypt P e1 pass1 pl.network = .ok (.wif w) →
      pl.obj.encrypt P w pass2 pl.network = .ok e2 → Rekeyed P pl e pass e2 pass2

end Bip38.Spec
