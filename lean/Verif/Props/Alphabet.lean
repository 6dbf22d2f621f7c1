import Verif.Props.Shape
import Verif.Props.ConfirmExamples
/-!
# Property C37: the alphabet of a coin
-/
namespace Bip38.Props
open Bip38 Spec

variable {P : Prims}

/-- C37: no method of a `BIP38` object depends on the alphabet the constructor stored. -/
theorem C37_alphabet_unused (obj : BIP38) (a : Str) :
    (∀ w pass network, ({ obj with alphabet := a } : BIP38).encrypt P w pass network = obj.encrypt P w pass network) ∧
    (∀ e pass network detail, ({ obj with alphabet := a } : BIP38).decrypt P e pass network detail = obj.decrypt P e pass network detail) ∧
    (∀ pass code network detail,
      ({ obj with alphabet := a } : BIP38).confirmCode P pass code network detail = obj.confirmCode P pass code network detail) ∧
    (∀ it type seed network u, ({ obj with alphabet := a } : BIP38).createNewEncryptedWif P it type seed network u
      = obj.createNewEncryptedWif P it type seed network u) :=
  ⟨fun _ _ _ => rfl, fun _ _ _ _ => rfl, fun _ _ _ _ => rfl, fun _ _ _ _ _ => rfl⟩

/-- C37: the constructor stores the alphabet of the coin if it has one, else Bitcoin's. -/
theorem C37_stored (c : Coin) (n : String) (obj : BIP38) (h : BIP38.new (.coin c) n = .ok obj) (hc : c ∈ Coins.all) :
    obj.alphabet = c.alphabet.getD bitcoinAlphabet := by
  have hm := (new_ok_iff h).1
  unfold BIP38.new at h
  simp only at h
  rw [py_bind (not_raise (not_not.mpr hm))] at h
  rw [← Except.ok.inj h]
  simp only
  cases ha : c.alphabet with
  | none => rfl
  | some a =>
    have hl := ((C36_table c hc).alphabet a ha).2
    cases a with
    | nil => simp at hl
    | cons x t => rfl

/-- `BIP38(Ripple)`. -/
def rippleObject : BIP38 := ⟨Coins.Ripple, Coins.Ripple.networkNames, "mainnet", rippleAlphabet⟩

theorem ripple_selects : ∃ v, v.addressPrefix = 0 ∧ Selects rippleObject none Coins.Ripple "mainnet" v :=
  ⟨⟨0x80, 0x00⟩, rfl, { proper := by decide +kernel, built := ⟨"mainnet", by rfl⟩, chosen := by simp [rippleObject], found := by decide +kernel }⟩

/-- The stored alphabet is Ripple's. -/
example : BIP38.new (.coin Coins.Ripple) = .ok rippleObject ∧ rippleObject.alphabet ≠ bitcoinAlphabet := ⟨by rfl, by decide⟩

/-- The address of a public key in the alphabet of the coin. -/
def addressIn (P : Prims) (alphabet : Str) (v : Net) (pk : PublicKey) (pkType : String) : Str :=
  b58encode (addressPayload P v.addressPrefix pk pkType ++ checksum P (addressPayload P v.addressPrefix pk pkType)) alphabet

theorem address_start (a : Str) (ha : 2 ≤ a.length) (v : Net) (hv : v.addressPrefix = 0) (pk : PublicKey) (type : String) :
    [a.getD 0 '?'] <+: addressIn P a v pk type := by
  unfold addressIn addressPayload
  rw [hv, prefixBytes_byte 0 (by omega)]
  rw [b58encode_eq a ha]
  have : leadingZeros ([UInt8.ofNat 0] ++ h160 P (sec1 pk type) ++ checksum P ([UInt8.ofNat 0] ++ h160 P (sec1 pk type))) =
      (((h160 P (sec1 pk type) ++ checksum P ([UInt8.ofNat 0] ++ h160 P (sec1 pk type))).takeWhile (· == 0)).length) + 1 := by
    rw [leadingZeros_eq]; simp
  rw [this, List.replicate_succ]
  exact ⟨_, rfl⟩

theorem ripple_differs (v : Net) (hv : v.addressPrefix = 0) (pk : PublicKey) (t : String) :
    "1".toList <+: addressText P v pk t ∧ ∀ pk' t', "r".toList <+: addressIn P rippleAlphabet v pk' t'
      ∧ addressText P v pk t ≠ addressIn P rippleAlphabet v pk' t' := by
  have h1 := C11_address (P := P) v hv pk t
  refine ⟨h1, fun pk' t' => ?_⟩
  have h2 : "r".toList <+: addressIn P rippleAlphabet v pk' t' := address_start rippleAlphabet (by decide) v hv pk' t'
  refine ⟨h2, fun he => ?_⟩
  rw [he] at h1
  obtain ⟨x, hx⟩ := h1
  obtain ⟨y, hy⟩ := h2
  rw [← hx] at hy
  simp at hy

theorem ripple_prefix {n : Option String} {name : String} {v : Net} (hs : Selects rippleObject n Coins.Ripple name v) : v.addressPrefix = 0 := by
  have := hs.found
  simp only [Coins.Ripple, List.mem_singleton, Prod.mk.injEq] at this
  rw [this.2]

/-- C37: for Ripple, the address `decrypt` reports is never one in the alphabet of Ripple, whatever the key: it starts with `1`, those
start with `r`. -/
theorem C37_ripple_decrypt (hP : P.Lawful) (network : Option String) (name : String) (v : Net)
    (hs : Selects rippleObject network Coins.Ripple name v)
    (e pass : Str) (d : DecryptDetail) (hd : rippleObject.decrypt P e pass network true = .ok (.detail d)) :
    "1".toList <+: d.address ∧
    ∀ pk type, "r".toList <+: addressIn P rippleAlphabet v pk type ∧ d.address ≠ addressIn P rippleAlphabet v pk type := by
  obtain ⟨_, key, type, d', _, _, _, hdes, _, hd', _⟩ := C20_C21_returned_key hP hs e pass true _ hd
  have := Except.ok.inj (hd.symm.trans hd')
  simp only [DecryptOut.detail.injEq] at this
  subst this
  obtain ⟨sk, _, _, ha⟩ := hdes.public_key
  have hv := ripple_prefix hs
  rw [p2pkh_text] at ha
  rw [← Except.ok.inj ha]
  exact ripple_differs v hv _ _

/-- C37: the same for `create_new_encrypted_wif`. -/
theorem C37_ripple_create (hP : P.Lawful) (network : Option String) (name : String) (v : Net)
    (hs : Selects rippleObject network Coins.Ripple name v) (it : Str) (type : String) (seed : Data) (u : Bytes) (r : Created)
    (h : rippleObject.createNewEncryptedWif P it type seed network u = .ok r) :
    "1".toList <+: r.address ∧
    ∀ pk type, "r".toList <+: addressIn P rippleAlphabet v pk type ∧ r.address ≠ addressIn P rippleAlphabet v pk type := by
  obtain ⟨seedB, lot, ent, pp, q, pk, pb, hr, _, _, hb, hres⟩ := C33_returns hP hs it type seed u r h
  rw [hres]
  exact ripple_differs v (ripple_prefix hs) _ _

/-- C37: the same for `confirm_code`. -/
theorem C37_ripple_confirm (hP : P.Lawful) (network : Option String) (name : String) (v : Net)
    (hs : Selects rippleObject network Coins.Ripple name v) (pass code a : Str)
    (h : rippleObject.confirmCode P pass code network false = .ok (.address a)) :
    "1".toList <+: a ∧
    ∀ pk type, "r".toList <+: addressIn P rippleAlphabet v pk type ∧ a ≠ addressIn P rippleAlphabet v pk type := by
  obtain ⟨_, _, _, _, _, _, pk, d, _, _, _, _, _, _, _, _, ⟨_, _, _, ha⟩, _, hf⟩ := C35_sound hP hs pass code false _ h
  have := Except.ok.inj (h.symm.trans hf)
  simp only [ConfirmOut.address.injEq] at this
  rw [this, ha]
  exact ripple_differs v (ripple_prefix hs) _ _

/-- The hypotheses are met: `decrypt` returns for Ripple. -/
theorem ripple_decrypts : ∃ v e d, Selects rippleObject none Coins.Ripple "mainnet" v ∧
    rippleObject.decrypt (toy 1 0xff) e [] none true = .ok (.detail d) := by
  obtain ⟨v, hv, hs⟩ := ripple_selects
  have hk : IsPrivateKey (List.replicate 32 1) := by decide +kernel
  have hP := toy_lawful 1 0xff
  obtain ⟨w, hw, hkey, hty, _⟩ := C07_wif_roundtrip (toy 1 0xff) hP _ _ _ hs.net _ hk.1 "wif" (Or.inl rfl)
  obtain ⟨pk, hpk, _, _⟩ := priv_ok _ hk
  obtain ⟨e, he⟩ := (C18_encrypt_returns_iff hP hs w [] _ "wif" hkey hty hk (Or.inl rfl) pk hpk _ rfl).1.mpr
    ⟨by exact (by decide : (1 : UInt8) ≠ 0xff), by exact (by decide : (1 : UInt8) ≠ 0xff)⟩
  have hd := (C17_roundtrip_iff hP hs _ hk _ (Or.inl rfl) w [] e hw he).1.mpr (by decide +kernel)
  obtain ⟨_, _, _, d, _, _, _, _, _, h, _⟩ := C20_C21_returned_key hP hs e [] false _ hd
  exact ⟨v, e, d, hs, h⟩

/-- C37 is false of the code: "the reported address is written in the alphabet the object stores". -/
theorem C37_refuted : ¬ ∀ (P : Prims), P.Lawful → ∀ (c : Coin), c ∈ Coins.all → ∀ (obj : BIP38) (n : String), BIP38.new (.coin c) n = .ok obj →
    ∀ (e pass : Str) (d : DecryptDetail), obj.decrypt P e pass none true = .ok (.detail d) →
    ∃ v pk, (n, v) ∈ c.networks ∧ d.address = addressIn P obj.alphabet v pk d.publicKeyType := by
  intro hall
  obtain ⟨v, e, d, hs, hd⟩ := ripple_decrypts
  obtain ⟨v', pk, hv', ha⟩ := hall _ (toy_lawful 1 0xff) Coins.Ripple (by decide +kernel) rippleObject "mainnet" rfl e [] d hd
  have : v' = v := by
    have h1 := hs.found
    simp only [Coins.Ripple, List.mem_singleton, Prod.mk.injEq, true_and] at h1 hv'
    rw [h1, hv']
  subst this
  exact ((C37_ripple_decrypt (toy_lawful 1 0xff) none "mainnet" v' hs e [] d hd).2 pk _).2 ha

end Bip38.Props
