import Verif.Props.SourceCalls
import Verif.Props.Messages
/-!
# Properties C88 and C89: the exceptions of the methods of `BIP38` and whole flows, on the text
-/
namespace Bip38.Props
open Bip38 Spec Src

variable (H : Host)

/-- The object returned by the constructor of the text is an object of the model. -/
private theorem constructed {c : Coin} {n0 : String} {o : Val} (ho : Returns (BIP38_init H [.coin (.coin c), .str n0.toList] []) o) :
    ∃ b, BIP38.new (.coin c) n0 = .ok b ∧ o = bipVal b := by
  obtain ⟨b, h1, h2⟩ := (C86_constructor H (.coin c) n0).returned ho
  exact ⟨b, h1, h2.symm⟩

private theorem selects {c : Coin} (hc : ProperCoin c) {n0 : String} {b : BIP38} (hb : BIP38.new (.coin c) n0 = .ok b) (net : Option String) :
    (∃ n v, Selects b net c n v) ∨ ∀ v, (chosenNetwork b net, v) ∉ c.networks := by
  by_cases h : ∃ v, (chosenNetwork b net, v) ∈ c.networks
  · obtain ⟨v, hv⟩ := h
    refine Or.inl ⟨chosenNetwork b net, v, hc, ⟨n0, hb⟩, ?_, hv⟩
    cases net with
    | none => simp [chosenNetwork]
    | some n => by_cases hn : n = "" <;> simp [chosenNetwork, hn]
  · exact Or.inr fun v hv => h ⟨v, hv⟩

/-- C88: the constructor ends, on every argument, and raises only these exceptions. -/
theorem C88_constructor (c : CoinArg) (n : String) :
    Halts (BIP38_init H [.coin c, .str n.toList] []) ∧
    ∀ e m, Raises (BIP38_init H [.coin c, .str n.toList] []) e m →
      e ∈ [.networkError, .cryptocurrencyError, .typeError, .attributeError] := by
  refine ⟨(C86_constructor H c n).ends, fun e m h => ?_⟩
  have h := (C86_constructor H c n).raised h
  have hc := C24_constructor_errors n
  cases c with
  | coin c =>
    by_cases hn : ∃ v, (n, v) ∈ c.networks
    · exfalso
      obtain ⟨v, hv⟩ := hn
      obtain ⟨b, hb, _⟩ := (C24_constructor_iff c n).2 ⟨v, hv⟩
      rw [hb] at h
      cases h
    · rw [hc.1 c fun v hv => hn ⟨v, hv⟩] at h
      cases h
      simp
  | otherClass =>
    rw [hc.2.1] at h
    cases h
    simp
  | notAClass =>
    obtain ⟨x, h1, h2⟩ := hc.2.2.1
    rw [h1] at h
    cases h
    rw [show e = _ from h2]
    simp
  | base =>
    obtain ⟨x, h1, h2⟩ := hc.2.2.2
    rw [h1] at h
    cases h
    rw [show e = _ from h2]
    simp

/-- C88: on an object of the class, every call of `encrypt`, `decrypt`, `confirm_code` and `create_new_encrypted_wif` with texts ends, and
raises only these exceptions. -/
theorem C88_methods (hP : H.P.Lawful) (c : Coin) (hc : ProperCoin c) (n0 : String) (o : Val)
    (ho : Returns (BIP38_init H [.coin (.coin c), .str n0.toList] []) o) (text passphrase : Str) (net : Option String) (detail : Bool)
    (wifType : String) (seed : Data) :
    (Halts (BIP38_encrypt H [o, .str text, .str passphrase, optNet net] []) ∧
      ∀ e m, Raises (BIP38_encrypt H [o, .str text, .str passphrase, optNet net] []) e m →
        e ∈ [.networkError, .wifError, .secp256k1Error, .valueError, .unicodeEncodeError]) ∧
    (Halts (BIP38_decrypt H [o, .str text, .str passphrase, optNet net, .bool detail] []) ∧
      ∀ e m, Raises (BIP38_decrypt H [o, .str text, .str passphrase, optNet net, .bool detail] []) e m →
        e ∈ [.networkError, .passphraseError, .secp256k1Error, .error, .wifError, .valueError, .unicodeEncodeError]) ∧
    (Halts (BIP38_confirm_code H [o, .str passphrase, .str text, optNet net, .bool detail] []) ∧
      ∀ e m, Raises (BIP38_confirm_code H [o, .str passphrase, .str text, optNet net, .bool detail] []) e m →
        e ∈ [.networkError, .passphraseError, .error]) ∧
    (Halts (BIP38_create_new_encrypted_wif H [o, .str text, .str wifType.toList, ofData seed, optNet net] []) ∧
      ∀ e m, Raises (BIP38_create_new_encrypted_wif H [o, .str text, .str wifType.toList, ofData seed, optNet net] []) e m →
        e ∈ [.networkError, .passphraseError, .wifError, .error, .secp256k1Error, .valueError, .typeError]) := by
  obtain ⟨b, hb, rfl⟩ := constructed H ho
  have h1 := C86_encrypt H hP b text passphrase net
  have h2 := C86_decrypt H hP b text passphrase net detail
  have h3 := C86_confirm_code H hP b passphrase text net detail
  have h4 := C86_create_new_encrypted_wif H hP b text wifType seed net
  refine ⟨⟨h1.ends, fun e m h => ?_⟩, ⟨h2.ends, fun e m h => ?_⟩, ⟨h3.ends, fun e m h => ?_⟩, ⟨h4.ends, fun e m h => ?_⟩⟩
  all_goals
    rcases selects hc hb net with ⟨n, v, hs⟩ | hn
  · have h := h1.raised h
    obtain ⟨k1, k2, k3, k4⟩ := C60_encrypt hP hs text passphrase
    by_cases hw : ∃ ch ∈ text, 128 ≤ ch.toNat
    · obtain ⟨x, hx, hcls⟩ := k1 hw
      rw [hx] at h
      cases h
      rw [show e = _ from hcls]
      simp
    · have hw' : ∀ ch ∈ text, ch.toNat < 128 := fun ch hch => by
        by_contra hcon
        exact hw ⟨ch, hch, by omega⟩
      by_cases hl : ∃ key type, WifLike text v key type
      · obtain ⟨key, type, hl⟩ := hl
        by_cases hk : IsPrivateKey key
        · obtain ⟨pk, hpk, _⟩ := priv_ok key hk
          obtain ⟨g1, g2⟩ := k4 key type pk _ hl hk hpk rfl
          by_cases hz : key.getD 0 0 = (stretch H.P passphrase (addressHash H.P v pk (pubType type)) 64).getD 0 0
              ∨ key.getD 16 0 = (stretch H.P passphrase (addressHash H.P v pk (pubType type)) 64).getD 16 0
          · rw [g1 hz] at h
            cases h
            simp
          · obtain ⟨e', he'⟩ := g2 (not_or.mp hz)
            rw [he'] at h
            cases h
        · rw [k3 key type hl hk] at h
          cases h
          simp
      · rw [k2 hw' fun key type hkt => hl ⟨key, type, hkt⟩] at h
        cases h
        simp
  · rw [(C24_unknown_network c n0 b hb net hn).1] at h1
    have h := h1.raised h
    cases h
    simp
  · have := C40_decrypt_errors hP hs text passphrase detail _ (h2.raised h)
    exact List.mem_cons_of_mem _ this
  · rw [(C24_unknown_network c n0 b hb net hn).2.1] at h2
    have h := h2.raised h
    cases h
    simp
  · have := C40_confirm_errors hP hs passphrase text detail _ (h3.raised h)
    rcases this with this | this
    all_goals
      rw [show e = _ from this]
      simp
  · rw [(C24_unknown_network c n0 b hb net hn).2.2.1] at h3
    have h := h3.raised h
    cases h
    simp
  · have := C33_errors hP hs text wifType seed _ _ (h4.raised h)
    exact List.mem_cons_of_mem _ this
  · rw [(C24_unknown_network c n0 b hb net hn).2.2.2] at h4
    have h := h4.raised h
    cases h
    simp

/-- C88: `intermediate_code`. -/
theorem C88_intermediate_code (passphrase : Str) (lot sequence : Option Int) (salt : Data) :
    Halts (BIP38_intermediate_code H [.str passphrase, ofOptInt lot, ofOptInt sequence, ofData salt] []) ∧
    ∀ e m, Raises (BIP38_intermediate_code H [.str passphrase, ofOptInt lot, ofOptInt sequence, ofData salt] []) e m →
      e ∈ [.error, .secp256k1Error, .valueError, .typeError] := by
  have h0 := C86_intermediate_code H passphrase lot sequence salt
  refine ⟨h0.ends, fun e m h => ?_⟩
  have h := h0.raised h
  rcases C26_salt (P := H.P) passphrase lot sequence salt (H.urandom 8) with ⟨s, hs⟩ | ⟨x, hx, ⟨_, _, _, hcls⟩ | ⟨_, hcls⟩⟩
  · rcases (C26_validation (P := H.P) passphrase lot sequence salt _ s hs).2.2 _ h with hcls | hcls
    all_goals
      rw [show e = _ from hcls]
      simp
  all_goals
    rw [hx] at h
    cases h
    rw [show e = _ from hcls]
    simp

/-- C89: a key, written as a WIF, encrypted and decrypted by the text of the repository. -/
theorem C89_roundtrip (hP : H.P.Lawful) (c : Coin) (hc : ProperCoin c) (n0 n : String) (o : Val) (net : Option String) (v : Net)
    (ho : Returns (BIP38_init H [.coin (.coin c), .str n0.toList] []) o) (hn : n = if net = none ∨ net = some "" then n0 else net.getD "")
    (hv : (n, v) ∈ c.networks) (key : Bytes) (hk : IsPrivateKey key) (type : String) (ht : IsWifType type) (w pass e : Str)
    (hw : Returns (wif_private_key_to_wif H [.bytes key, .str type.toList, .coin (.coin c), .str n.toList] []) (.str w))
    (he : Returns (BIP38_encrypt H [o, .str w, .str pass, optNet net] []) (.str e)) :
    (Returns (BIP38_decrypt H [o, .str e, .str pass, optNet net, .bool false] []) (.str w) ↔ 2 ^ 248 ≤ be key) ∧
    (be key < 2 ^ 248 → ∃ m, Raises (BIP38_decrypt H [o, .str e, .str pass, optNet net, .bool false] []) .secp256k1Error m) := by
  obtain ⟨b, hb, rfl⟩ := constructed H ho
  have hb' : b.network = n0 := (new_ok_iff hb).2.2.2
  have hs : Selects b net c n v := ⟨hc, ⟨n0, hb⟩, by rw [hn, hb'], hv⟩
  obtain ⟨w', hw1, hw2⟩ := (C85_wif H (.bytes key) w 0 type c n).2.2.1.returned hw
  cases hw2
  obtain ⟨e', he1, he2⟩ := (C86_encrypt H hP b w pass net).returned he
  cases he2
  obtain ⟨h1, h2⟩ := C17_roundtrip_iff hP hs key hk type ht w pass e hw1 he1
  have hd := C86_decrypt H hP b e pass net false
  constructor
  · rw [← h1]
    constructor
    · intro h
      obtain ⟨out, ho1, ho2⟩ := hd.returned h
      cases out with
      | wif w' => cases ho2; exact ho1
      | detail d => cases ho2
    · intro h
      exact hd.1 _ h
  · intro h
    obtain ⟨x, hx, hcls⟩ := h2 h
    exact ⟨x.msg, hcls ▸ hd.2 x hx⟩

/-- C89: a key made from an intermediate code: `intermediate_code`, `create_new_encrypted_wif`, `decrypt` and `confirm_code` of the text. -/
theorem C89_ec (hP : H.P.Lawful) (c : Coin) (hc : ProperCoin c) (n0 n : String) (o : Val) (net : Option String) (v : Net)
    (ho : Returns (BIP38_init H [.coin (.coin c), .str n0.toList] []) o) (hn : n = if net = none ∨ net = some "" then n0 else net.getD "")
    (hv : (n, v) ∈ c.networks) (pass : Str) (lot sequence : Option Int) (salt : Data) (code : Str)
    (hi : Returns (BIP38_intermediate_code H [.str pass, ofOptInt lot, ofOptInt sequence, ofData salt] []) (.str code))
    (type : String) (seed : Data) (made : Val)
    (hm : Returns (BIP38_create_new_encrypted_wif H [o, .str code, .str type.toList, ofData seed, optNet net] []) made) :
    ∃ r saltB seedB pp pb key pk dk, made = createdVal r ∧ Supplies salt (H.urandom 8) saltB ∧ Supplies seed (H.urandom 24) seedB
      ∧ IsPublicKeyOf pp (passFactor H.P (usesLot lot sequence) pass (ownerEntropy lot sequence saltB))
      ∧ dk = ecDerive H.P (sec1 pp "compressed") (addressHash H.P v pk (pubType type)) (ownerEntropy lot sequence saltB)
      ∧ be key = be (passFactor H.P (usesLot lot sequence) pass (ownerEntropy lot sequence saltB)) * be (dsha H.P seedB) % n256k1
      ∧ IsPrivateKey key ∧ IsPublicKeyOf pk key ∧ IsPublicKeyOf pb (dsha H.P seedB)
      ∧ r.publicKey = hex (sec1 pk (pubType type)) ∧ r.address = addressText H.P v pk (pubType type) ∧ r.seed = hex seedB
      ∧ (Recoverable H.P dk seedB key →
          Returns (BIP38_decrypt H [o, .str r.encryptedWif, .str pass, optNet net, .bool false] []) (.str (wifText H.P v key type))
          ∧ ∃ d, Returns (BIP38_decrypt H [o, .str r.encryptedWif, .str pass, optNet net, .bool true] []) (decryptVal (.detail d))
            ∧ d.wif = wifText H.P v key type ∧ d.privateKey = hex key ∧ d.wifType = type ∧ d.publicKey = r.publicKey
            ∧ d.publicKeyType = r.publicKeyType ∧ d.address = r.address ∧ d.seed = some r.seed
            ∧ (usesLot lot sequence = true → d.lot = lot ∧ d.sequence = sequence)
            ∧ (usesLot lot sequence = false → d.lot = none ∧ d.sequence = none))
      ∧ ((toBE 32 pb.x).getD 0 0 ≠ 0 ∧ (toBE 32 pb.x).getD 16 0 ≠ 0 →
          Returns (BIP38_confirm_code H [o, .str pass, .str r.confirmationCode, optNet net, .bool false] []) (.str r.address)) := by
  obtain ⟨b, hb, rfl⟩ := constructed H ho
  have hb' : b.network = n0 := (new_ok_iff hb).2.2.2
  have hs : Selects b net c n v := ⟨hc, ⟨n0, hb⟩, by rw [hn, hb'], hv⟩
  obtain ⟨code', hi1, hi2⟩ := (C86_intermediate_code H pass lot sequence salt).returned hi
  cases hi2
  obtain ⟨r, hr1, hr2⟩ := (C86_create_new_encrypted_wif H hP b code type seed net).returned hm
  obtain ⟨saltB, seedB, pp, key, pk, dk, g1, g2, g3, g4, g5, g6, g7, g8, g9, g10, g11, -⟩ :=
    C29_decrypt_create hP hs pass lot sequence salt _ code hi1 type seed _ r hr1
  obtain ⟨seedB', pb, f1, f2, f3, -⟩ := C30_confirm_create hP hs pass lot sequence salt _ code hi1 type seed _ r hr1
  have hse : seedB' = seedB := Except.ok.inj (f1.ok.symm.trans g2.ok)
  subst hse
  refine ⟨r, saltB, seedB', pp, pb, key, pk, dk, hr2.symm, g1, g2, g3, g4, g5, g6, g7, f2, g8, g9, g10, fun hrec => ?_, fun hpb => ?_⟩
  · obtain ⟨⟨d, hd, k1, k2, k3, k4, k5, k6, k7⟩, hw⟩ := g11 hrec
    refine ⟨(C86_decrypt H hP b r.encryptedWif pass net false).1 _ hw, d, (C86_decrypt H hP b r.encryptedWif pass net true).1 _ hd,
      k1, k2, k3, k4, k5, k6, k7, ?_⟩
    exact C31_lot_sequence hP hs pass lot sequence salt _ code hi1 type seed _ r hr1 d hd
  · exact (C86_confirm_code H hP b pass r.confirmationCode net false).1 _ (f3 hpb).2

/-- Hosts for the cases. -/
private def hostA : Host := ⟨toy 1 0xff, fun _ => [], fun _ => .ok 0, false⟩
private def hostB : Host := ⟨unit 1, fun _ => [], fun _ => .ok 0, false⟩

private theorem bitcoin_text (H : Host) : Returns (BIP38_init H [.coin (.coin Coins.Bitcoin), .str "mainnet".toList] []) (bipVal bitcoinObject) := by
  obtain ⟨b, hb, h1, h2⟩ := (C24_constructor_iff Coins.Bitcoin "mainnet").2 ⟨⟨0x80, 0⟩, by decide⟩
  have : b = bitcoinObject := by
    have hx : BIP38.new (.coin Coins.Bitcoin) "mainnet" = .ok bitcoinObject := rfl
    rw [hb] at hx
    exact Except.ok.inj hx
  exact (C86_constructor H _ "mainnet").1 _ (this ▸ hb)

/-- A case of C88 and C89: a key of 32 bytes 1 comes back from the text of the repository. -/
example : ∃ o w e, Returns (BIP38_init hostA [.coin (.coin Coins.Bitcoin), .str "mainnet".toList] []) o
    ∧ Returns (wif_private_key_to_wif hostA [.bytes (List.replicate 32 1), .str "wif".toList, .coin (.coin Coins.Bitcoin), .str "mainnet".toList] []) (.str w)
    ∧ Returns (BIP38_encrypt hostA [o, .str w, .str [], optNet none] []) (.str e)
    ∧ Returns (BIP38_decrypt hostA [o, .str e, .str [], optNet none, .bool false] []) (.str w) := by
  have hP : hostA.P.Lawful := toy_lawful 1 0xff
  have hk : IsPrivateKey (List.replicate 32 1) := by decide +kernel
  obtain ⟨w, hw, _⟩ := C07_wif_roundtrip (toy 1 0xff) (toy_lawful _ _) _ _ _ bitcoin_selects.net _ hk.1 "wif" (Or.inl rfl)
  obtain ⟨e, he⟩ := toy_encrypts _ hk (by decide) (by decide) w hw
  have hw' := (C85_wif hostA (.bytes (List.replicate 32 1)) [] 0 "wif" Coins.Bitcoin "mainnet").2.2.1.1 _ hw
  have he' := (C86_encrypt hostA hP bitcoinObject w [] none).1 _ he
  exact ⟨_, w, e, bitcoin_text hostA, hw', he', (C89_roundtrip hostA hP Coins.Bitcoin bitcoin_selects.proper "mainnet" "mainnet" _ none
    ⟨0x80, 0⟩ (bitcoin_text hostA) rfl bitcoin_selects.found _ hk "wif" (Or.inl rfl) w [] e hw' he').1.2 (by decide +kernel)⟩

/-- A case of C89: a key made from an intermediate code with lot 100001 and sequence 7. -/
example : ∃ code made, Returns (BIP38_intermediate_code hostB [.str [], ofOptInt (some 100001), ofOptInt (some 7), ofData (.bytes (List.replicate 4 5))] []) (.str code)
    ∧ Returns (BIP38_create_new_encrypted_wif hostB [bipVal bitcoinObject, .str code, .str "wif".toList, ofData (.bytes (List.replicate 24 9)), optNet none] [])
      made := by
  obtain ⟨it, r, h1, h2⟩ := unit_create [] (some 100001) (some 7) (List.replicate 4 5) (List.replicate 24 9)
    (Or.inr ⟨Or.inl rfl, 100001, 7, rfl, rfl, by omega⟩) (by decide +kernel) (by decide) (by decide +kernel)
  exact ⟨it, createdVal r, (C86_intermediate_code hostB [] _ _ _).1 _ h1,
    (C86_create_new_encrypted_wif hostB (unit_lawful 1) bitcoinObject it "wif" _ none).1 _ h2⟩

end Bip38.Props
