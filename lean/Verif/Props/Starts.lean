import Verif.Lemmas.Starts
import Verif.Spec.Starts
import Verif.Props.Shape
import Verif.Props.Address
/-!
# Properties C58, C59: telling networks and coins apart by prefix, and the well-known first characters
-/
namespace Bip38.Props
open Bip38 Spec

variable {P : Prims}

/-! ## C58 -/

/-- The pairs of networks of one cryptocurrency that have the same WIF prefix. -/
def sharedWif : List (String × String × String) := [
  ("Bitcoin", "testnet", "regtest"), ("Divi", "mainnet", "testnet"), ("Dogecoin", "mainnet", "testnet"),
  ("Ravencoin", "mainnet", "testnet"), ("Stratis", "mainnet", "testnet")]

/-- The pairs that have the same address prefix as well. -/
def sharedAddress : List (String × String × String) := [("Bitcoin", "testnet", "regtest"), ("Divi", "mainnet", "testnet")]

/-- The pair of networks is listed, in either order. -/
def Listed (l : List (String × String × String)) (coin n m : String) : Prop := (coin, n, m) ∈ l ∨ (coin, m, n) ∈ l

instance (l : List (String × String × String)) (coin n m : String) : Decidable (Listed l coin n m) :=
  inferInstanceAs (Decidable (_ ∨ _))

theorem shared_check : ∀ c ∈ Coins.all, ∀ a ∈ c.networks, ∀ b ∈ c.networks, a.1 ≠ b.1 →
    ((a.2.wifPrefix = b.2.wifPrefix ↔ Listed sharedWif c.name a.1 b.1) ∧
     (a.2.addressPrefix = b.2.addressPrefix ↔ Listed sharedAddress c.name a.1 b.1)) := by decide +kernel

/-- C58: take a WIF made for one network of a listed cryptocurrency to another network of the same cryptocurrency. It is refused
with `WIFError`, unless the pair of networks is one of the five exceptions, for which it is read as the same key. -/
theorem C58_wif_networks (hP : P.Lawful) (c : Coin) (hc : c ∈ Coins.all) (n m : String) (v u : Net)
    (hn : c.net? n = some v) (hm : c.net? m = some u) (hnm : n ≠ m)
    (key : Bytes) (hk : key.length = 32) (type : String) (ht : IsWifType type) (w : Str)
    (hw : privateKeyToWif P (.bytes key) type c n = .ok w) :
    (Listed sharedWif c.name n m → wifToPrivateKey w c m = .ok (hex key) ∧ getWifType w c m = .ok type) ∧
    (¬ Listed sharedWif c.name n m → ∃ e, wifToPrivateKey w c m = .error e ∧ e.cls = .wifError) := by
  have hp := C36_proper c hc
  obtain ⟨h1, -⟩ := shared_check c hc (n, v) ((C36_lookup c hp n v).mp hn) (m, u) ((C36_lookup c hp m u).mp hm) hnm
  simp only at h1
  constructor
  · intro hl
    have he := h1.mpr hl
    obtain ⟨w', hw', hr, hty, -⟩ := C07_wif_roundtrip P hP c m u hm key hk type ht
    have : w' = w := by
      rw [C07_wif_text P c n v hn key hk type ht] at hw
      rw [C07_wif_text P c m u hm key hk type ht, ← he] at hw'
      exact Except.ok.inj (hw'.symm.trans hw)
    subst this
    exact ⟨hr, hty⟩
  · intro hl
    exact ⟨_, (C08_one_byte P hP c c n m v u hn hm (fun he => hl (h1.mp he)) (C36_prefixes c hc n v hn).1 (C36_prefixes c hc m u hm).1 key hk type ht w hw).1, rfl⟩

/-- C58: likewise for addresses. -/
theorem C58_address_networks (hP : P.Lawful) (c : Coin) (hc : c ∈ Coins.all) (n m : String) (v u : Net)
    (hn : c.net? n = some v) (hm : c.net? m = some u) (hnm : n ≠ m) (pk : PublicKey) (type : String) (a : Str)
    (ha : p2pkhEncode P (.key pk) v.addressPrefix type = .ok a) :
    (Listed sharedAddress c.name n m → p2pkhDecode P a u.addressPrefix = .ok (hex (h160 P (sec1 pk type)))) ∧
    (¬ Listed sharedAddress c.name n m → ∃ e, p2pkhDecode P a u.addressPrefix = .error e ∧ e.cls = .addressError) := by
  have hp := C36_proper c hc
  obtain ⟨-, h1⟩ := shared_check c hc (n, v) ((C36_lookup c hp n v).mp hn) (m, u) ((C36_lookup c hp m u).mp hm) hnm
  simp only at h1
  have hta := Except.ok.inj ((C12_address_text P v.addressPrefix pk type bitcoinAlphabet).symm.trans ha)
  have hdec : b58decode a = .ok (addressPayload P v.addressPrefix pk type ++ checksum P (addressPayload P v.addressPrefix pk type)) := by
    rw [← hta, dec_enc]
  constructor
  · intro hl
    have he := h1.mpr hl
    obtain ⟨a', ha', hd⟩ := C12_address_roundtrip P hP v.addressPrefix pk type bitcoinAlphabet bitcoinAlphabet_ok
    rw [ha] at ha'
    rw [← he, Except.ok.inj ha']
    exact hd
  · intro hl
    refine C13_bad_payload P hP u.addressPrefix a _ _ hdec ?_
    rintro ⟨hash, hh, he⟩
    apply hl
    apply h1.mp
    have h2 := (List.append_inj' he (by rw [h160_length hP, hh])).1
    exact prefixBytes_inj h2

/-- A case of C58: every Dogecoin WIF of the main network is read on the test network; a Litecoin WIF is not. -/
example : Listed sharedWif "Dogecoin" "testnet" "mainnet" ∧ ¬ Listed sharedAddress "Dogecoin" "mainnet" "testnet"
    ∧ ¬ Listed sharedWif "Litecoin" "mainnet" "testnet"
    ∧ Coins.Dogecoin ∈ Coins.all ∧ Coins.Dogecoin.name = "Dogecoin" ∧ Coins.Dogecoin.net? "mainnet" = some ⟨0xf1, 0x1e⟩
    ∧ Coins.Dogecoin.net? "testnet" = some ⟨0xf1, 0x71⟩ := by decide +kernel

/-! ## C59 -/

/-- The text has the given length (if not 0) and starts with one of the given characters. -/
def Begins (s : Str) (chars : String) (length : Nat) : Prop :=
  (length = 0 ∨ s.length = length) ∧ ∃ ch ∈ chars.toList, s.head? = some ch

def startsCheck (r : Starts) (v : Net) : Bool :=
  (if v.addressPrefix = 0 then decide (r.address = "1" ∧ r.addressLength = 0) else
    startCheck (prefixBytes v.addressPrefix) 24 r.address r.addressLength) &&
  startCheck (prefixBytes v.wifPrefix) 36 r.wif r.wifLength && startCheck (prefixBytes v.wifPrefix) 37 r.compressed r.compressedLength

theorem starts_check : ∀ r ∈ starts, ∀ c ∈ Coins.all, c.name = r.coin → ∀ e ∈ c.networks, e.1 = r.network → startsCheck r e.2 = true := by
  decide +kernel

/-- C59: the table of first characters has every network of every listed cryptocurrency. -/
theorem C59_complete (c : Coin) (hc : c ∈ Coins.all) (n : String) (hn : n ∈ c.networkNames) :
    ∃ r ∈ starts, r.coin = c.name ∧ r.network = n := by
  have : ∀ c ∈ Coins.all, ∀ n ∈ c.networkNames, ∃ r ∈ starts, r.coin = c.name ∧ r.network = n := by decide +kernel
  exact this c hc n hn

theorem startsCheck_net (r : Starts) (hr : r ∈ starts) (c : Coin) (hc : c ∈ Coins.all) (hname : c.name = r.coin) (v : Net)
    (hv : c.net? r.network = some v) : startsCheck r v = true :=
  starts_check r hr c hc hname (r.network, v) ((C36_lookup c (C36_proper c hc) _ v).mp hv) rfl

/-- C59: first character and length of every address. -/
theorem C59_address (hP : P.Lawful) (r : Starts) (hr : r ∈ starts) (c : Coin) (hc : c ∈ Coins.all) (hname : c.name = r.coin) (v : Net)
    (hv : c.net? r.network = some v) (pk : PublicKey) (type : String) :
    ∃ a, p2pkhEncode P (.key pk) v.addressPrefix type = .ok a ∧ Begins a r.address r.addressLength
      ∧ 25 ≤ a.length ∧ (r.addressLength = 0 → a.length ≤ 34) := by
  have hs := startsCheck_net r hr c hc hname v hv
  refine ⟨_, p2pkh_text pk type, ?_⟩
  have hcl := checksum_length hP (addressPayload P v.addressPrefix pk type)
  have hhl := h160_length hP (sec1 pk type)
  unfold addressText
  obtain ⟨chk, hchk⟩ : ∃ x, checksum P (addressPayload P v.addressPrefix pk type) = x := ⟨_, rfl⟩
  rw [hchk] at hcl ⊢
  unfold addressPayload
  obtain ⟨h, hh⟩ : ∃ x, h160 P (sec1 pk type) = x := ⟨_, rfl⟩
  rw [hh] at hhl ⊢
  have hm : (h ++ chk).length = 24 := by simp [hhl, hcl]
  rw [List.append_assoc]
  obtain ⟨rest, hrest⟩ : ∃ x, h ++ chk = x := ⟨_, rfl⟩
  rw [hrest] at hm ⊢
  have hge := b58encode_length_ge (prefixBytes v.addressPrefix ++ rest)
  rw [List.length_append, hm] at hge
  have hfb := fromBE_prefixBytes v.addressPrefix
  have hpl : 1 ≤ (prefixBytes v.addressPrefix).length := List.length_pos_iff.mpr (prefixBytes_ne_nil _)
  unfold startsCheck at hs
  simp only [Bool.and_eq_true] at hs
  obtain ⟨⟨ha, -⟩, -⟩ := hs
  have hup : v.addressPrefix = 0 → (b58encode (prefixBytes v.addressPrefix ++ rest)).length ≤ 34 := by
    intro h0
    rw [h0, prefixBytes_byte 0 (by omega)]
    exact zero_length_le rest hm
  suffices hb : Begins (b58encode (prefixBytes v.addressPrefix ++ rest)) r.address r.addressLength ∧ (r.addressLength = 0 → v.addressPrefix = 0) from
    ⟨hb.1, by omega, fun h => hup (hb.2 h)⟩
  split at ha
  · rename_i h0
    simp only [decide_eq_true_eq] at ha
    have := C11_address (P := P) v h0 pk type
    unfold addressText at this
    rw [hchk, addressPayload, hh, List.append_assoc, hrest] at this
    obtain ⟨t, ht⟩ := this
    rw [ha.1, ha.2, ← ht]
    exact ⟨⟨Or.inl rfl, '1', by decide, rfl⟩, fun _ => h0⟩
  · have h34 : 0 < r.addressLength := by
      simp only [startCheck, Bool.and_eq_true, decide_eq_true_eq] at ha
      exact ha.1.2
    obtain ⟨h1, h2⟩ := startCheck_sound _ _ _ _ ha rest hm
    exact ⟨⟨Or.inr h1, h2⟩, by omega⟩

/-- C59: first character and length of every WIF. -/
theorem C59_wif (hP : P.Lawful) (r : Starts) (hr : r ∈ starts) (c : Coin) (hc : c ∈ Coins.all) (hname : c.name = r.coin)
    (hn : r.network ∈ c.networkNames) (key : Bytes) (hk : key.length = 32) :
    (∃ w, privateKeyToWif P (.bytes key) "wif" c r.network = .ok w ∧ Begins w r.wif r.wifLength) ∧
    (∃ w, privateKeyToWif P (.bytes key) "wif-compressed" c r.network = .ok w ∧ Begins w r.compressed r.compressedLength) := by
  have hp := C36_proper c hc
  obtain ⟨⟨n, v⟩, hmem, hnv⟩ := List.mem_map.mp hn
  simp only at hnv
  rw [hnv] at hmem
  have hv : c.net? r.network = some v := (C36_lookup c hp _ v).mpr hmem
  have hs := startsCheck_net r hr c hc hname v hv
  unfold startsCheck at hs
  simp only [Bool.and_eq_true] at hs
  obtain ⟨⟨-, h1⟩, h2⟩ := hs
  constructor
  · refine ⟨_, C07_wif_text P c _ v hv key hk _ (Or.inl rfl), ?_⟩
    have hcl := checksum_length hP (wifPayload v.wifPrefix key "wif")
    generalize checksum P (wifPayload v.wifPrefix key "wif") = chk at hcl
    rw [wifPayload, List.append_assoc, List.append_assoc]
    obtain ⟨h3, h4⟩ := startCheck_sound _ _ _ _ h1 (key ++ ((if "wif" = "wif-compressed" then [1] else []) ++ chk)) (by simp [hk, hcl])
    exact ⟨Or.inr h3, h4⟩
  · refine ⟨_, C07_wif_text P c _ v hv key hk _ (Or.inr rfl), ?_⟩
    have hcl := checksum_length hP (wifPayload v.wifPrefix key "wif-compressed")
    generalize checksum P (wifPayload v.wifPrefix key "wif-compressed") = chk at hcl
    rw [wifPayload, List.append_assoc, List.append_assoc]
    obtain ⟨h3, h4⟩ := startCheck_sound _ _ _ _ h2 (key ++ ((if "wif-compressed" = "wif-compressed" then [1] else []) ++ chk)) (by simp [hk, hcl])
    exact ⟨Or.inr h3, h4⟩

/-- A case of C59: some rows, with the characters people know. -/
example :
    (⟨"Bitcoin", "mainnet", "1", 0, "5", 51, "KL", 52⟩ : Starts) ∈ starts ∧ ⟨"Bitcoin", "testnet", "mn", 34, "9", 51, "c", 52⟩ ∈ starts ∧
    ⟨"Litecoin", "mainnet", "L", 34, "6", 51, "T", 52⟩ ∈ starts ∧ ⟨"Dash", "mainnet", "X", 34, "7", 51, "X", 52⟩ ∈ starts ∧
    ⟨"Zcash", "mainnet", "t", 35, "5", 51, "KL", 52⟩ ∈ starts ∧ ⟨"Peercoin", "mainnet", "P", 34, "7", 51, "U", 52⟩ ∈ starts ∧
    ⟨"Qtum", "mainnet", "Q", 34, "5", 51, "KL", 52⟩ ∈ starts ∧ Coins.Zcash.net? "mainnet" = some ⟨0x80, 0x1cb8⟩ ∧ Coins.Zcash ∈ Coins.all := by
  simp only [starts]
  decide +kernel

end Bip38.Props
