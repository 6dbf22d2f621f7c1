import Verif.Props.WifMore
import Verif.Props.Address
import Verif.Props.Starts
import Verif.Props.Kinds
/-!
# Property C77: calls without optional arguments

The terms below leave out the optional arguments, as the calls in the documentation of the library do.
-/
namespace Bip38.Props
open Bip38 Spec

variable {P : Prims}

/-- The alphabet of Bitcoin. -/
def base58Alphabet : Str := "123456789ABCDEFGHJKLMNPQRSTUVWXYZabcdefghijkmnopqrstuvwxyz".toList

/-- C77: the functions of `libs/base58.py` use Bitcoin's alphabet. -/
theorem C77_base58 (b : Bytes) (t : Str) :
    b58encode b = b58encode b base58Alphabet ∧ b58decode t = b58decode t base58Alphabet ∧
    checkEncode P.sha256 b = checkEncode P.sha256 b base58Alphabet ∧ checkDecode P.sha256 t = checkDecode P.sha256 t base58Alphabet :=
  ⟨rfl, rfl, rfl, rfl⟩

/-- C77: `BIP38(coin)` is an object for mainnet; it can be constructed for every class of the library. -/
theorem C77_constructor : (∀ c : Coin, (∃ obj, BIP38.new (.coin c) = .ok obj ∧ obj.network = "mainnet" ∧ obj.cryptocurrency = c)
      ↔ ∃ v, ("mainnet", v) ∈ c.networks) ∧
    ∀ c ∈ Coins.all, ∃ v, ("mainnet", v) ∈ c.networks := by
  refine ⟨fun c => C24_constructor_iff c "mainnet", ?_⟩
  have h : ∀ c ∈ Coins.all, "mainnet" ∈ c.networkNames := by decide +kernel
  intro c hc
  obtain ⟨⟨n, v⟩, hv, hn⟩ := List.mem_map.mp (h c hc)
  simp only at hn
  subst hn
  exact ⟨v, hv⟩

/-- C77: the functions for WIFs write and read compressed WIFs of Bitcoin's mainnet: byte `80`, the key, byte `01`, checksum; 52 characters
beginning with `K` or `L`. -/
theorem C77_wif (hP : P.Lawful) (key : Bytes) (hk : key.length = 32) :
    ∃ w w5, privateKeyToWif P (.bytes key) = .ok w ∧ privateKeyToWif P (.str (hex key)) = .ok w ∧
      w = b58encode ([0x80] ++ key ++ [0x01] ++ checksum P ([0x80] ++ key ++ [0x01])) base58Alphabet ∧
      w.length = 52 ∧ (w.head? = some 'K' ∨ w.head? = some 'L') ∧
      wifToPrivateKey w = .ok (hex key) ∧ getWifType w = .ok "wif-compressed" ∧
      getWifChecksum w = .ok (hex (checksum P ([0x80] ++ key ++ [0x01]))) ∧
      encodeWif P (.bytes key) = .ok (w5, w) ∧ w5 = b58encode ([0x80] ++ key ++ checksum P ([0x80] ++ key)) base58Alphabet ∧
      decodeWif w = .ok (key, "wif-compressed", checksum P ([0x80] ++ key ++ [0x01])) ∧
      decodeWif w5 = .ok (key, "wif", checksum P ([0x80] ++ key)) := by
  have hn : Coins.Bitcoin.net? "mainnet" = some ⟨0x80, 0⟩ := by decide
  have hpre : prefixBytes 0x80 = [0x80] := by decide +kernel
  have htext := C07_wif_text P Coins.Bitcoin "mainnet" _ hn key hk "wif-compressed" (Or.inr rfl)
  obtain ⟨w, h1, h2, h3, h4⟩ := C07_wif_roundtrip P hP Coins.Bitcoin "mainnet" _ hn key hk "wif-compressed" (Or.inr rfl)
  have hw := Except.ok.inj (h1.symm.trans htext)
  have hpay : wifPayload 0x80 key "wif-compressed" = [0x80] ++ key ++ [0x01] := by simp [wifPayload, hpre]
  simp only [hpay] at hw h4
  obtain ⟨pre, w5, wc, e1, e2, e3, e4, e5, e6, e7⟩ := C49_any_prefix P hP 0x80 key hk
  have hpp : integerToBytes (0x80 : Int) = .ok [0x80] := by decide +kernel
  have henc := encodeWif_bytes (P := P) key hk 0x80 [0x80] hpp
  have hen2 := Except.ok.inj (e3.symm.trans henc)
  simp only [Prod.mk.injEq] at hen2
  have hp1 : pre = [0x80] := by
    have hdec := C01_decode_encode_bitcoin ([0x80] ++ key ++ checksum P ([0x80] ++ key))
    rw [hen2.1] at e4
    have hh := Except.ok.inj (e4.symm.trans hdec)
    have hl := congrArg List.length hh
    simp only [List.length_append, checksum_length hP] at hl
    rw [List.append_assoc, List.append_assoc] at hh
    exact (List.append_inj hh (by omega)).1
  subst hp1
  have hww : wc = w := by rw [hen2.2, hw]
  subst hww
  have hst := (C59_wif hP ⟨"Bitcoin", "mainnet", "1", 0, "5", 51, "KL", 52⟩ (by decide +kernel) Coins.Bitcoin (by decide +kernel) rfl
    (by decide) key hk).2
  obtain ⟨w', hw', hlen, ch, hch, hhead⟩ := hst
  have : w' = wc := Except.ok.inj (hw'.symm.trans h1)
  subst this
  refine ⟨w', w5, h1, ?_, hw, ?_, ?_, h2, h3, h4, ?_, hen2.1, ?_, ?_⟩
  · have := ((C49_key_argument P Coins.Bitcoin "mainnet" _ hn "wif-compressed" (Or.inr rfl)).2.1 (hex key) key ((C06_get_bytes_iff _ _).mp (getBytes_hex _))).1 hk
    exact this.trans h1
  · rcases hlen with h | h
    · simp at h
    · exact h
  · rw [hhead]
    simp at hch
    rcases hch with rfl | rfl
    · exact Or.inl rfl
    · exact Or.inr rfl
  · exact e3
  · exact e7
  · exact e6

/-- C77: `P2PKHAddress.encode` writes the address of the compressed key on Bitcoin's mainnet, `P2PKHAddress.decode` reads it. -/
theorem C77_address (hP : P.Lawful) (k : PublicKey) :
    ∃ a, p2pkhEncode P (.key k) = .ok a ∧
      a = b58encode ([0x00] ++ h160 P (sec1 k "compressed") ++ checksum P ([0x00] ++ h160 P (sec1 k "compressed"))) base58Alphabet ∧
      p2pkhDecode P a = .ok (hex (h160 P (sec1 k "compressed"))) := by
  have hpre : prefixBytes 0 = [0x00] := by decide +kernel
  have htext := C12_address_text P 0 k "compressed" bitcoinAlphabet
  obtain ⟨a, h1, h2⟩ := C12_address_roundtrip P hP 0 k "compressed" bitcoinAlphabet bitcoinAlphabet_ok
  refine ⟨a, h1, ?_, h2⟩
  have := Except.ok.inj (h1.symm.trans htext)
  rw [this]
  simp only [addressPayload, hpre]
  rfl

/-- C77: without network argument the methods work on the network of the object; without `detail` they return a WIF or an address; without WIF type and
seed a WIF for an uncompressed key is created from the random bytes. -/
theorem C77_methods (obj : BIP38) (w e code it pass : Str) (u : Bytes) (hu : u ≠ []) :
    obj.encrypt P w pass = obj.encrypt P w pass (some obj.network) ∧
    obj.decrypt P e pass = obj.decrypt P e pass (some obj.network) false ∧
    (∀ r, obj.decrypt P e pass = .ok r → ∃ w, r = .wif w) ∧
    obj.confirmCode P pass code = obj.confirmCode P pass code (some obj.network) false ∧
    (∀ r, obj.confirmCode P pass code = .ok r → ∃ a, r = .address a) ∧
    obj.createNewEncryptedWif P it (urandom24 := u) = obj.createNewEncryptedWif P it "wif" (.bytes u) (some obj.network) [] := by
  have hsel : obj.selectNetwork (some obj.network) = obj.selectNetwork none := select_some obj none
  refine ⟨?_, ?_, fun r hr => ?_, ?_, fun r hr => ?_, ?_⟩
  · unfold BIP38.encrypt
    rw [hsel]
  · unfold BIP38.decrypt
    rw [hsel]
  · rcases C55_decrypt_detail P obj e pass none with ⟨d, h1, _⟩ | ⟨x, h1, _⟩
    · exact ⟨d.wif, Except.ok.inj (hr.symm.trans h1)⟩
    · exact absurd (hr.symm.trans h1) (by simp)
  · unfold BIP38.confirmCode
    rw [hsel]
  · rcases C55_confirm_detail P obj code pass none with ⟨d, h1, _⟩ | ⟨x, h1, _⟩
    · exact ⟨d.address, Except.ok.inj (hr.symm.trans h1)⟩
    · exact absurd (hr.symm.trans h1) (by simp)
  · have hb : bytesOrRandom .none u = bytesOrRandom (.bytes u) [] := by
      cases u with
      | nil => exact absurd rfl hu
      | cons a t => rfl
    unfold BIP38.createNewEncryptedWif
    rw [hsel, hb]

/-- Cases: a key of 32 bytes, lawful primitives, an object, random bytes. -/
example : (toy 1 0xff).Lawful ∧ (List.replicate 32 (7 : UInt8)).length = 32 ∧ List.replicate 24 (3 : UInt8) ≠ [] ∧
    ∃ o, BIP38.new (.coin Coins.Bitcoin) = .ok o := ⟨toy_lawful 1 0xff, rfl, by decide, _, rfl⟩

end Bip38.Props
