import Verif.Props.SourceBase58
/-!
# Property C85: the text of `bip38/wif.py` and `bip38/p2pkh_address.py`
-/
namespace Bip38.Props
open Bip38 Spec Src

variable (H : Host)

/-- C85: the functions of `bip38/wif.py`, on every kind of key, every text, class and network. -/
theorem C85_wif (d : Data) (w : Str) (p : Int) (t : String) (c : Coin) (n : String) :
    EndsAs (wif_encode_wif H [ofData d, .int p] []) (encodeWif H.P d p) wifPair
      ∧ EndsAs (wif_decode_wif H [.str w, .int p] []) (decodeWif w p) wifParts
      ∧ EndsAs (wif_private_key_to_wif H [ofData d, .str t.toList, .coin (.coin c), .str n.toList] []) (privateKeyToWif H.P d t c n) .str
      ∧ EndsAs (wif_wif_to_private_key H [.str w, .coin (.coin c), .str n.toList] []) (wifToPrivateKey w c n) .str
      ∧ EndsAs (wif_get_wif_type H [.str w, .coin (.coin c), .str n.toList] []) (getWifType w c n) (fun t => .str t.toList)
      ∧ EndsAs (wif_get_wif_checksum H [.str w, .coin (.coin c), .str n.toList] []) (getWifChecksum w c n) .str :=
  ⟨endsAs (encode_wif_eq H d p), endsAs (decode_wif_eq H w p), endsAs (private_key_to_wif_eq H d t c n), endsAs (wif_to_private_key_eq H w c n),
    endsAs (get_wif_type_eq H w c n), endsAs (get_wif_checksum_eq H w c n)⟩

/-- C85: on the text: the WIF of a key, written out, and read back. -/
theorem C85_wif_roundtrip (hP : H.P.Lawful) (c : Coin) (n : String) (v : Net) (hn : c.net? n = some v) (key : Bytes) (hk : key.length = 32)
    (type : String) (ht : IsWifType type) :
    Returns (wif_private_key_to_wif H [.bytes key, .str type.toList, .coin (.coin c), .str n.toList] []) (.str (wifText H.P v key type))
      ∧ Returns (wif_wif_to_private_key H [.str (wifText H.P v key type), .coin (.coin c), .str n.toList] []) (.str (hex key))
      ∧ Returns (wif_get_wif_type H [.str (wifText H.P v key type), .coin (.coin c), .str n.toList] []) (.str type.toList)
      ∧ Returns (wif_get_wif_checksum H [.str (wifText H.P v key type), .coin (.coin c), .str n.toList] [])
          (.str (hex (checksum H.P (wifPayload v.wifPrefix key type)))) := by
  have h0 := C07_wif_text H.P c n v hn key hk type ht
  obtain ⟨w, h1, h2, h3, h4⟩ := C07_wif_roundtrip H.P hP c n v hn key hk type ht
  have hw : w = wifText H.P v key type := by
    rw [h1] at h0
    injection h0
  subst hw
  have h := C85_wif H (.bytes key) (wifText H.P v key type) 0 type c n
  exact ⟨h.2.2.1.1 _ h1, h.2.2.2.1.1 _ h2, h.2.2.2.2.1.1 _ h3, h.2.2.2.2.2.1 _ h4⟩

/-- C85: on the text: the findings C09 and C10; any checksum and any marker are accepted. -/
theorem C85_wif_unchecked (c : Coin) (n : String) (v : Net) (hn : c.net? n = some v) (key : Bytes) (hk : key.length = 32) (marker : UInt8)
    (chk : Bytes) (hl : chk.length = 4) :
    Returns (wif_wif_to_private_key H [.str (b58encode (prefixBytes v.wifPrefix ++ key ++ [marker] ++ chk)), .coin (.coin c), .str n.toList] [])
      (.str (hex key)) :=
  (C85_wif H .none _ 0 "" c n).2.2.2.1.1 _ (C10_any_marker_accepted c n v hn key hk marker chk hl).2

/-- C85: `P2PKHAddress.encode` and `decode`, with any of their keyword arguments given or left out. -/
theorem C85_address (hP : H.P.Lawful) (pk : PkArg) (s : Str) (kw : List (Name × Val)) (p : Int) (t : String) (a : Str) (hk : AddressKw kw p t a)
    (h1 : getField kw v!"public_key" = none) (h2 : getField kw v!"address" = none) :
    EndsAs (P2PKHAddress_encode H [ofPk pk] kw) (p2pkhEncode H.P pk p t a) .str
      ∧ EndsAs (P2PKHAddress_decode H [.str s] kw) (p2pkhDecode H.P s p a) .str :=
  ⟨endsAs (p2pkh_encode_eq H hP pk kw hk h1), endsAs (p2pkh_decode_eq H s kw hk h2)⟩

/-- C85: on the text: the address of a public key, written out, and read back. -/
theorem C85_address_roundtrip (hP : H.P.Lawful) (n : Nat) (k : PublicKey) (type : String) (a : Str) (ha : ValidAlphabet a) :
    let s := b58encode (addressPayload H.P n k type ++ checksum H.P (addressPayload H.P n k type)) a
    Returns (P2PKHAddress_encode H [publicVal k] [(v!"address_prefix", .int n), (v!"public_key_type", .str type.toList), (v!"alphabet", .str a)])
        (.str s)
      ∧ Returns (P2PKHAddress_decode H [.str s] [(v!"address_prefix", .int n), (v!"alphabet", .str a)]) (.str (hex (h160 H.P (sec1 k type)))) := by
  intro s
  obtain ⟨s', h1, h2⟩ := C12_address_roundtrip H.P hP n k type a ha
  have h0 := C12_address_text H.P n k type a
  have hs : s' = s := by
    rw [h1] at h0
    injection h0
  subst hs
  constructor
  · exact (C85_address H hP (.key k) [] _ n type a ⟨rfl, rfl, rfl, ha.two⟩ rfl rfl).1.1 _ h1
  · exact (C85_address H hP (.key k) s _ n "compressed" a ⟨rfl, rfl, rfl, ha.two⟩ rfl rfl).2.1 _ h2

example : Coins.Bitcoin.net? "mainnet" = some ⟨0x80, 0⟩ ∧ AddressKw [] 0 "compressed" bitcoinAlphabet := by
  exact ⟨by decide +kernel, rfl, rfl, rfl, by decide⟩

end Bip38.Props
