import Verif.Spec.Wif
import Verif.Lemmas.Wif
import Verif.Props.Coins
import Verif.Lemmas.Report
/-!
# Properties C07 - C10: Wallet Import Format
-/
namespace Bip38.Props
open Bip38 Spec

variable (P : Prims)

theorem lookupNet_ok {c : Coin} {n : String} {v : Net} (h : c.net? n = some v) : lookupNet c n = .ok v := by
  simp [lookupNet, h]

theorem wif_decode_aux (v : Net) (key : Bytes) (hk : key.length = 32) (type : String)
    (ht : IsWifType type) (chk : Bytes) (hc : chk.length = 4) :
    decodeWif (b58encode (wifPayload v.wifPrefix key type ++ chk)) (v.wifPrefix : Int) = .ok (key, type, chk) := by
  have hpre := integerToBytes_prefix v.wifPrefix
  rcases ht with rfl | rfl
  · apply decodeWif_uncompressed _ _ _ _ _ hpre hk hc
    rw [dec_enc]; simp [wifPayload]
  · apply decodeWif_compressed _ _ _ _ _ 1 hpre hk hc
    rw [dec_enc]; simp [wifPayload]

/-- The WIF produced for a key is the Base58Check text of its payload. -/
theorem C07_wif_text (c : Coin) (n : String) (v : Net) (hn : c.net? n = some v)
    (key : Bytes) (hk : key.length = 32) (type : String) (ht : IsWifType type) :
    privateKeyToWif P (.bytes key) type c n
      = .ok (b58encode (wifPayload v.wifPrefix key type ++ checksum P (wifPayload v.wifPrefix key type))) := by
  have hpre := integerToBytes_prefix v.wifPrefix
  unfold privateKeyToWif
  rw [lookupNet_ok hn]
  simp only [bind, Except.bind, raiseIf]
  rw [encodeWif_bytes key hk _ _ hpre]
  rcases ht with rfl | rfl <;> simp [WIF_TYPES, wifPayload]

/-- C07: WIF round trip, for every coin and network (prefixes of any size), every 32-byte key and both types. -/
theorem C07_wif_roundtrip (hP : P.Lawful) (c : Coin) (n : String) (v : Net) (hn : c.net? n = some v)
    (key : Bytes) (hk : key.length = 32) (type : String) (ht : IsWifType type) :
    ∃ w, privateKeyToWif P (.bytes key) type c n = .ok w
      ∧ wifToPrivateKey w c n = .ok (hex key)
      ∧ getWifType w c n = .ok type
      ∧ getWifChecksum w c n = .ok (hex (checksum P (wifPayload v.wifPrefix key type))) := by
  refine ⟨_, C07_wif_text P c n v hn key hk type ht, ?_⟩
  have hd := wif_decode_aux v key hk type ht (checksum P (wifPayload v.wifPrefix key type)) (checksum_length hP _)
  simp only [wifToPrivateKey, getWifType, getWifChecksum, lookupNet_ok hn, bind, Except.bind]
  rw [hd]
  simp

/-- C07: passing the key as hexadecimal text gives the same WIF. -/
theorem C07_hex_key (key : Bytes) (hk : key.length = 32) (type : String) (c : Coin) (n : String) :
    privateKeyToWif P (.str (hex key)) type c n = privateKeyToWif P (.bytes key) type c n := by
  unfold privateKeyToWif
  cases hl : lookupNet c n with
  | error e => rfl
  | ok v =>
    simp only [bind, Except.bind]
    rw [encodeWif_data (.str (hex key)) key (getBytes_hex key) hk]

theorem encodeWif_length (d : Data) (key : Bytes) (hd : getBytes d = .ok key) (hk : key.length ≠ 32) (hn : d ≠ .none) (n : Int) :
    encodeWif P d n = .error ⟨.secp256k1Error, report "Invalid private key length" "64" (toString d.len)⟩ := by
  unfold encodeWif
  rw [hd, errText_one]
  simp [bind, Except.bind, raiseIf, hk, hn]

/-- C07: a key of any other length is refused, and so is any other type. -/
theorem C07_wrong_length (c : Coin) (n : String) (v : Net) (hn : c.net? n = some v)
    (key : Bytes) (hk : key.length ≠ 32) (type : String) (ht : IsWifType type) :
    privateKeyToWif P (.bytes key) type c n
        = .error ⟨.secp256k1Error, report "Invalid private key length" "64" (toString key.length)⟩
      ∧ privateKeyToWif P (.str (hex key)) type c n
        = .error ⟨.secp256k1Error, report "Invalid private key length" "64" (toString (2 * key.length))⟩ := by
  have hw : type ∈ WIF_TYPES := by rcases ht with rfl | rfl <;> decide
  have hbad : ∀ d x, encodeWif P d v.wifPrefix = .error x → privateKeyToWif P d type c n = .error x := by
    intro d x hx
    unfold privateKeyToWif
    rw [lookupNet_ok hn]
    simp [bind, Except.bind, raiseIf, hw, hx]
  have hl := hex_length key
  exact ⟨hbad _ _ (encodeWif_length _ _ key (getBytes_bytes key _) hk (by simp) _),
    hbad _ _ (by rw [encodeWif_length P (.str (hex key)) key (getBytes_hex key) hk (by simp), ← hl]; rfl)⟩

theorem C07_wrong_type (c : Coin) (n : String) (d : Data) (type : String) (ht : ¬ IsWifType type) :
    privateKeyToWif P d type c n = .error ⟨.wifError, report "Wrong WIF type" "'wif', 'wif-compressed'" type⟩ := by
  have : type ∉ WIF_TYPES := by
    intro h; apply ht; simpa [WIF_TYPES, IsWifType] using h
  have hq : quotes WIF_TYPES = "'wif', 'wif-compressed'" := by decide
  rw [← hq, ← errText_list _ _ _ (by decide)]
  simp [privateKeyToWif, raiseIf, this, bind, Except.bind]

/-! ## C08 -/

/-- The bytes of one prefix do not begin with those of another one that has as many bytes or one byte less. -/
theorem prefix_clash {u v : Nat} (hne : u ≠ v) (hdiv : v = 0 ∨ u / 256 ≠ v) {a b : Bytes} (h : prefixBytes u ++ a = prefixBytes v ++ b)
    (hl : (prefixBytes u).length = (prefixBytes v).length ∨ (prefixBytes u).length = (prefixBytes v).length + 1) : False := by
  rcases hl with hl | hl
  · exact hne (prefixBytes_inj (List.append_inj h hl).1)
  · rw [prefixBytes] at h hl
    have hv := List.length_pos_iff.mpr (prefixBytes_ne_nil v)
    split at h
    · rename_i h1; simp only [h1, if_true, List.length_cons, List.length_nil] at hl; omega
    · rename_i h1
      simp only [h1, if_false, List.length_append, List.length_cons, List.length_nil] at hl
      rw [List.append_assoc] at h
      have := prefixBytes_inj (List.append_inj h (by omega)).1
      omega

/-- C08: the WIF of one network is refused on a network with another prefix, if neither prefix is the other one with a byte added at its
end. That is so for all prefixes of one byte (`C08_one_byte`), and `C08_longer_prefix` shows that it is needed. -/
theorem C08_other_network (hP : P.Lawful) (c d : Coin) (n m : String) (v u : Net)
    (hn : c.net? n = some v) (hm : d.net? m = some u) (hne : v.wifPrefix ≠ u.wifPrefix)
    (h1 : v.wifPrefix = 0 ∨ u.wifPrefix / 256 ≠ v.wifPrefix) (h2 : u.wifPrefix = 0 ∨ v.wifPrefix / 256 ≠ u.wifPrefix)
    (key : Bytes) (hk : key.length = 32) (type : String) (ht : IsWifType type) (w : Str)
    (hw : privateKeyToWif P (.bytes key) type c n = .ok w) :
    wifToPrivateKey w d m = .error ⟨.wifError, "Invalid Wallet Import Format (WIF)"⟩ ∧
    getWifType w d m = .error ⟨.wifError, "Invalid Wallet Import Format (WIF)"⟩ ∧
    getWifChecksum w d m = .error ⟨.wifError, "Invalid Wallet Import Format (WIF)"⟩ := by
  rw [C07_wif_text P c n v hn key hk type ht] at hw
  have hw' := (Except.ok.inj hw).symm
  have hdec : b58decode w = .ok (wifPayload v.wifPrefix key type ++ checksum P (wifPayload v.wifPrefix key type)) := by
    rw [hw', dec_enc]
  suffices hx : decodeWif w u.wifPrefix = .error ⟨.wifError, "Invalid Wallet Import Format (WIF)"⟩ by
    simp only [wifToPrivateKey, getWifType, getWifChecksum, lookupNet_ok hm, bind, Except.bind, hx]
    exact ⟨trivial, trivial, trivial⟩
  by_cases hp : prefixBytes u.wifPrefix <+: (wifPayload v.wifPrefix key type ++ checksum P (wifPayload v.wifPrefix key type))
  · obtain ⟨rest, hr⟩ := hp
    rw [← hr] at hdec
    rw [decodeWif_payload w u.wifPrefix _ rest (integerToBytes_prefix _) hdec]
    refine if_pos ?_
    have hlen := congrArg List.length hr
    have hck := checksum_length hP (wifPayload v.wifPrefix key type)
    have hm : (if type = "wif-compressed" then [(1 : UInt8)] else []).length = 0
        ∨ (if type = "wif-compressed" then [(1 : UInt8)] else []).length = 1 := by split <;> simp
    rw [List.length_append, List.length_append, hck] at hlen
    simp only [wifPayload, List.length_append, hk] at hlen
    simp only [wifPayload, List.append_assoc] at hr
    have hd : (dropLastN 4 rest).length = rest.length - 4 := by simp [dropLastN]
    rw [hd]
    by_contra hcon
    rcases Nat.lt_trichotomy (prefixBytes u.wifPrefix).length (prefixBytes v.wifPrefix).length with hlt | heq | hgt
    · exact prefix_clash hne h2 hr.symm (by omega)
    · exact prefix_clash (Ne.symm hne) h1 hr (by omega)
    · exact prefix_clash (Ne.symm hne) h1 hr (by omega)
  · exact decodeWif_wrong_prefix w u.wifPrefix _ _ (integerToBytes_prefix _) hdec hp

/-- C08 for prefixes of one byte, as all coins of the library have them (`C36_prefixes`): any two different prefixes. -/
theorem C08_one_byte (hP : P.Lawful) (c d : Coin) (n m : String) (v u : Net)
    (hn : c.net? n = some v) (hm : d.net? m = some u) (hne : v.wifPrefix ≠ u.wifPrefix) (hv : v.wifPrefix < 256) (hu : u.wifPrefix < 256)
    (key : Bytes) (hk : key.length = 32) (type : String) (ht : IsWifType type) (w : Str)
    (hw : privateKeyToWif P (.bytes key) type c n = .ok w) :
    wifToPrivateKey w d m = .error ⟨.wifError, "Invalid Wallet Import Format (WIF)"⟩ ∧
    getWifType w d m = .error ⟨.wifError, "Invalid Wallet Import Format (WIF)"⟩ ∧
    getWifChecksum w d m = .error ⟨.wifError, "Invalid Wallet Import Format (WIF)"⟩ :=
  C08_other_network P hP c d n m v u hn hm hne (by omega) (by omega) key hk type ht w hw

/-- C08 for any two networks of the library. -/
theorem C08_library (hP : P.Lawful) (c d : Coin) (hc : c ∈ Coins.all) (hd : d ∈ Coins.all) (n m : String) (v u : Net)
    (hn : c.net? n = some v) (hm : d.net? m = some u) (hne : v.wifPrefix ≠ u.wifPrefix)
    (key : Bytes) (hk : key.length = 32) (type : String) (ht : IsWifType type) (w : Str)
    (hw : privateKeyToWif P (.bytes key) type c n = .ok w) :
    wifToPrivateKey w d m = .error ⟨.wifError, "Invalid Wallet Import Format (WIF)"⟩ :=
  (C08_one_byte P hP c d n m v u hn hm hne (C36_prefixes c hc n v hn).1 (C36_prefixes d hd m u hm).1 key hk type ht w hw).1

/-- C08 fails for prefixes of different lengths: if the prefix of one network is that of another network with a byte added, then every
uncompressed WIF of the first network is read on the second, as a compressed WIF of another key. -/
theorem C08_longer_prefix (hP : P.Lawful) (c d : Coin) (n m : String) (v u : Net)
    (hn : c.net? n = some v) (hm : d.net? m = some u) (hu : u.wifPrefix ≠ 0) (hv : v.wifPrefix / 256 = u.wifPrefix)
    (key : Bytes) (hk : key.length = 32) (w : Str) (hw : privateKeyToWif P (.bytes key) "wif" c n = .ok w) :
    wifToPrivateKey w d m = .ok (hex (UInt8.ofNat (v.wifPrefix % 256) :: key.take 31)) ∧ getWifType w d m = .ok "wif-compressed" := by
  rw [C07_wif_text P c n v hn key hk "wif" (.inl rfl)] at hw
  have hw' := (Except.ok.inj hw).symm
  have hpre : prefixBytes v.wifPrefix = prefixBytes u.wifPrefix ++ [UInt8.ofNat (v.wifPrefix % 256)] := by
    rw [prefixBytes, if_neg (by omega), hv]
  obtain ⟨k, b, hkb⟩ : ∃ k b, key = k ++ [b] := by
    refine ⟨key.take 31, key.getD 31 0, ?_⟩
    rw [List.getD_eq_getElem _ _ (by omega), ← List.take_concat_get' _ _ (by omega)]
    simp [← hk]
  have hkl : k.length = 31 := by rw [hkb] at hk; simpa using hk
  have hdec : b58decode w = .ok (prefixBytes u.wifPrefix ++ (UInt8.ofNat (v.wifPrefix % 256) :: k) ++ [b]
      ++ checksum P (wifPayload v.wifPrefix key "wif")) := by
    rw [hw', dec_enc]
    congr 2
    simp [wifPayload, hpre, hkb]
  have hd := decodeWif_compressed w u.wifPrefix _ (UInt8.ofNat (v.wifPrefix % 256) :: k) _ b (integerToBytes_prefix _)
    (by simp [hkl]) (checksum_length hP _) hdec
  have ht : key.take 31 = k := by rw [hkb, List.take_left' hkl]
  simp only [wifToPrivateKey, getWifType, lookupNet_ok hm, bind, Except.bind, hd, ht]
  simp

/-- C08: on one network, different keys or different types give different WIFs. -/
theorem C08_injective (hP : P.Lawful) (c : Coin) (n : String) (v : Net) (hn : c.net? n = some v)
    (k1 k2 : Bytes) (h1 : k1.length = 32) (h2 : k2.length = 32) (t1 t2 : String) (ht1 : IsWifType t1) (ht2 : IsWifType t2)
    (he : privateKeyToWif P (.bytes k1) t1 c n = privateKeyToWif P (.bytes k2) t2 c n) : k1 = k2 ∧ t1 = t2 := by
  obtain ⟨w1, hw1, hk1, hty1, _⟩ := C07_wif_roundtrip P hP c n v hn k1 h1 t1 ht1
  obtain ⟨w2, hw2, hk2, hty2, _⟩ := C07_wif_roundtrip P hP c n v hn k2 h2 t2 ht2
  rw [hw1, hw2] at he
  have hw : w1 = w2 := Except.ok.inj he
  subst hw
  rw [hk1] at hk2; rw [hty1] at hty2
  exact ⟨hex_inj (Except.ok.inj hk2), Except.ok.inj hty2⟩

/-- A class with prefixes of different lengths. -/
example : let c : Coin := { name := "Own", networks := [("mainnet", ⟨0x80, 0⟩), ("testnet", ⟨0x8001, 0⟩)], alphabet := none }
    c.net? "testnet" = some ⟨0x8001, 0⟩ ∧ c.net? "mainnet" = some ⟨0x80, 0⟩ ∧ 0x80 ≠ 0 ∧ 0x8001 / 256 = 0x80 := by decide

/-- Prefixes of two bytes that satisfy the hypotheses of `C08_other_network`. -/
example : 0x8001 ≠ 0x8102 ∧ (0x8001 = 0 ∨ 0x8102 / 256 ≠ 0x8001) ∧ (0x8102 = 0 ∨ 0x8001 / 256 ≠ 0x8102) := by decide

example : Coins.Bitcoin.net? "mainnet" = some ⟨0x80, 0x00⟩ ∧ Coins.Bitcoin.net? "testnet" = some ⟨0xef, 0x6f⟩
    ∧ ProperCoin Coins.Bitcoin ∧ IsWifType "wif" := ⟨by decide, by decide, by decide +kernel, Or.inl rfl⟩

/-! ## C09, C10: what `decode_wif` does not check -/

/-- C09 and C10, exact acceptance: `decode_wif` accepts a text exactly when its payload is the prefix of the network, 32 key
bytes, possibly one more byte of any value, and any 4 bytes; nothing ties the last 4 bytes to the rest. -/
theorem C09_decode_wif_iff (w : Str) (wifPrefix : Nat) (key chk : Bytes) (type : String) :
    decodeWif w (wifPrefix : Int) = .ok (key, type, chk) ↔ key.length = 32 ∧ chk.length = 4 ∧
      ((type = "wif" ∧ b58decode w = .ok (prefixBytes wifPrefix ++ key ++ chk)) ∨
       (type = "wif-compressed" ∧ ∃ marker, b58decode w = .ok (prefixBytes wifPrefix ++ key ++ [marker] ++ chk))) :=
  decodeWif_ok_iff w wifPrefix _ (integerToBytes_prefix wifPrefix) key chk type

/-- C09 refuted: for every key, every type, every coin network and all 4 checksum bytes (right or wrong) the text is accepted
and gives the key. -/
theorem C09_any_checksum_accepted (c : Coin) (n : String) (v : Net) (hn : c.net? n = some v)
    (key : Bytes) (hk : key.length = 32) (type : String) (ht : IsWifType type) (chk : Bytes) (hl : chk.length = 4) :
    wifToPrivateKey (b58encode (wifPayload v.wifPrefix key type ++ chk)) c n = .ok (hex key)
    ∧ getWifType (b58encode (wifPayload v.wifPrefix key type ++ chk)) c n = .ok type := by
  have hd := wif_decode_aux v key hk type ht chk hl
  simp only [wifToPrivateKey, getWifType, lookupNet_ok hn, bind, Except.bind]
  rw [hd]; simp

/-- C09 refuted: the expectation "a WIF with a wrong checksum is rejected" is false for every choice of hash function. -/
theorem C09_wrong_checksum_refuted (hP : P.Lawful) :
    ¬ (∀ (w : Str) (payload chk : Bytes), b58decode w = .ok (payload ++ chk) → chk.length = 4 → chk ≠ checksum P payload →
        ∃ e, wifToPrivateKey w = .error e) := by
  intro h
  have hk : (List.replicate 32 (5 : UInt8)).length = 32 := by simp
  let payload := wifPayload 0x80 (List.replicate 32 5) "wif"
  let bad : Bytes := (checksum P payload).map (· + 1)
  have hlen : bad.length = 4 := by simp [bad, checksum_length hP]
  have hbad : bad ≠ checksum P payload := by
    intro hb
    have hl := checksum_length hP payload
    match hcs : checksum P payload, hl with
    | c :: t, _ =>
      simp only [bad, hcs, List.map_cons, List.cons.injEq] at hb
      have := congrArg UInt8.toNat hb.1
      have hc := c.toNat_lt
      rw [UInt8.toNat_add] at this
      simp at this
      omega
  obtain ⟨e, he⟩ := h (b58encode (payload ++ bad)) payload bad (dec_enc _) hlen hbad
  have hok := (C09_any_checksum_accepted Coins.Bitcoin "mainnet" ⟨0x80, 0x00⟩ (by decide)
    (List.replicate 32 5) hk "wif" (Or.inl rfl) bad hlen).1
  rw [show b58encode (wifPayload 0x80 (List.replicate 32 5) "wif" ++ bad) = b58encode (payload ++ bad) from rfl] at hok
  rw [hok] at he
  exact absurd he (by simp)

/-- C10 refuted: for every key, every coin network and every value of the 33rd byte the text is accepted as compressed, and
gives the same key. -/
theorem C10_any_marker_accepted (c : Coin) (n : String) (v : Net) (hn : c.net? n = some v)
    (key : Bytes) (hk : key.length = 32) (marker : UInt8) (chk : Bytes) (hl : chk.length = 4) :
    getWifType (b58encode (prefixBytes v.wifPrefix ++ key ++ [marker] ++ chk)) c n = .ok "wif-compressed"
    ∧ wifToPrivateKey (b58encode (prefixBytes v.wifPrefix ++ key ++ [marker] ++ chk)) c n = .ok (hex key) := by
  have hd := decodeWif_compressed (b58encode (prefixBytes v.wifPrefix ++ key ++ [marker] ++ chk)) v.wifPrefix _ key chk marker
    (integerToBytes_prefix _) hk hl (dec_enc _)
  simp only [wifToPrivateKey, getWifType, lookupNet_ok hn, bind, Except.bind, hd]
  simp

theorem C10_wrong_marker_refuted :
    ¬ (∀ (w : Str) (key chk : Bytes) (marker : UInt8), b58decode w = .ok ([0x80] ++ key ++ [marker] ++ chk) →
        key.length = 32 → chk.length = 4 → getWifType w = .ok "wif-compressed" → marker = 1) := by
  intro h
  have hk : (List.replicate 32 (5 : UInt8)).length = 32 := by simp
  have hp : prefixBytes 0x80 = [0x80] := by decide +kernel
  have ht := (C10_any_marker_accepted Coins.Bitcoin "mainnet" ⟨0x80, 0x00⟩ (by decide) _ hk 7 [0, 0, 0, 0] rfl).1
  rw [hp] at ht
  have := h _ (List.replicate 32 5) [0, 0, 0, 0] 7 (dec_enc _) hk rfl ht
  exact absurd this (by decide)

end Bip38.Props
