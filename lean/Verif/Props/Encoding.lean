import Verif.Lemmas.Base58
import Verif.Lemmas.Hex
import Verif.Model.Coins
/-!
# Properties C01 - C06: Base58, integers, hexadecimal text
-/
namespace Bip38.Props
open Bip38 Spec

/-- Ripple's alphabet (`bip38/cryptocurrencies.py`, class `Ripple`). -/
def rippleAlphabet : Str := "rpshnaf39wBUDNEGHJKLM4PQRST7VWXYZ2bcdeCg65jkm8oFqi1tuvAxyz".toList

theorem bitcoinAlphabet_valid : ValidAlphabet bitcoinAlphabet := ⟨by decide, by decide, by decide⟩
theorem rippleAlphabet_valid : ValidAlphabet rippleAlphabet := ⟨by decide, by decide, by decide⟩
theorem ripple_uses_it : Coins.Ripple.alphabet = some rippleAlphabet := by decide

/-! ## C01 -/

/-- C01: decoding inverts encoding, for every alphabet of distinct ASCII characters. -/
theorem C01_decode_encode (alphabet : Str) (h : ValidAlphabet alphabet) (b : Bytes) :
    b58decode (b58encode b alphabet) alphabet = .ok b :=
  b58decode_b58encode alphabet h b

/-- C01 for the two alphabets of the library. -/
theorem C01_decode_encode_bitcoin (b : Bytes) : b58decode (b58encode b) = .ok b :=
  b58decode_b58encode _ bitcoinAlphabet_valid b

theorem C01_decode_encode_ripple (b : Bytes) : b58decode (b58encode b rippleAlphabet) rippleAlphabet = .ok b :=
  b58decode_b58encode _ rippleAlphabet_valid b

/-- C01: the Bitcoin alphabet lists the ASCII digits and letters in the order of their codes, without `0`, `I`, `O` and `l`; the Ripple
alphabet has the same 58 characters in another order. -/
theorem C01_alphabets :
    bitcoinAlphabet = ((List.range 128).map Char.ofNat).filter (fun c => c.isAlphanum && !"0IOl".toList.contains c)
      ∧ rippleAlphabet.Perm bitcoinAlphabet ∧ rippleAlphabet ≠ bitcoinAlphabet ∧ bitcoinAlphabet.length = 58 := by decide +kernel

/-- C01: encoding is injective and only produces characters of the alphabet. -/
theorem C01_encode_injective (alphabet : Str) (h : ValidAlphabet alphabet) (b c : Bytes)
    (he : b58encode b alphabet = b58encode c alphabet) : b = c := by
  have := C01_decode_encode alphabet h b
  rw [he, C01_decode_encode alphabet h c] at this
  exact (Except.ok.inj this).symm

theorem C01_encode_wellFormed (alphabet : Str) (h : ValidAlphabet alphabet) (b : Bytes) :
    WellFormed alphabet (b58encode b alphabet) := b58encode_ascii alphabet h b

/-- C01: the text is positional notation: one zero digit for each leading zero byte, then the digits of the number denoted by the
bytes (`Nat.digits` of Mathlib lists them from the least significant one). -/
theorem C01_encode_text (alphabet : Str) (h : ValidAlphabet alphabet) (b : Bytes) :
    b58encode b alphabet = (b.takeWhile (· == 0)).map (fun _ => alphabet.getD 0 '?')
      ++ (Nat.digits alphabet.length (be b)).reverse.map fun d => alphabet.getD d '?' := by
  rw [b58encode_eq alphabet h.two, leadingZeros_eq, be_eq, List.map_const']
  rfl

example : b58encode [0, 0, 1, 255, 7] = "11fta".toList := by decide
example : b58decode "11fta".toList = .ok [0, 0, 1, 255, 7] := by decide
example : b58encode [] = [] ∧ b58decode [] = .ok [] := by decide
/-- The hypothesis cannot be dropped: with a repeated character the round trip fails. -/
example : b58decode (b58encode [1] "11".toList) "11".toList ≠ .ok [1] := by decide

/-! ## C02 -/

/-- C02: on well-formed text decoding succeeds and encoding gives the text back. -/
theorem C02_encode_decode (alphabet : Str) (h : ValidAlphabet alphabet) (s : Str) (hs : WellFormed alphabet s) :
    ∃ b, b58decode s alphabet = .ok b ∧ b58encode b alphabet = s :=
  b58encode_b58decode alphabet h s hs

/-- C02: two different well-formed texts never decode to the same bytes. -/
theorem C02_decode_injective (alphabet : Str) (h : ValidAlphabet alphabet) (s t : Str)
    (hs : WellFormed alphabet s) (ht : WellFormed alphabet t)
    (he : b58decode s alphabet = b58decode t alphabet) : s = t := by
  obtain ⟨b, hb, rfl⟩ := C02_encode_decode alphabet h s hs
  obtain ⟨c, hc, rfl⟩ := C02_encode_decode alphabet h t ht
  rw [hb, hc] at he
  rw [Except.ok.inj he]

example : WellFormed bitcoinAlphabet "11zZ".toList := by unfold WellFormed; decide

/-! ## C03 -/

/-- C03: `check_decode` inverts `check_encode`, for every hash function with at least four bytes of output. -/
theorem C03_check_roundtrip (sha256 : Bytes → Bytes) (hsha : ∀ b, (sha256 b).length = 32)
    (alphabet : Str) (h : ValidAlphabet alphabet) (b : Bytes) :
    checkDecode sha256 (checkEncode sha256 b alphabet) alphabet = .ok b := by
  have hl : ((sha256 (sha256 b)).take 4).length = 4 := by simp [hsha]
  unfold checkDecode checkEncode
  rw [b58decode_b58encode alphabet h]
  simp only [bind, Except.bind]
  rw [dropLastN_append _ _ 4 hl, lastN_append _ _ 4 hl]
  simp

/-- C03: soundness and completeness of `check_decode`: it returns `raw` exactly when the text decodes to `raw`
followed by the first four bytes of the double hash of `raw`. -/
theorem C03_check_decode_iff (sha256 : Bytes → Bytes) (hsha : ∀ b, (sha256 b).length = 32)
    (alphabet s : Str) (raw : Bytes) :
    checkDecode sha256 s alphabet = .ok raw ↔
      b58decode s alphabet = .ok (raw ++ (sha256 (sha256 raw)).take 4) := by
  unfold checkDecode
  cases hd : b58decode s alphabet with
  | error e => simp [bind, Except.bind]
  | ok dec =>
    simp only [bind, Except.bind]
    have hl : ∀ r, ((sha256 (sha256 r)).take 4).length = 4 := by simp [hsha]
    constructor
    · intro h
      split at h
      · simp [raise] at h
      · rename_i hc
        have hc' : lastN 4 dec = List.take 4 (sha256 (sha256 (dropLastN 4 dec))) := by simpa using hc
        have hr : dropLastN 4 dec = raw := by simpa using h
        rw [← hr, ← hc', dropLastN_append_lastN]
    · intro h
      have h' : dec = raw ++ (sha256 (sha256 raw)).take 4 := by simpa using h
      subst h'
      rw [dropLastN_append _ _ 4 (hl _), lastN_append _ _ 4 (hl _)]
      simp

/-- C03: every failure is a `ValueError` (`UnicodeEncodeError`, for non-ASCII text, is a subclass). -/
theorem C03_check_decode_error (sha256 : Bytes → Bytes) (alphabet : Str) (h : ValidAlphabet alphabet) (s : Str) (e : Exc)
    (he : checkDecode sha256 s alphabet = .error e) : e.cls.isValueError = true := by
  unfold checkDecode at he
  by_cases hs : ∀ c ∈ s, c.toNat < 128
  · rw [b58decode_ascii alphabet h s hs] at he
    simp only [bind, Except.bind] at he
    split at he
    · simp [raise] at he; subst he; rfl
    · simp at he
  · rw [b58decode_nonascii alphabet s hs] at he
    simp only [bind, Except.bind, Except.error.injEq] at he
    subst he; rfl

example : checkDecode (fun b => (b ++ List.replicate 32 7).take 32) "2Xz".toList = .error ⟨.valueError, "base58 decoding checksum error"⟩ := by
  decide

/-! ## C04 -/

/-- C04, the expectation is false of the code: there is text with a foreign character that decodes; `"20"` decodes to
the same bytes as `"z"`. -/
theorem C04_foreign_character_refuted :
    ¬ (∀ s : Str, ¬ WellFormed bitcoinAlphabet s → ∃ e, b58decode s = .error e) := by
  intro h
  have hn : ¬ WellFormed bitcoinAlphabet "20".toList := by unfold WellFormed; decide
  obtain ⟨e, he⟩ := h _ hn
  have : b58decode "20".toList = .ok [57] := by decide
  rw [this] at he
  exact absurd he (by simp)

theorem C04_foreign_collides : b58decode "20".toList = b58decode "z".toList ∧ '0' ∉ bitcoinAlphabet := by decide

/-- C04, exact behaviour on ASCII text: never an error; every character is read as a digit, foreign characters as
`-1`; the result is one zero byte per leading zero digit followed by the shortest big-endian bytes of the value
(nothing if the value is not positive). -/
theorem C04_decode_ascii (alphabet : Str) (h : ValidAlphabet alphabet) (s : Str) (hs : ∀ c ∈ s, c.toNat < 128) :
    ∃ zeros tail, b58decode s alphabet = .ok (List.replicate zeros 0 ++ tail)
      ∧ zeros = ((s.map (digit alphabet)).takeWhile (fun d => decide (d = 0))).length
      ∧ fromBE tail = (value alphabet.length (s.map (digit alphabet))).toNat
      ∧ tail.head? ≠ some 0 :=
  ⟨_, _, b58decode_ascii alphabet h s hs, rfl, fromBE_minBE _, head_minBE _⟩

/-- C04, exact behaviour on other text: `UnicodeEncodeError`, whatever the alphabet. -/
theorem C04_decode_nonascii (alphabet : Str) (s : Str) (hs : ∃ c ∈ s, 128 ≤ c.toNat) :
    ∃ e, b58decode s alphabet = .error e ∧ e.cls = .unicodeEncodeError := by
  refine ⟨_, b58decode_nonascii alphabet s ?_, rfl⟩
  push Not
  exact hs

example : b58decode "1é".toList = .error ⟨.unicodeEncodeError, "'ascii' codec can't encode character"⟩ := by decide

/-- C04: every text with an ASCII character outside the alphabet decodes; so does, for instance, any text whose first
character is foreign, to no bytes at all. -/
theorem C04_leading_foreign (alphabet : Str) (h : ValidAlphabet alphabet) (c : Char) (s : Str) (hc : c ∉ alphabet)
    (hs : ∀ d ∈ c :: s, d.toNat < 128) : b58decode (c :: s) alphabet = .ok [] := by
  rw [b58decode_ascii alphabet h _ hs]
  have hd : digit alphabet c = -1 := by simp [digit, hc]
  simp only [List.map_cons, hd, List.takeWhile_cons]
  have hv : ∀ l : List Int, (∀ d ∈ l, d < alphabet.length) → value alphabet.length l < alphabet.length ^ l.length := by
    intro l hl
    induction l with
    | nil => simp [value]
    | cons d l ih =>
      simp only [value, List.length_cons, pow_succ]
      have h1 := hl d (by simp)
      have h2 := ih (fun x hx => hl x (by simp [hx]))
      have h3 : (0:Int) ≤ (alphabet.length : Int) ^ l.length := by positivity
      nlinarith
  have := hv (s.map (digit alphabet)) (by
    intro d hd
    simp only [List.mem_map] at hd
    obtain ⟨x, _, rfl⟩ := hd
    have := digit_bounds alphabet x
    have := h.two
    omega)
  have hneg : (value alphabet.length (-1 :: s.map (digit alphabet))).toNat = 0 := by
    rw [value]; apply Int.toNat_of_nonpos; linarith
  rw [hneg]; rfl

example : b58decode "0zzz".toList = .ok [] := by decide

/-! ## C05 -/

/-- The integers that fit `k` bytes. -/
def Fits (signed : Bool) (k : Nat) (n : Int) : Prop :=
  if signed then -(2 ^ (8 * k) : Int) ≤ 2 * n ∧ 2 * n < 2 ^ (8 * k) else 0 ≤ n ∧ n < 2 ^ (8 * k)

theorem Fits_signed_iff (k : Nat) (n : Int) (hk : 0 < k) :
    Fits true k n ↔ -(2 ^ (8 * k - 1) : Int) ≤ n ∧ n < 2 ^ (8 * k - 1) := by
  have : (2 : Int) ^ (8 * k) = 2 * 2 ^ (8 * k - 1) := by
    rw [← pow_succ']; congr 1; omega
  simp only [Fits, if_true, this]
  omega

theorem bytesToInteger_toBE (u k : Nat) (hu : u < 256 ^ k) (s : Bool) :
    bytesToInteger (toBE k u) .big s = if s = true ∧ 256 ^ k ≤ 2 * u then (u : Int) - (256 ^ k : Nat) else u := by
  unfold bytesToInteger
  simp only [fromBE_toBE k u hu, toBE_length, two_pow_eight, two_pow_eight_int]

theorem bytesToInteger_toLE (u k : Nat) (hu : u < 256 ^ k) (s : Bool) :
    bytesToInteger (toLE k u) .little s = if s = true ∧ 256 ^ k ≤ 2 * u then (u : Int) - (256 ^ k : Nat) else u := by
  unfold bytesToInteger
  simp only [fromBE_reverse_toLE k u hu, toLE_length, two_pow_eight, two_pow_eight_int]

/-- C05: `integer_to_bytes` with a byte count is lossless, or `OverflowError` exactly when the number does not fit. -/
theorem C05_with_length (n : Int) (k : Nat) (hk : 0 < k) (e : Endian) (signed : Bool) :
    (Fits signed k n → ∃ b, integerToBytes n (some k) e signed = .ok b ∧ b.length = k
        ∧ bytesToInteger b e signed = n) ∧
    (¬ Fits signed k n → ∃ x, integerToBytes n (some k) e signed = .error x ∧ x.cls = .overflowError) := by
  have hk0 : ¬ ((k : Int) < 0) := by omega
  have hk1 : ¬ ((k : Int) = 0) := by omega
  have hit : integerToBytes n (some k) e signed = intToBytes n k e signed := by
    simp only [integerToBytes, hk0, hk1, if_false, Int.toNat_natCast]
  rw [hit]
  have hp := two_pow_eight_int k
  have hpos : 0 < 256 ^ k := by positivity
  unfold intToBytes Fits
  cases signed with
  | false =>
    simp only [Bool.false_eq_true, if_false]
    constructor
    · rintro ⟨h1, h2⟩
      rw [if_neg (by omega), if_pos h2]
      refine ⟨_, rfl, by cases e <;> simp, ?_⟩
      have hu : n.toNat < 256 ^ k := by rw [hp] at h2; omega
      have h3 : ((n.toNat : Nat) : Int) = n := by omega
      cases e
      · simp [bytesToInteger_toLE _ _ hu, h3]
      · simp [bytesToInteger_toBE _ _ hu, h3]
    · intro h
      by_cases h1 : n < 0
      · rw [if_pos h1]; exact ⟨_, rfl, rfl⟩
      · rw [if_neg h1, if_neg (by omega)]; exact ⟨_, rfl, rfl⟩
  | true =>
    simp only [if_true]
    constructor
    · intro h
      rw [if_pos h]
      refine ⟨_, rfl, by cases e <;> simp, ?_⟩
      rw [hp] at h
      have hmod0 : 0 ≤ n % ((256 ^ k : Nat) : Int) := Int.emod_nonneg _ (by omega)
      have hmod1 : n % ((256 ^ k : Nat) : Int) < ((256 ^ k : Nat) : Int) := Int.emod_lt_of_pos _ (by exact_mod_cast hpos)
      have hu : (n % (2 ^ (8 * k))).toNat < 256 ^ k := by rw [hp]; omega
      have key : (if true = true ∧ 256 ^ k ≤ 2 * (n % (2 ^ (8 * k))).toNat
          then ((n % (2 ^ (8 * k))).toNat : Int) - (256 ^ k : Nat) else ((n % (2 ^ (8 * k))).toNat : Int)) = n := by
        rw [hp]
        generalize 256 ^ k = m at *
        by_cases hn : 0 ≤ n
        · have : n % (m : Int) = n := Int.emod_eq_of_lt hn (by omega)
          rw [this, if_neg (by omega)]; omega
        · have : n % (m : Int) = n + (m : Int) := by
            rw [← Int.add_emod_right]; exact Int.emod_eq_of_lt (by omega) (by omega)
          rw [this, if_pos ⟨rfl, by omega⟩]; omega
      cases e
      · simp only; rw [bytesToInteger_toLE _ _ hu, key]
      · simp only; rw [bytesToInteger_toBE _ _ hu, key]
    · intro h
      rw [if_neg h]; exact ⟨_, rfl, rfl⟩

/-- C05: without a byte count the result reads back and no shorter non-empty byte string does. -/
theorem C05_minimal (n : Nat) : ∃ b, integerToBytes (n : Int) = .ok b ∧ bytesToInteger b = n ∧ 1 ≤ b.length
    ∧ ∀ c : Bytes, bytesToInteger c = n → 1 ≤ c.length → b.length ≤ c.length := by
  have hbi : ∀ c : Bytes, bytesToInteger c = fromBE c := by intro c; simp [bytesToInteger]
  obtain ⟨b, h0, hb⟩ := exists_bytes n
  refine ⟨strip b, by rw [← hb]; exact integerToBytes_fromBE b, by rw [hbi, fromBE_strip, hb],
    List.length_pos_of_ne_nil (strip_ne_nil b), ?_⟩
  intro c hc hc1
  rw [hbi] at hc
  have hc' : fromBE c = n := by exact_mod_cast hc
  have hs : strip b = strip c := by
    have h1 := integerToBytes_fromBE b
    have h2 := integerToBytes_fromBE c
    rw [hb] at h1; rw [hc'] at h2; rw [h1] at h2
    exact Except.ok.inj h2
  rw [hs]
  exact length_strip_le c (by rintro rfl; simp at hc1)

/-- C05: reading is injective on byte strings of one length, for both byte orders and both signednesses. -/
theorem C05_read_injective (a b : Bytes) (e : Endian) (signed : Bool) (hl : a.length = b.length)
    (h : bytesToInteger a e signed = bytesToInteger b e signed) : a = b := by
  have main : ∀ (u v : Bytes), u.length = a.length → v.length = a.length →
      (if signed = true ∧ 2 ^ (8 * a.length) ≤ 2 * fromBE u then (fromBE u : Int) - 2 ^ (8 * a.length) else fromBE u)
        = (if signed = true ∧ 2 ^ (8 * a.length) ≤ 2 * fromBE v then (fromBE v : Int) - 2 ^ (8 * a.length) else fromBE v)
      → u = v := by
    intro u v hu hv he
    apply fromBE_inj (hu.trans hv.symm)
    have h1 := fromBE_lt u
    have h2 := fromBE_lt v
    rw [hu] at h1; rw [hv] at h2
    rw [two_pow_eight_int] at he
    split at he <;> split at he <;> omega
  unfold bytesToInteger at h
  rw [← hl] at h
  cases e with
  | big => exact main a b rfl hl.symm h
  | little => exact List.reverse_injective (main _ _ (by simp) (by simp [hl]) h)

example : Fits true 2 (-32768) ∧ ¬ Fits true 2 32768 ∧ Fits false 2 65535 := by simp [Fits]
example : integerToBytes (-2) (some 2) .little true = .ok [254, 255] := by decide
example : integerToBytes 0x0142 = .ok [1, 0x42] ∧ integerToBytes 0 = .ok [0] := by decide

/-- C05: `int.to_bytes(k, "big")` and `"little"` of a number list its base-256 digits. -/
theorem C05_digits (k n : Nat) :
    toBE k n = (List.range k).map (fun i => UInt8.ofNat (n / 256 ^ (k - 1 - i) % 256)) ∧
    toLE k n = (List.range k).map (fun i => UInt8.ofNat (n / 256 ^ i % 256)) := by
  have hle : ∀ k n, toLE k n = (List.range k).map (fun i => UInt8.ofNat (n / 256 ^ i % 256)) := by
    intro k
    induction k with
    | zero => intro n; rfl
    | succ k ih =>
      intro n
      rw [toLE, ih, List.range_succ_eq_map, List.map_cons, List.map_map]
      simp only [pow_zero, Nat.div_one, List.cons.injEq, true_and]
      apply List.map_congr_left
      intro i _
      simp only [Function.comp_apply, Nat.succ_eq_add_one, Nat.div_div_eq_div_mul, pow_succ, Nat.mul_comm]
  refine ⟨?_, hle k n⟩
  rw [toBE, hle]
  apply List.ext_getElem
  · simp
  · intro i h1 h2
    simp only [List.length_reverse, List.length_map, List.length_range] at h1 h2
    simp [List.getElem_reverse, List.getElem_map, List.getElem_range, Nat.sub_sub]

/-- C05: `int.from_bytes(b)`, big-endian and little-endian, unsigned. -/
theorem C05_value (b : Bytes) : bytesToInteger b = be b ∧ bytesToInteger b .little = be b.reverse := by
  simp [bytesToInteger, be_eq]

/-! ## C06 -/

/-- C06: `bytes.hex()` writes two lower-case digits for each byte. -/
theorem C06_hex_text (b : Bytes) : bytesToString (.bytes b) = .ok (b.flatMap fun c =>
    ["0123456789abcdef".toList.getD (c.toNat / 16) '?', "0123456789abcdef".toList.getD (c.toNat % 16) '?']) := by
  have hd : ∀ n : Fin 16, hexDigit n = "0123456789abcdef".toList.getD n '?' := by decide
  rw [bytesToString_bytes]
  congr 1
  unfold hex
  apply List.flatMap_congr
  intro c _
  rw [hd ⟨c.toNat / 16, by have := c.toNat_lt; omega⟩, hd ⟨c.toNat % 16, by omega⟩]

/-- C06: hexadecimal text round trip. -/
theorem C06_roundtrip (b : Bytes) : ∃ s, bytesToString (.bytes b) = .ok s ∧ s.length = 2 * b.length
    ∧ getBytes (.str s) = .ok b ∧ ∀ c ∈ s, c ∈ "0123456789abcdef".toList := by
  refine ⟨hex b, bytesToString_bytes b, hex_length b, getBytes_hex b, ?_⟩
  have hd : ∀ n : Fin 16, hexDigit n ∈ "0123456789abcdef".toList := by decide
  intro c hc
  simp only [hex, List.mem_flatMap, List.mem_cons, List.not_mem_nil, or_false] at hc
  obtain ⟨x, _, rfl | rfl⟩ := hc
  · exact hd ⟨x.toNat / 16, by have := x.toNat_lt; omega⟩
  · exact hd ⟨x.toNat % 16, by omega⟩

/-- C06: text is accepted exactly when it is hexadecimal text (white space allowed between bytes), and then denotes
those bytes. -/
theorem C06_get_bytes_iff (s : Str) (b : Bytes) : getBytes (.str s) = .ok b ↔ HexText s b := by
  rw [← fromHex_iff]
  unfold getBytes Data.truthy
  cases s with
  | nil => simp [fromHex]
  | cons c s =>
    simp only [List.isEmpty_cons, Bool.not_false, Bool.not_true, Bool.false_eq_true, if_false, if_true]
    cases fromHex (c :: s) <;> simp [raise]

/-- C06: every other text raises `ValueError`. -/
theorem C06_get_bytes_error (s : Str) (h : ¬ ∃ b, HexText s b) :
    ∃ e, getBytes (.str s) = .error e ∧ e.cls = .valueError := by
  have hn : fromHex s = none := by
    cases hf : fromHex s with
    | none => rfl
    | some b => exact absurd ⟨b, (fromHex_iff s b).mp hf⟩ h
  unfold getBytes Data.truthy
  cases s with
  | nil => simp [fromHex] at hn
  | cons c s =>
    simp only [List.isEmpty_cons, Bool.not_false, Bool.not_true, Bool.false_eq_true, if_false, if_true, hn]
    exact ⟨_, rfl, rfl⟩

example : HexText "0a FF".toList [10, 255] :=
  .byte (h := '0') (l := 'a') (x := 0) (y := 10) (Or.inl rfl) (Or.inl rfl)
    (.space (Or.inl rfl) (.byte (h := 'F') (l := 'F') (x := 15) (y := 15) (Or.inr rfl) (Or.inr rfl) .nil))
example : ¬ ∃ b, HexText "0 a".toList b := by
  rintro ⟨b, hb⟩
  rw [← fromHex_iff] at hb
  revert hb
  have : fromHex "0 a".toList = none := by decide
  rw [this]; simp

end Bip38.Props
