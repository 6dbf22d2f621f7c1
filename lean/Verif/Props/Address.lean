import Verif.Lemmas.P2pkh
import Verif.Props.Encoding
/-!
# Properties C12, C13: P2PKH addresses
-/
namespace Bip38.Props
open Bip38 Spec

variable (P : Prims)

/-- C12: the address of a key is the Base58Check text of prefix and HASH160 of the selected serialisation. -/
theorem C12_address_text (n : Nat) (k : PublicKey) (type : String) (alphabet : Str) :
    p2pkhEncode P (.key k) (n : Int) type alphabet
      = .ok (b58encode (addressPayload P n k type ++ checksum P (addressPayload P n k type)) alphabet) :=
  p2pkhEncode_key k n _ (integerToBytes_prefix n) type alphabet

/-- C12: address round trip, for every key, every prefix of any size, every alphabet. -/
theorem C12_address_roundtrip (hP : P.Lawful) (n : Nat) (k : PublicKey) (type : String) (alphabet : Str)
    (ha : ValidAlphabet alphabet) :
    ∃ address, p2pkhEncode P (.key k) (n : Int) type alphabet = .ok address
      ∧ p2pkhDecode P address (n : Int) alphabet = .ok (hex (h160 P (sec1 k type))) := by
  obtain ⟨pre, hpre, _, _⟩ := integerToBytes_ok n
  refine ⟨_, p2pkhEncode_key k n pre hpre type alphabet, ?_⟩
  rw [p2pkhDecode_eq n pre hpre]
  have hd : checkDecode P.sha256 (b58encode ((pre ++ h160 P (sec1 k type)) ++ checksum P (pre ++ h160 P (sec1 k type))) alphabet) alphabet
      = .ok (pre ++ h160 P (sec1 k type)) := by
    rw [checkDecode_iff hP, b58decode_b58encode alphabet ha]
  rw [hd]
  simp [h160_length hP, Nat.add_comm]

/-- C12: a key given as bytes or as hexadecimal text yields the address of the key these bytes denote; bytes that denote no
key raise `Secp256k1Error`. -/
theorem C12_key_forms (b : Bytes) (n : Nat) (type : String) (alphabet : Str) :
    p2pkhEncode P (.data (.str (hex b))) (n : Int) type alphabet = p2pkhEncode P (.data (.bytes b)) (n : Int) type alphabet ∧
    (∀ k, PublicKey.fromBytes b = .ok k →
      p2pkhEncode P (.data (.bytes b)) (n : Int) type alphabet = p2pkhEncode P (.key k) (n : Int) type alphabet) ∧
    (∀ e, PublicKey.fromBytes b = .error e → p2pkhEncode P (.data (.bytes b)) (n : Int) type alphabet = .error e
      ∧ e.cls = .secp256k1Error) := by
  obtain ⟨pre, hpre, _, _⟩ := integerToBytes_ok n
  refine ⟨?_, fun k hk => p2pkhEncode_data _ b (getBytes_bytes b true) k hk _ _ _, fun e he => ⟨?_, ?_⟩⟩
  · unfold p2pkhEncode
    simp [bind, Except.bind]
  · unfold p2pkhEncode
    rw [hpre]
    simp [bind, Except.bind, he]
  · unfold PublicKey.fromBytes at he
    split at he
    · split at he
      · simp at he
      · simp [raise] at he; rw [← he]
    · simp [raise] at he; rw [← he]

/-- C13: `decode` returns a hash exactly for a text whose payload is the prefix, a 20-byte hash and the matching checksum, and
returns (the hexadecimal text of) that hash. -/
theorem C13_decode_iff (hP : P.Lawful) (n : Nat) (s alphabet out : Str) :
    p2pkhDecode P s (n : Int) alphabet = .ok out ↔
      ∃ hash : Bytes, hash.length = 20 ∧ out = hex hash
        ∧ b58decode s alphabet = .ok (prefixBytes n ++ hash ++ checksum P (prefixBytes n ++ hash)) := by
  rw [p2pkhDecode_eq n _ (integerToBytes_prefix n)]
  constructor
  · intro h
    cases hc : checkDecode P.sha256 s alphabet with
    | error e => rw [hc] at h; simp at h
    | ok raw =>
      rw [hc] at h
      have hd := (checkDecode_iff hP alphabet s raw).mp hc
      simp only at h
      split at h
      · simp at h
      · rename_i hl
        split at h
        · simp at h
        · rename_i hp
          have hp' : prefixBytes n = raw.take (prefixBytes n).length := by simpa using hp
          have hsplit : prefixBytes n ++ raw.drop (prefixBytes n).length = raw := by
            conv_rhs => rw [← List.take_append_drop (prefixBytes n).length raw]
            rw [← hp']
          refine ⟨raw.drop (prefixBytes n).length, ?_, ?_, ?_⟩
          · rw [List.length_drop]; omega
          · simpa using h.symm
          · rw [hsplit]; exact hd
  · rintro ⟨hash, hl, rfl, hd⟩
    rw [(checkDecode_iff hP alphabet s _).mpr hd]
    simp [hl, Nat.add_comm]

/-- C13: a text that does not pass the checksum test raises `ValueError`. -/
theorem C13_bad_checksum (hP : P.Lawful) (n : Nat) (s alphabet : Str) (ha : ValidAlphabet alphabet)
    (h : ¬ ∃ raw, b58decode s alphabet = .ok (raw ++ checksum P raw)) :
    ∃ e, p2pkhDecode P s (n : Int) alphabet = .error e ∧ e.cls.isValueError = true := by
  obtain ⟨pre, hpre, _, _⟩ := integerToBytes_ok n
  rw [p2pkhDecode_eq n pre hpre]
  cases hc : checkDecode P.sha256 s alphabet with
  | error e => exact ⟨e, rfl, C03_check_decode_error _ alphabet ha s e hc⟩
  | ok raw => exact absurd ⟨raw, (checkDecode_iff hP alphabet s raw).mp hc⟩ h

/-- C13, the texts: another length is reported first, then another prefix. -/
theorem C13_texts (hP : P.Lawful) (n : Nat) (s alphabet : Str) (raw : Bytes)
    (hs : b58decode s alphabet = .ok (raw ++ checksum P raw)) :
    (raw.length ≠ (prefixBytes n).length + 20 → p2pkhDecode P s (n : Int) alphabet = .error ⟨.addressError,
      "Invalid length (expected: " ++ toString ((prefixBytes n).length + 20) ++ ", got: " ++ toString raw.length ++ ")"⟩) ∧
    (raw.length = (prefixBytes n).length + 20 → raw.take (prefixBytes n).length ≠ prefixBytes n →
      p2pkhDecode P s (n : Int) alphabet = .error ⟨.addressError,
        "Invalid prefix (expected: " ++ String.ofList (bytesRepr (prefixBytes n)) ++ ", got: " ++ String.ofList (bytesRepr (raw.take (prefixBytes n).length)) ++ ")"⟩) := by
  rw [p2pkhDecode_eq n _ (integerToBytes_prefix n), (checkDecode_iff hP alphabet s raw).mpr hs]
  simp only [Nat.add_comm 20]
  refine ⟨fun h => if_pos h, fun h h' => ?_⟩
  have : ¬ raw.length ≠ (prefixBytes n).length + 20 := by omega
  have : prefixBytes n ≠ raw.take (prefixBytes n).length := fun h => h' h.symm
  simp only [*, ne_eq, not_true, not_false_eq_true, if_true, if_false]

/-- C13: a payload with a good checksum but another length, or another prefix, raises `AddressError`. -/
theorem C13_bad_payload (hP : P.Lawful) (n : Nat) (s alphabet : Str) (raw : Bytes)
    (hs : b58decode s alphabet = .ok (raw ++ checksum P raw))
    (h : ¬ ∃ hash : Bytes, hash.length = 20 ∧ raw = prefixBytes n ++ hash) :
    ∃ e, p2pkhDecode P s (n : Int) alphabet = .error e ∧ e.cls = .addressError := by
  rw [p2pkhDecode_eq n _ (integerToBytes_prefix n), (checkDecode_iff hP alphabet s raw).mpr hs]
  simp only
  split
  · exact ⟨_, rfl, rfl⟩
  · rename_i hl
    split
    · exact ⟨_, rfl, rfl⟩
    · rename_i hp
      exfalso
      apply h
      have hp' : prefixBytes n = raw.take (prefixBytes n).length := by simpa using hp
      refine ⟨raw.drop (prefixBytes n).length, by rw [List.length_drop]; omega, ?_⟩
      conv_lhs => rw [← List.take_append_drop (prefixBytes n).length raw]
      rw [← hp']

/-- `repr` of bytes as it appears in these texts. -/
example : String.ofList (bytesRepr [0x05, 0x82]) = "b'\\x05\\x82'" ∧ String.ofList (bytesRepr [65, 39]) = "b\"A'\""
    ∧ String.ofList (bytesRepr [39, 34, 92, 10]) = "b'\\'\"\\\\\\n'" := by decide +kernel

/-- A two-byte prefix is used by some coins. -/
example : Coins.Anon.net? "mainnet" = some ⟨0x80, 0x582⟩ ∧ prefixBytes 0x582 = [5, 0x82] := by decide +kernel

end Bip38.Props
