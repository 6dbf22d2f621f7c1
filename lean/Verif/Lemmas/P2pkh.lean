import Verif.Model.P2pkh
import Verif.Spec.Address
import Verif.Lemmas.Wif
/-! # Lemmas on `bip38/p2pkh_address.py` -/
namespace Bip38
open Spec

variable {P : Prims}

theorem sec1_eq (k : PublicKey) (type : String) :
    sec1 k type = if type = "compressed" then k.rawCompressed else k.rawUncompressed := by
  unfold sec1 PublicKey.rawCompressed PublicKey.rawUncompressed
  split
  · have : k.y % 2 = 0 ∨ k.y % 2 = 1 := by omega
    rcases this with h | h <;> simp [h]
  · simp

theorem raw_eq_sec1 (k : PublicKey) (type : String) : k.raw type = sec1 k type := by
  rw [sec1_eq]; rfl

theorem checkEncode_eq (raw : Bytes) (a : Str) : checkEncode P.sha256 raw a = b58encode (raw ++ checksum P raw) a := rfl

theorem p2pkhEncode_key (k : PublicKey) (n : Nat) (pre : Bytes) (hpre : integerToBytes (n : Int) = .ok pre) (type : String)
    (a : Str) :
    p2pkhEncode P (.key k) (n : Int) type a
      = .ok (b58encode ((pre ++ h160 P (sec1 k type)) ++ checksum P (pre ++ h160 P (sec1 k type))) a) := by
  unfold p2pkhEncode
  rw [hpre]
  simp [bind, Except.bind, checkEncode_eq, ensureString, ← sec1_eq]

theorem p2pkhEncode_data (d : Data) (b : Bytes) (hd : getBytes d = .ok b) (k : PublicKey) (hk : PublicKey.fromBytes b = .ok k)
    (n : Int) (type : String) (a : Str) :
    p2pkhEncode P (.data d) n type a = p2pkhEncode P (.key k) n type a := by
  unfold p2pkhEncode
  cases integerToBytes n with
  | error e => rfl
  | ok pre => simp [bind, Except.bind, hd, hk]

theorem checkDecode_iff (hP : P.Lawful) (a s : Str) (raw : Bytes) :
    checkDecode P.sha256 s a = .ok raw ↔ b58decode s a = .ok (raw ++ checksum P raw) := by
  unfold checkDecode
  cases hd : b58decode s a with
  | error e => simp [bind, Except.bind]
  | ok dec =>
    simp only [bind, Except.bind]
    constructor
    · intro h
      split at h
      · simp [raise] at h
      · rename_i hc
        have hc' : lastN 4 dec = checksum P (dropLastN 4 dec) := by simpa [checksum, dsha] using hc
        have hr : dropLastN 4 dec = raw := by simpa using h
        rw [← hr, ← hc', dropLastN_append_lastN]
    · intro h
      have h' : dec = raw ++ checksum P raw := by simpa using h
      subst h'
      rw [dropLastN_append _ _ 4 (checksum_length hP _), lastN_append _ _ 4 (checksum_length hP _)]
      simp [checksum, dsha]

theorem p2pkhDecode_eq (n : Nat) (pre : Bytes) (hpre : integerToBytes (n : Int) = .ok pre) (s a : Str) :
    p2pkhDecode P s (n : Int) a = match checkDecode P.sha256 s a with
      | .error e => .error e
      | .ok raw =>
        if raw.length ≠ 20 + pre.length then .error ⟨.addressError,
          "Invalid length (expected: " ++ toString (20 + pre.length) ++ ", got: " ++ toString raw.length ++ ")"⟩
        else if pre ≠ raw.take pre.length then .error ⟨.addressError,
          "Invalid prefix (expected: " ++ String.ofList (bytesRepr pre) ++ ", got: " ++ String.ofList (bytesRepr (raw.take pre.length)) ++ ")"⟩
        else .ok (hex (raw.drop pre.length)) := by
  unfold p2pkhDecode
  rw [hpre]
  cases checkDecode P.sha256 s a with
  | error e => rfl
  | ok raw =>
    simp only [bind, Except.bind, raiseIf]
    by_cases h1 : raw.length = 20 + pre.length
    · by_cases h2 : pre = raw.take pre.length
      · simp [h1, ← h2]
      · simp [h1, h2]
    · simp [h1]

end Bip38
