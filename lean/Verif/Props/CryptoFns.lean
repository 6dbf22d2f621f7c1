import Verif.Lemmas.Crypto
import Verif.Lemmas.Supplies
/-!
# Property C50: the hash functions of the API
-/
namespace Bip38.Props
open Bip38 Spec

variable (P : Prims)

/-- C50: the value of each hash function on bytes: SHA-256, SHA-256 twice, its first four bytes, RIPEMD-160, and RIPEMD-160 of SHA-256. -/
theorem C50_values (b : Bytes) :
    sha256 P (.bytes b) = .ok (P.sha256 b)
      ∧ doubleSha256 P (.bytes b) = .ok (P.sha256 (P.sha256 b))
      ∧ getChecksum P (.bytes b) = .ok ((P.sha256 (P.sha256 b)).take 4)
      ∧ (∀ f, P.hashlibRipemd160 = some f → ripemd160 P (.bytes b) = .ok (f b) ∧ hash160 P (.bytes b) = .ok (f (P.sha256 b)))
      ∧ (P.hashlibRipemd160 = none →
          ripemd160 P (.bytes b) = .ok (Ripemd.ripemd160 b) ∧ hash160 P (.bytes b) = .ok (Ripemd.ripemd160 (P.sha256 b))) := by
  refine ⟨sha256_bytes b, doubleSha256_bytes b, getChecksum_bytes b, fun f hf => ⟨?_, ?_⟩, fun hf => ⟨?_, ?_⟩⟩
  · simp [ripemd160, hf, bind, Except.bind]
  · rw [hash160_bytes, h160, rip, hf]
  · simp [ripemd160, hf, bind, Except.bind]
  · rw [hash160_bytes, h160, rip, hf]

/-- The five hash functions. -/
def hashFunctions : List (Data → Py Bytes) := [sha256 P, doubleSha256 P, getChecksum P, ripemd160 P, hash160 P]

theorem hash_getBytes (f : Data → Py Bytes) (hf : f ∈ hashFunctions P) (d : Data) :
    (∀ b, getBytes d = .ok b → f d = f (.bytes b)) ∧ ∀ e, getBytes d = .error e → f d = .error e := by
  simp only [hashFunctions, List.mem_cons, List.not_mem_nil, or_false] at hf
  rcases hf with rfl | rfl | rfl | rfl | rfl
  all_goals
    refine ⟨fun b hb => ?_, fun e he => ?_⟩
  · simp [sha256, hb]
  · simp [sha256, he, bind, Except.bind]
  · simp [doubleSha256, sha256, hb]
  · simp [doubleSha256, sha256, he, bind, Except.bind]
  · simp [getChecksum, doubleSha256, sha256, hb]
  · simp [getChecksum, doubleSha256, sha256, he, bind, Except.bind]
  · unfold ripemd160; cases P.hashlibRipemd160 <;> simp [hb]
  · unfold ripemd160; cases P.hashlibRipemd160 <;> simp [he, bind, Except.bind]
  · simp [hash160, sha256, hb]
  · simp [hash160, sha256, he, bind, Except.bind]

/-- C50: on hexadecimal text each hash function is the one of the bytes denoted; a missing or empty argument is hashed as no bytes; other
text raises `ValueError`, other objects `TypeError`. -/
theorem C50_arguments (f : Data → Py Bytes) (hf : f ∈ hashFunctions P) (d : Data) (s : Str) :
    (∀ b, HexText s b → f (.str s) = f (.bytes b))
      ∧ ((¬ ∃ b, HexText s b) → ∃ e, f (.str s) = .error e ∧ e.cls = .valueError)
      ∧ (Absent d → f d = f (.bytes []))
      ∧ ∃ e, f .other = .error e ∧ e.cls = .typeError := by
  refine ⟨fun b hb => ?_, fun h => ?_, fun h => ?_, ?_⟩
  · refine (hash_getBytes P f hf (.str s)).1 b ?_
    rw [← fromHex_iff] at hb
    unfold getBytes Data.truthy
    cases s with
    | nil => simp [fromHex] at hb; simp [hb]
    | cons c s => simp [hb]
  · refine ⟨⟨.valueError, "non-hexadecimal number found in fromhex() arg"⟩, ?_, rfl⟩
    refine (hash_getBytes P f hf (.str s)).2 _ ?_
    have hn : fromHex s = none := by
      cases hh : fromHex s with
      | none => rfl
      | some b => exact absurd ⟨b, (fromHex_iff s b).mp hh⟩ h
    unfold getBytes Data.truthy
    cases s with
    | nil => simp [fromHex] at hn
    | cons c s => simp [hn, raise]
  · refine (hash_getBytes P f hf d).1 [] ?_
    rcases h with rfl | rfl | rfl <;> simp [getBytes, Data.truthy]
  · exact ⟨_, (hash_getBytes P f hf .other).2 _ rfl, rfl⟩

/-- C50: lengths of the results. -/
theorem C50_lengths (hP : P.Lawful) (d : Data) (r : Bytes) :
    (sha256 P d = .ok r → r.length = 32) ∧ (doubleSha256 P d = .ok r → r.length = 32) ∧ (getChecksum P d = .ok r → r.length = 4)
      ∧ (ripemd160 P d = .ok r → r.length = 20) ∧ (hash160 P d = .ok r → r.length = 20) := by
  have red : ∀ f ∈ hashFunctions P, f d = .ok r → ∃ b, f (.bytes b) = .ok r := by
    intro f hf h
    cases hb : getBytes d with
    | error e => rw [(hash_getBytes P f hf d).2 e hb] at h; cases h
    | ok b => exact ⟨b, by rw [← (hash_getBytes P f hf d).1 b hb]; exact h⟩
  refine ⟨fun h => ?_, fun h => ?_, fun h => ?_, fun h => ?_, fun h => ?_⟩
  · obtain ⟨b, hb⟩ := red _ (by simp [hashFunctions]) h
    rw [sha256_bytes] at hb; rw [← Except.ok.inj hb]; exact hP.sha256_length _
  · obtain ⟨b, hb⟩ := red _ (by simp [hashFunctions]) h
    rw [doubleSha256_bytes] at hb; rw [← Except.ok.inj hb]; exact dsha_length hP _
  · obtain ⟨b, hb⟩ := red _ (by simp [hashFunctions]) h
    rw [getChecksum_bytes] at hb; rw [← Except.ok.inj hb]; exact checksum_length hP _
  · obtain ⟨b, hb⟩ := red _ (by simp [hashFunctions]) h
    have := C50_values P b
    cases hh : P.hashlibRipemd160 with
    | none => rw [(this.2.2.2.2 hh).1] at hb; rw [← Except.ok.inj hb]; exact ripemd_length _
    | some f => rw [(this.2.2.2.1 f hh).1] at hb; rw [← Except.ok.inj hb]; exact hP.ripemd160_length f hh _
  · obtain ⟨b, hb⟩ := red _ (by simp [hashFunctions]) h
    rw [hash160_bytes] at hb; rw [← Except.ok.inj hb]; exact h160_length hP _

example : HexText "00 ff".toList [0, 255] ∧ ¬ ∃ b, HexText "0g".toList b := by
  refine ⟨(fromHex_iff _ _).mp (by decide), ?_⟩
  rintro ⟨b, hb⟩
  rw [← fromHex_iff] at hb
  rw [show fromHex "0g".toList = none by decide] at hb
  cases hb

end Bip38.Props
