import Verif.Props.Encoding
import Verif.Props.Create
import Verif.Lemmas.Supplies
/-!
# Properties C46, C47, C48: optional arguments, integer conversion without byte count, text conversions
-/
namespace Bip38.Props
open Bip38 Spec

variable (P : Prims)

/-! ## C46 -/

theorem absent_random {d : Data} (hd : Absent d) (u u' : Bytes) (hu : u ≠ []) :
    bytesOrRandom d u = bytesOrRandom (.bytes u) u' := by
  have h1 : d.truthy = false := by
    by_contra h
    exact (truthy_iff d).mp (by simpa using h) hd
  have h2 : (Data.bytes u).truthy = true := by
    rw [truthy_iff]; simp [Absent, hu]
  unfold bytesOrRandom
  rw [h1, h2]
  simp

theorem present_random {d : Data} (hd : ¬ Absent d) (u u' : Bytes) : bytesOrRandom d u = bytesOrRandom d u' := by
  have h1 := (truthy_iff d).mpr hd
  unfold bytesOrRandom
  rw [h1]
  simp

/-- C46: a call of `create_new_encrypted_wif` without a seed (absent, `b""` or `""`) is the same call with the random bytes passed
as the seed. -/
theorem C46_seed_omitted (obj : BIP38) (code : Str) (type : String) (network : Option String) (d : Data) (hd : Absent d)
    (u u' : Bytes) (hu : u.length = 24) :
    obj.createNewEncryptedWif P code type d network u = obj.createNewEncryptedWif P code type (.bytes u) network u' := by
  unfold BIP38.createNewEncryptedWif
  rw [absent_random hd u u' (by rintro rfl; simp at hu)]

/-- C46: with a seed the result does not depend on the random bytes. -/
theorem C46_seed_given (obj : BIP38) (code : Str) (type : String) (network : Option String) (d : Data) (hd : ¬ Absent d)
    (u u' : Bytes) :
    obj.createNewEncryptedWif P code type d network u = obj.createNewEncryptedWif P code type d network u' := by
  unfold BIP38.createNewEncryptedWif
  rw [present_random hd u u']

/-- C46: the same for the owner salt of `intermediate_code`. -/
theorem C46_salt_omitted (passphrase : Str) (lot sequence : Option Int) (d : Data) (hd : Absent d) (u u' : Bytes)
    (hu : u.length = 8) :
    intermediateCode P passphrase lot sequence d u = intermediateCode P passphrase lot sequence (.bytes u) u' := by
  unfold intermediateCode
  rw [absent_random hd u u' (by rintro rfl; simp at hu)]

theorem C46_salt_given (passphrase : Str) (lot sequence : Option Int) (d : Data) (hd : ¬ Absent d) (u u' : Bytes) :
    intermediateCode P passphrase lot sequence d u = intermediateCode P passphrase lot sequence d u' := by
  unfold intermediateCode
  rw [present_random hd u u']

/-- C46: hexadecimal text for a seed or a salt stands for its bytes. -/
theorem C46_hex (obj : BIP38) (code : Str) (type : String) (network : Option String) (s : Str) (b : Bytes) (hs : HexText s b)
    (hb : b ≠ []) (u : Bytes) (passphrase : Str) (lot sequence : Option Int) :
    obj.createNewEncryptedWif P code type (.str s) network u = obj.createNewEncryptedWif P code type (.bytes b) network u
      ∧ intermediateCode P passphrase lot sequence (.str s) u = intermediateCode P passphrase lot sequence (.bytes b) u := by
  have h : bytesOrRandom (.str s) u = bytesOrRandom (.bytes b) u := by
    have h1 : Supplies (.bytes b) u b := .inr ⟨by simp [Absent, hb], .inl rfl⟩
    have h2 : Supplies (.str s) u b := by
      refine .inr ⟨?_, .inr ⟨s, rfl, hs⟩⟩
      simp only [Absent, reduceCtorEq, Data.str.injEq, false_or]
      rintro rfl
      cases hs
      exact hb rfl
    rw [h1.ok, h2.ok]
  unfold BIP38.createNewEncryptedWif intermediateCode
  rw [h]
  exact ⟨rfl, rfl⟩

example : Absent .none ∧ Absent (.bytes []) ∧ Absent (.str []) ∧ ¬ Absent (.str ['0']) ∧ ¬ Absent .other := by
  simp [Absent]

/-! ## C47 -/

theorem auto_bounds (n : Nat) (hn : 0 < n) :
    1 ≤ (bitLength n + 7) / 8 ∧ 256 ^ ((bitLength n + 7) / 8 - 1) ≤ n ∧ n < 256 ^ ((bitLength n + 7) / 8) := by
  have h0 : n ≠ 0 := by omega
  have hb : bitLength n = n.log2 + 1 := by simp [bitLength, h0]
  have h1 : 2 ^ n.log2 ≤ n := Nat.log2_self_le h0
  have h2 : n < 2 ^ (n.log2 + 1) := Nat.lt_log2_self
  rw [hb]
  refine ⟨by omega, ?_, ?_⟩
  · refine le_trans ?_ h1
    rw [← two_pow_eight]
    exact Nat.pow_le_pow_right (by norm_num) (by omega)
  · refine lt_of_lt_of_le h2 ?_
    rw [← two_pow_eight]
    exact Nat.pow_le_pow_right (by norm_num) (by omega)

/-- C47: without a byte count (or with the count 0) `integer_to_bytes` uses the smallest number of bytes that holds a positive number as an
unsigned one, and one byte for zero and for negative numbers, whatever `signed` is. -/
theorem C47_auto_count (n : Int) (e : Endian) (signed : Bool) :
    ∃ k : Nat, 1 ≤ k ∧ (n ≤ 0 → k = 1) ∧ (0 < n → (256 : Int) ^ (k - 1) ≤ n ∧ n < (256 : Int) ^ k)
      ∧ integerToBytes n none e signed = integerToBytes n (some k) e signed
      ∧ integerToBytes n (some 0) e signed = integerToBytes n (some k) e signed := by
  by_cases hn : 0 < n
  · obtain ⟨m, rfl⟩ : ∃ m : Nat, n = m := ⟨n.toNat, by omega⟩
    obtain ⟨h1, h2, h3⟩ := auto_bounds m (by omega)
    refine ⟨(bitLength m + 7) / 8, h1, fun h => absurd h (by omega), fun _ => ⟨by exact_mod_cast h2, by exact_mod_cast h3⟩, ?_, ?_⟩
    all_goals
      have hk : ¬ (((bitLength m + 7) / 8 : Nat) : Int) < 0 := by omega
      have hk0 : ¬ (((bitLength m + 7) / 8 : Nat) : Int) = 0 := by omega
      simp only [integerToBytes, hk, hk0, if_false, Int.toNat_natCast, hn, if_true, lt_irrefl]
  · refine ⟨1, le_refl _, fun _ => rfl, fun h => absurd h hn, ?_, ?_⟩ <;> simp [integerToBytes, hn]

/-- C47: without a byte count a signed conversion succeeds exactly from -128 on and for the positive numbers whose top bit is not the top bit
of a byte (for 128, 129, ..., 255 it raises `OverflowError` although two bytes would do). -/
theorem C47_signed_auto (n : Int) (e : Endian) :
    ((-128 ≤ n ∧ ∀ j : Nat, ¬ ((128 : Int) * 256 ^ j ≤ n ∧ n < 256 * 256 ^ j)) →
        ∃ b, integerToBytes n none e true = .ok b ∧ bytesToInteger b e true = n)
      ∧ (¬ (-128 ≤ n ∧ ∀ j : Nat, ¬ ((128 : Int) * 256 ^ j ≤ n ∧ n < 256 * 256 ^ j)) →
        ∃ x, integerToBytes n none e true = .error x ∧ x.cls = .overflowError) := by
  obtain ⟨k, hk1, hneg, hpos, heq, _⟩ := C47_auto_count n e true
  rw [heq]
  have hiff : Fits true k n ↔ (-128 ≤ n ∧ ∀ j : Nat, ¬ ((128 : Int) * 256 ^ j ≤ n ∧ n < 256 * 256 ^ j)) := by
    unfold Fits
    by_cases h : 0 < n
    · obtain ⟨h1, h2⟩ := hpos h
      obtain ⟨i, rfl⟩ : ∃ i, k = i + 1 := ⟨k - 1, by omega⟩
      simp only [Nat.add_sub_cancel] at h1
      rw [pow_succ] at h2
      have hp : (2 : Int) ^ (8 * (i + 1)) = 256 * 256 ^ i := by
        rw [pow_mul, pow_succ]; norm_num; ring
      simp only [if_true, hp]
      constructor
      · rintro ⟨_, h4⟩
        refine ⟨by omega, fun j ⟨h5, h6⟩ => ?_⟩
        rcases lt_trichotomy j i with hj | rfl | hj
        · have : (256 : Int) ^ (j + 1) ≤ 256 ^ i := pow_le_pow_right₀ (by norm_num) hj
          rw [pow_succ] at this
          omega
        · omega
        · have : (256 : Int) ^ (i + 1) ≤ 256 ^ j := pow_le_pow_right₀ (by norm_num) hj
          rw [pow_succ] at this
          omega
      · rintro ⟨_, h4⟩
        have h5 := h4 i
        have : (0 : Int) < 256 ^ i := by positivity
        constructor <;> omega
    · have := hneg (by omega)
      subst this
      simp only [if_true]
      constructor
      · rintro ⟨h1, _⟩
        refine ⟨by omega, fun j ⟨h5, _⟩ => ?_⟩
        have : (0 : Int) < 256 ^ j := by positivity
        omega
      · rintro ⟨h1, _⟩
        constructor <;> omega
  constructor
  · intro h
    obtain ⟨b, h1, _, h3⟩ := (C05_with_length n k hk1 e true).1 (hiff.mpr h)
    exact ⟨b, h1, h3⟩
  · intro h
    exact (C05_with_length n k hk1 e true).2 (fun hf => h (hiff.mp hf))

/-- C47: a negative number without `signed` raises `OverflowError`, whatever the byte count. -/
theorem C47_unsigned_negative (n : Int) (hn : n < 0) (count : Option Int) (hc : ∀ k, count = some k → 0 ≤ k) (e : Endian) :
    ∃ x, integerToBytes n count e false = .error x ∧ x.cls = .overflowError := by
  have key : ∀ k : Nat, ∃ x, intToBytes n k e false = .error x ∧ x.cls = .overflowError := by
    intro k
    unfold intToBytes
    simp [hn, raise]
  unfold integerToBytes
  match count with
  | none => exact key _
  | some k =>
    have := hc k rfl
    simp only [not_lt.mpr this, if_false]
    split
    · exact key _
    · exact key _

/-- C47: a negative byte count raises `ValueError`. -/
theorem C47_negative_count (n k : Int) (hk : k < 0) (e : Endian) (signed : Bool) :
    ∃ x, integerToBytes n (some k) e signed = .error x ∧ x.cls = .valueError := by
  unfold integerToBytes
  simp [hk, raise]

example : (-128 ≤ (127 : Int) ∧ ∀ j : Nat, ¬ ((128 : Int) * 256 ^ j ≤ 127 ∧ (127 : Int) < 256 * 256 ^ j)) := by
  refine ⟨by norm_num, fun j ⟨h, _⟩ => ?_⟩
  have : (1 : Int) ≤ 256 ^ j := one_le_pow₀ (by norm_num)
  omega

/-! ## C48 -/

/-- C48: `bytes_to_string` returns hexadecimal text (with white space) unchanged, and the hexadecimal form of the UTF-8 bytes of any
other text; so its result always denotes some bytes, and applying it twice changes nothing. -/
theorem C48_text (s : Str) :
    (∀ b, HexText s b → bytesToString (.str s) = .ok s)
      ∧ ((¬ ∃ b, HexText s b) → bytesToString (.str s) = bytesToString (.bytes (utf8 s)))
      ∧ ∃ t b, bytesToString (.str s) = .ok t ∧ HexText t b ∧ bytesToString (.str t) = .ok t := by
  have hstr : ∀ s b, HexText s b → bytesToString (.str s) = .ok s := by
    intro s b hb
    rw [← fromHex_iff] at hb
    unfold bytesToString Data.truthy
    cases s with
    | nil => simp
    | cons c s => simp [hb]
  have hno : (¬ ∃ b, HexText s b) → bytesToString (.str s) = .ok (hex (utf8 s)) := by
    intro h
    have hn : fromHex s = none := by
      cases hf : fromHex s with
      | none => rfl
      | some b => exact absurd ⟨b, (fromHex_iff s b).mp hf⟩ h
    unfold bytesToString Data.truthy
    cases s with
    | nil => simp [fromHex] at hn
    | cons c s => simp [hn]
  refine ⟨hstr s, fun h => by rw [hno h, bytesToString_bytes], ?_⟩
  by_cases h : ∃ b, HexText s b
  · obtain ⟨b, hb⟩ := h
    exact ⟨s, b, hstr s b hb, hb, hstr s b hb⟩
  · have hx : HexText (hex (utf8 s)) (utf8 s) := (fromHex_iff _ _).mp (fromHex_hex _)
    exact ⟨_, _, hno h, hx, hstr _ _ hx⟩

/-- C48: `get_bytes` of bytes is these bytes, of an absent argument is empty, of text with `unhexlify=False` is its UTF-8, of any other
object is a `TypeError`. -/
theorem C48_get_bytes (b : Bytes) (s : Str) (d : Data) (flag : Bool) :
    getBytes (.bytes b) flag = .ok b
      ∧ (Absent d → getBytes d flag = .ok [])
      ∧ getBytes (.str s) false = .ok (utf8 s)
      ∧ ∃ e, getBytes .other flag = .error e ∧ e.cls = .typeError := by
  refine ⟨getBytes_bytes b flag, fun h => ?_, getBytes_text s, ⟨.typeError, _⟩, rfl, rfl⟩
  rcases h with rfl | rfl | rfl <;> simp [getBytes, Data.truthy]

/-- C48: the UTF-8 encoding used by these functions is the one of the core library. -/
theorem C48_utf8 (s : String) : utf8 s.toList = s.toUTF8.data.toList := by
  rw [String.toUTF8, ← String.utf8Encode_toList, List.utf8Encode, List.data_toByteArray]
  rfl

/-- C48: `bytes_reverse` lists the bytes backwards, and is its own inverse. -/
theorem C48_reverse (b : Bytes) : bytesReverse (bytesReverse b) = b ∧ (bytesReverse b).length = b.length
    ∧ ∀ i, i < b.length → (bytesReverse b)[i]? = b[b.length - 1 - i]? := by
  refine ⟨List.reverse_reverse b, List.length_reverse, fun i hi => ?_⟩
  unfold bytesReverse
  rw [List.getElem?_reverse hi]

example : bytesToString (.str "00 ff".toList) = .ok "00 ff".toList ∧ bytesToString (.str "xy".toList) = .ok "7879".toList := by
  decide

end Bip38.Props
