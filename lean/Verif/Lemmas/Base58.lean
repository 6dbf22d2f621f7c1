import Verif.Model.Base58
import Verif.Spec.Base58
import Verif.Lemmas.Utils
import Mathlib.Data.List.TakeWhile
/-! # Lemmas on Base58 -/
namespace Bip38
open Spec

theorem stringToInt_eq (b : Bytes) : stringToInt b = fromBE b := by
  unfold stringToInt
  have key : ∀ (l : Bytes) (k acc : Nat),
      (l.zipIdx k).foldl (fun val (x : UInt8 × Nat) => val + 256 ^ x.2 * x.1.toNat) acc
        = acc + 256 ^ k * fromBE l.reverse := by
    intro l
    induction l with
    | nil => intro k acc; simp
    | cons c l ih =>
      intro k acc
      rw [List.zipIdx_cons, List.foldl_cons, ih, List.reverse_cons, fromBE_snoc]
      ring
  have := key b.reverse 0 0
  simpa using this

theorem utf8EncodeChar_ascii (c : Char) (h : c.toNat < 128) : String.utf8EncodeChar c = [UInt8.ofNat c.toNat] := by
  unfold String.utf8EncodeChar
  have h1 : c.val.toNat ≤ 127 := by have : c.val.toNat = c.toNat := rfl; omega
  rw [if_pos h1]
  rfl

theorem utf8_ascii (s : Str) (h : ∀ c ∈ s, c.toNat < 128) : utf8 s = s.map fun c => UInt8.ofNat c.toNat := by
  unfold utf8
  induction s with
  | nil => rfl
  | cons c s ih =>
    rw [List.flatMap_cons, utf8EncodeChar_ascii c (h c (by simp)), ih (fun d hd => h d (by simp [hd]))]
    rfl

theorem char_eq_of_byte {c d : Char} (hc : c.toNat < 128) (hd : d.toNat < 128)
    (h : UInt8.ofNat c.toNat = UInt8.ofNat d.toNat) : c = d := by
  have := congrArg UInt8.toNat h
  simp only [UInt8.toNat_ofNat'] at this
  have e : c.toNat = d.toNat := by omega
  apply Char.ext
  apply UInt32.toNat_inj.mp
  exact e

theorem bytesFind_eq (a : Str) (ha : ∀ c ∈ a, c.toNat < 128) (c : Char) (hc : c.toNat < 128) :
    bytesFind (utf8 a) (UInt8.ofNat c.toNat) = digit a c := by
  rw [utf8_ascii a ha]
  induction a with
  | nil => simp [bytesFind, digit]
  | cons d a ih =>
    have ih' := ih (fun x hx => ha x (by simp [hx]))
    unfold bytesFind digit at *
    by_cases h : d = c
    · subst h; simp [List.findIdx?_cons]
    · have hb : (UInt8.ofNat d.toNat == UInt8.ofNat c.toNat) = false := by
        simp only [beq_eq_false_iff_ne, ne_eq]
        exact fun e => h (char_eq_of_byte (ha d (by simp)) hc e)
      rw [List.map_cons, List.findIdx?_cons, hb]
      have hne : ¬ c = d := fun e => h e.symm
      by_cases hm : c ∈ a
      · simp only [hm, if_true, List.mem_cons, or_true] at ih' ⊢
        rw [List.idxOf_cons_ne _ h]
        cases hf : List.findIdx? (fun x => x == UInt8.ofNat c.toNat) (List.map (fun c => UInt8.ofNat c.toNat) a) with
        | none => rw [hf] at ih'; simp at ih'; try omega
        | some i => rw [hf] at ih'; simp at ih' ⊢; omega
      · simp only [hm, if_false, List.mem_cons, or_false, hne] at ih' ⊢
        cases hf : List.findIdx? (fun x => x == UInt8.ofNat c.toNat) (List.map (fun c => UInt8.ofNat c.toNat) a) with
        | none => simp
        | some i => rw [hf] at ih'; simp at ih'; try omega

theorem digit_bounds (a : Str) (c : Char) : -1 ≤ digit a c ∧ digit a c < max 1 a.length := by
  unfold digit
  split
  · rename_i h
    have := List.idxOf_lt_length_of_mem h
    omega
  · omega

theorem value_snoc (B : Nat) (ds : List Int) (d : Int) : value B (ds ++ [d]) = value B ds * B + d := by
  induction ds with
  | nil => simp [value]
  | cons e ds ih => simp only [List.cons_append, value, ih, List.length_append, List.length_singleton]; ring

theorem value_append (B : Nat) (ds es : List Int) : value B (ds ++ es) = value B ds * B ^ es.length + value B es := by
  induction ds with
  | nil => simp [value]
  | cons e ds ih => simp only [List.cons_append, value, ih, List.length_append]; ring

theorem value_replicate_zero (B n : Nat) : value B (List.replicate n 0) = 0 := by
  induction n with
  | zero => rfl
  | succ n ih => simp [List.replicate_succ, value, ih]

/-- With digits `-1 ≤ d < B` the value is zero only if all digits are zero. -/
theorem value_eq_zero_iff (B : Nat) (ds : List Int) (hB : 2 ≤ B) (h : ∀ d ∈ ds, -1 ≤ d ∧ d < B) :
    value B ds = 0 ↔ ∀ d ∈ ds, d = 0 := by
  induction ds using List.reverseRecOn with
  | nil => simp [value]
  | append_singleton ds d ih =>
    have ih' := ih (fun x hx => h x (by simp [hx]))
    rw [value_snoc]
    have hd := h d (by simp)
    constructor
    · intro e
      have hv : value B ds = 0 ∧ d = 0 := by
        have hB' : (2 : Int) ≤ B := by exact_mod_cast hB
        rcases lt_trichotomy (value B ds) 0 with hv | hv | hv
        · exfalso; nlinarith
        · exact ⟨hv, by rw [hv] at e; simpa using e⟩
        · exfalso; nlinarith
      intro x hx
      simp only [List.mem_append, List.mem_singleton] at hx
      rcases hx with hx | hx
      · exact ih'.mp hv.1 x hx
      · rw [hx]; exact hv.2
    · intro e
      rw [ih'.mpr (fun x hx => e x (by simp [hx])), e d (by simp)]; simp

theorem takeWhile_snoc_all {α : Type} (p : α → Bool) (l : List α) (a : α) (h : ∀ x ∈ l, p x) :
    (l ++ [a]).takeWhile p = if p a then l ++ [a] else l := by
  rw [List.takeWhile_append_of_pos h]
  by_cases hp : p a <;> simp [hp]

theorem takeWhile_snoc_not {α : Type} (p : α → Bool) (l : List α) (a : α) (h : ¬ ∀ x ∈ l, p x) :
    (l ++ [a]).takeWhile p = l.takeWhile p := by
  induction l with
  | nil => simp at h
  | cons b l ih =>
    by_cases hb : p b
    · have : ¬ ∀ x ∈ l, p x := by
        intro hh; apply h; intro x hx; simp at hx; rcases hx with rfl | hx; exact hb; exact hh x hx
      simp [hb, ih this]
    · simp [hb]

/-- The decoding loop: value and number of leading zero digits. -/
theorem decode_fold (a : Str) (ha : ValidAlphabet a) (s : Str) (hs : ∀ c ∈ s, c.toNat < 128) :
    (s.map fun c => UInt8.ofNat c.toNat).foldl (decodeStep a) ((0 : Int), 0)
      = (value a.length (s.map (digit a)), ((s.map (digit a)).takeWhile (fun x => decide (x = 0))).length) := by
  induction s using List.reverseRecOn with
  | nil => rfl
  | append_singleton s c ih =>
    have ih' := ih (fun x hx => hs x (by simp [hx]))
    simp only [List.map_append, List.map_cons, List.map_nil, List.foldl_append, List.foldl_cons, List.foldl_nil]
    rw [ih', decodeStep, bytesFind_eq a ha.ascii c (hs c (by simp)), value_snoc]
    have hb : ∀ d ∈ s.map (digit a), -1 ≤ d ∧ d < (a.length : Int) := by
      intro d hd
      simp only [List.mem_map] at hd
      obtain ⟨x, _, rfl⟩ := hd
      have := digit_bounds a x
      have := ha.two
      omega
    have hb' : ∀ d ∈ s.map (digit a) ++ [digit a c], -1 ≤ d ∧ d < (a.length : Int) := by
      intro d hd
      simp only [List.mem_append, List.mem_singleton] at hd
      rcases hd with hd | rfl
      · exact hb d hd
      · have := digit_bounds a c
        have := ha.two
        omega
    have hz := value_eq_zero_iff a.length _ ha.two hb
    have hz' := value_eq_zero_iff a.length _ ha.two hb'
    rw [value_snoc] at hz'
    simp only [Prod.mk.injEq, true_and]
    by_cases hall : ∀ d ∈ s.map (digit a), d = 0
    · rw [takeWhile_snoc_all _ _ _ (by simpa using hall)]
      have htw : (s.map (digit a)).takeWhile (fun x => decide (x = 0)) = s.map (digit a) := by
        rw [List.takeWhile_eq_self_iff]; simpa using hall
      rw [htw]
      by_cases hc : digit a c = 0
      · rw [if_pos (hz'.mpr (by intro d hd; simp only [List.mem_append, List.mem_singleton] at hd; rcases hd with hd | rfl; exact hall d hd; exact hc))]
        simp [hc]
      · rw [if_neg (fun e => hc (hz'.mp e _ (by simp)))]
        simp [hc]
    · rw [takeWhile_snoc_not _ _ _ (by simpa using hall)]
      rw [if_neg]
      intro e
      exact hall fun d hd => hz'.mp e d (by simp [hd])

theorem decodeLoop_fromBE (b : Bytes) (fuel : Nat) (hf : b.length ≤ fuel) (h0 : b.head? ≠ some 0) :
    decodeLoop fuel (fromBE b) = b.reverse := by
  induction fuel generalizing b with
  | zero =>
    have : b = [] := List.length_eq_zero_iff.mp (by omega)
    subst this; rfl
  | succ fuel ih =>
    rcases List.eq_nil_or_concat b with hb | ⟨b', c, hb⟩
    · subst hb; rfl
    · simp only [List.concat_eq_append] at hb
      subst hb
      have hc := c.toNat_lt
      rw [decodeLoop, fromBE_snoc]
      have h1 : (fromBE b' * 256 + c.toNat) % 256 = c.toNat := by omega
      have h2 : (fromBE b' * 256 + c.toNat) / 256 = fromBE b' := by omega
      have hpos : 0 < fromBE b' * 256 + c.toNat := by
        rcases b' with _ | ⟨d, t⟩
        · simp at h0
          rcases Nat.eq_zero_or_pos c.toNat with h | h
          · exact absurd (UInt8.toNat_inj.mp (by simpa using h)) h0
          · simpa using h
        · simp at h0
          have : 0 < d.toNat := by
            rcases Nat.eq_zero_or_pos d.toNat with h | h
            · exact absurd (UInt8.toNat_inj.mp (by simpa using h)) h0
            · exact h
          have h5 := fromBE_cons d t
          have : 0 < 256 ^ t.length := by positivity
          have : 0 < fromBE (d :: t) := by rw [h5]; positivity
          omega
      rw [if_pos hpos, h1, h2, ih b' (by simp at hf; omega)]
      · simp
      · intro e
        rcases b' with _ | ⟨d, t⟩
        · simp at e
        · simp at e h0; exact h0 e

/-- Minimal big-endian bytes of a number, empty for zero. -/
def minBE (n : Nat) : Bytes := (decodeLoop (n.log2 + 1) n).reverse

theorem lt_two_pow_log2 (n : Nat) : n < 2 ^ (n.log2 + 1) := Nat.lt_log2_self

theorem length_le_of_head (b : Bytes) (h0 : b.head? ≠ some 0) (hne : b ≠ []) : b.length ≤ (fromBE b).log2 + 1 := by
  match b, hne with
  | c :: t, _ =>
    have hc : c ≠ 0 := by simpa using h0
    have h := bitLength_bytes c t hc
    unfold bitLength at h
    split at h
    · simp at h
    · simp only [List.length_cons]; omega

theorem minBE_fromBE (b : Bytes) (h0 : b.head? ≠ some 0) : minBE (fromBE b) = b := by
  unfold minBE
  rcases eq_or_ne b [] with rfl | hne
  · rfl
  · rw [decodeLoop_fromBE b _ (length_le_of_head b h0 hne) h0]; simp

theorem head_dropWhile_zero (b : Bytes) : (b.dropWhile (· == 0)).head? ≠ some 0 := by
  intro h
  rcases hb : b.dropWhile (· == 0) with _ | ⟨c, t⟩
  · rw [hb] at h; simp at h
  · have := dropWhile_zero_head b c t hb
    rw [hb] at h; simp at h; exact this h

theorem minBE_fromBE' (b : Bytes) : minBE (fromBE b) = b.dropWhile (· == 0) := by
  rw [← fromBE_dropZeros, minBE_fromBE _ (head_dropWhile_zero b)]

theorem exists_bytes (n : Nat) : ∃ b : Bytes, b.head? ≠ some 0 ∧ fromBE b = n := by
  have hlt : n < 256 ^ n := Nat.lt_pow_self (by norm_num)
  refine ⟨(toBE n n).dropWhile (· == 0), head_dropWhile_zero _, ?_⟩
  rw [fromBE_dropZeros, fromBE_toBE n n hlt]

theorem fromBE_minBE (n : Nat) : fromBE (minBE n) = n := by
  obtain ⟨b, h0, rfl⟩ := exists_bytes n
  rw [minBE_fromBE b h0]

theorem head_minBE (n : Nat) : (minBE n).head? ≠ some 0 := by
  obtain ⟨b, h0, rfl⟩ := exists_bytes n
  rwa [minBE_fromBE b h0]

/-- Exact result of `decode` on ASCII text. -/
theorem b58decode_ascii (a : Str) (ha : ValidAlphabet a) (s : Str) (hs : ∀ c ∈ s, c.toNat < 128) :
    b58decode s a = .ok (List.replicate ((s.map (digit a)).takeWhile (fun x => decide (x = 0))).length 0
      ++ minBE (value a.length (s.map (digit a))).toNat) := by
  have h1 : asciiBytes s = .ok (s.map fun c => UInt8.ofNat c.toNat) := by
    unfold asciiBytes; rw [if_pos]; simpa using hs
  simp only [b58decode, h1, bind, Except.bind, decode_fold a ha s hs]
  simp [minBE]

theorem b58decode_nonascii (a : Str) (s : Str) (hs : ¬ ∀ c ∈ s, c.toNat < 128) :
    b58decode s a = .error ⟨.unicodeEncodeError, "'ascii' codec can't encode character"⟩ := by
  have h1 : asciiBytes s = raise .unicodeEncodeError "'ascii' codec can't encode character" := by
    unfold asciiBytes; rw [if_neg]; simpa using hs
  simp only [b58decode, h1, raise, bind, Except.bind]

/-! ### Encoding -/

/-- Base-`B` digits, most significant first, no leading zero. -/
def beDigits (B : Nat) (n : Nat) : List Nat := (Nat.digits B n).reverse

theorem encodeLoop_digits (a : Str) (ha : 2 ≤ a.length) (fuel val : Nat) (enc : Str) (h : val < a.length ^ (fuel + 1)) :
    (let r := encodeLoop a fuel val enc
     if r.1 ≠ 0 then a.getD r.1 '?' :: r.2 else r.2) = (beDigits a.length val).map (a.getD · '?') ++ enc := by
  induction fuel generalizing val enc with
  | zero =>
    simp at h
    by_cases h0 : val = 0
    · subst h0; simp [beDigits, encodeLoop]
    · rw [beDigits, Nat.digits_of_lt _ _ h0 h]; simp [encodeLoop, h0]
  | succ fuel ih =>
    rw [encodeLoop]
    by_cases hle : a.length ≤ val
    · rw [if_pos hle]
      have hlt : val / a.length < a.length ^ (fuel + 1) := by
        rw [Nat.div_lt_iff_lt_mul (by omega)]; rwa [← pow_succ]
      rw [ih _ _ hlt]
      have : Nat.digits a.length val = (val % a.length) :: Nat.digits a.length (val / a.length) :=
        Nat.digits_def' (by omega) (by omega)
      simp [beDigits, this]
    · rw [if_neg hle]
      by_cases h0 : val = 0
      · subst h0; simp [beDigits]
      · simp only [ne_eq, h0, not_false_iff, if_true]
        rw [beDigits, Nat.digits_of_lt _ _ h0 (by omega)]; simp

theorem b58encode_eq (a : Str) (ha : 2 ≤ a.length) (b : Bytes) :
    b58encode b a = List.replicate (leadingZeros b) (a.getD 0 '?')
      ++ (beDigits a.length (fromBE b)).map (a.getD · '?') := by
  have hlt : fromBE b < a.length ^ ((fromBE b).log2 + 1 + 1) := by
    calc fromBE b < 2 ^ ((fromBE b).log2 + 1) := Nat.lt_log2_self
      _ ≤ a.length ^ ((fromBE b).log2 + 1) := Nat.pow_le_pow_left ha _
      _ ≤ _ := Nat.pow_le_pow_right (by omega) (by omega)
  have := encodeLoop_digits a ha ((fromBE b).log2 + 1) (fromBE b) [] hlt
  simp only [List.append_nil] at this
  rw [← this]
  simp only [b58encode, stringToInt_eq]

theorem digit_getD (a : Str) (hn : a.Nodup) (i : Nat) (hi : i < a.length) : digit a (a.getD i '?') = i := by
  rw [List.getD_eq_getElem _ _ hi]
  unfold digit
  rw [if_pos (List.getElem_mem hi), List.Nodup.idxOf_getElem hn]

theorem value_beDigits (B : Nat) (n : Nat) : value B ((beDigits B n).map fun (d : Nat) => (d : Int)) = n := by
  have key : ∀ l : List Nat, value B (l.reverse.map fun (d : Nat) => (d : Int)) = ((Nat.ofDigits B l : Nat) : Int) := by
    intro l
    induction l with
    | nil => rfl
    | cons d l ih =>
      rw [List.reverse_cons, List.map_append, List.map_cons, List.map_nil, value_snoc, ih, Nat.ofDigits_cons]
      push_cast; ring
  rw [beDigits, key, Nat.ofDigits_digits]

theorem head_beDigits (B n : Nat) : (beDigits B n).head? ≠ some 0 := by
  intro h
  by_cases hn : n = 0
  · subst hn; simp [beDigits] at h
  · have h1 := Nat.getLast_digit_ne_zero B hn
    rw [beDigits, List.head?_reverse] at h
    rw [List.getLast?_eq_some_getLast (Nat.digits_ne_nil_iff_ne_zero.mpr hn)] at h
    exact h1 (by simpa using h)

theorem lt_of_mem_beDigits {B n d : Nat} (hB : 2 ≤ B) (h : d ∈ beDigits B n) : d < B :=
  Nat.digits_lt_base (by omega) (by simpa [beDigits] using h)

theorem beDigits_value (B : Nat) (hB : 2 ≤ B) (l : List Nat) (hl : ∀ d ∈ l, d < B) (h0 : l.head? ≠ some 0) :
    beDigits B (value B (l.map fun (d : Nat) => (d : Int))).toNat = l := by
  have key : ∀ l : List Nat, value B (l.reverse.map fun (d : Nat) => (d : Int)) = ((Nat.ofDigits B l : Nat) : Int) := by
    intro l
    induction l with
    | nil => rfl
    | cons d l ih =>
      rw [List.reverse_cons, List.map_append, List.map_cons, List.map_nil, value_snoc, ih, Nat.ofDigits_cons]
      push_cast; ring
  have := key l.reverse
  rw [List.reverse_reverse] at this
  rw [this, Int.toNat_natCast, beDigits, Nat.digits_ofDigits B (by omega)]
  · simp
  · intro d hd; exact hl d (by simpa using hd)
  · intro hne
    rw [List.getLast_reverse]
    intro e
    apply h0
    rw [List.head?_eq_some_head (by simpa using hne), e]

theorem takeWhile_replicate_append {α : Type} (p : α → Bool) (a : α) (n : Nat) (l : List α) (ha : p a) :
    (List.replicate n a ++ l).takeWhile p = List.replicate n a ++ l.takeWhile p := by
  apply List.takeWhile_append_of_pos; intro x hx; rw [List.eq_of_mem_replicate hx]; exact ha

theorem takeWhile_head {α : Type} (p : α → Bool) (l : List α) (h : ∀ a, l.head? = some a → p a = false) :
    l.takeWhile p = [] := by
  cases l with
  | nil => rfl
  | cons a l => simp [h a rfl]

theorem leadingZeros_eq (b : Bytes) : leadingZeros b = (b.takeWhile (· == 0)).length := by
  unfold leadingZeros
  have := congrArg List.length (List.takeWhile_append_dropWhile (p := fun x : UInt8 => x == 0) (l := b))
  rw [List.length_append] at this; omega

theorem replicate_leadingZeros (b : Bytes) : List.replicate (leadingZeros b) 0 ++ b.dropWhile (· == 0) = b := by
  rw [leadingZeros_eq]
  have h : b.takeWhile (· == 0) = List.replicate (b.takeWhile (· == 0)).length 0 := by
    rw [List.eq_replicate_iff]
    refine ⟨rfl, fun x hx => ?_⟩
    have := List.mem_takeWhile_imp hx
    simpa using this
  rw [← h, List.takeWhile_append_dropWhile]

theorem b58encode_ascii (a : Str) (ha : ValidAlphabet a) (b : Bytes) : WellFormed a (b58encode b a) := by
  intro c hc
  rw [b58encode_eq a ha.two, List.mem_append] at hc
  rcases hc with hc | hc
  · rw [List.eq_of_mem_replicate hc, List.getD_eq_getElem _ _ (by have := ha.two; omega)]
    exact List.getElem_mem _
  · simp only [List.mem_map] at hc
    obtain ⟨d, hd, rfl⟩ := hc
    have := lt_of_mem_beDigits ha.two hd
    rw [List.getD_eq_getElem _ _ this]
    exact List.getElem_mem _

theorem digits_b58encode (a : Str) (ha : ValidAlphabet a) (b : Bytes) :
    (b58encode b a).map (digit a) = List.replicate (leadingZeros b) 0
      ++ (beDigits a.length (fromBE b)).map fun (d : Nat) => (d : Int) := by
  have h0 : 0 < a.length := by have := ha.two; omega
  rw [b58encode_eq a ha.two, List.map_append, List.map_replicate, digit_getD a ha.nodup 0 h0, List.map_map]
  congr 1
  apply List.map_congr_left
  intro d hd
  exact digit_getD a ha.nodup d (lt_of_mem_beDigits ha.two hd)

theorem b58decode_b58encode (a : Str) (ha : ValidAlphabet a) (b : Bytes) : b58decode (b58encode b a) a = .ok b := by
  rw [b58decode_ascii a ha _ (fun c hc => ha.ascii c (b58encode_ascii a ha b c hc)), digits_b58encode a ha,
    takeWhile_replicate_append _ _ _ _ (by simp)]
  rw [takeWhile_head]
  · rw [value_append, value_replicate_zero, value_beDigits]
    simp only [zero_mul, zero_add, Int.toNat_natCast, List.append_nil, List.length_replicate]
    rw [minBE_fromBE', replicate_leadingZeros]
  · intro d hd
    rw [List.head?_map] at hd
    have := head_beDigits a.length (fromBE b)
    cases h : (beDigits a.length (fromBE b)).head? with
    | none => rw [h] at hd; simp at hd
    | some e => rw [h] at hd this; simp at hd this; simp [← hd]; omega

theorem leadingZeros_replicate_append (n : Nat) (b : Bytes) (h0 : b.head? ≠ some 0) :
    leadingZeros (List.replicate n 0 ++ b) = n := by
  rw [leadingZeros_eq, takeWhile_replicate_append _ _ _ _ (by simp), takeWhile_head]
  · simp
  · intro c hc
    rw [hc] at h0
    simpa using h0

theorem fromBE_replicate_append (n : Nat) (b : Bytes) : fromBE (List.replicate n 0 ++ b) = fromBE b := by
  induction n with
  | zero => rfl
  | succ n ih => rw [List.replicate_succ, List.cons_append, fromBE_cons, ih]; simp

theorem b58encode_b58decode (a : Str) (ha : ValidAlphabet a) (s : Str) (hs : WellFormed a s) :
    ∃ b, b58decode s a = .ok b ∧ b58encode b a = s := by
  refine ⟨_, b58decode_ascii a ha s (fun c hc => ha.ascii c (hs c hc)), ?_⟩
  rw [b58encode_eq a ha.two, leadingZeros_replicate_append _ _ (head_minBE _), fromBE_replicate_append, fromBE_minBE]
  -- digits as naturals
  let l : List Nat := s.map (fun c => a.idxOf c)
  have hl : s.map (digit a) = l.map fun (d : Nat) => (d : Int) := by
    simp only [l, List.map_map]
    apply List.map_congr_left
    intro c hc
    simp [digit, hs c hc]
  have hlt : ∀ d ∈ l, d < a.length := by
    intro d hd
    simp only [l, List.mem_map] at hd
    obtain ⟨c, hc, rfl⟩ := hd
    exact List.idxOf_lt_length_of_mem (hs c hc)
  have hback : l.map (a.getD · '?') = s := by
    simp only [l, List.map_map]
    conv_rhs => rw [← List.map_id s]
    apply List.map_congr_left
    intro c hc
    have := List.idxOf_lt_length_of_mem (hs c hc)
    simp only [Function.comp_apply, id_eq]
    rw [List.getD_eq_getElem _ _ this, List.getElem_idxOf]
  rw [hl]
  have htw : ((l.map fun (d : Nat) => (d : Int)).takeWhile (fun x => decide (x = 0))).length
      = (l.takeWhile (fun x => decide (x = 0))).length := by
    rw [List.takeWhile_map, List.length_map]
    congr 2
    funext d; simp
  rw [htw]
  have hsplit : l = List.replicate (l.takeWhile (fun x => decide (x = 0))).length 0
      ++ l.dropWhile (fun x => decide (x = 0)) := by
    conv_lhs => rw [← List.takeWhile_append_dropWhile (p := fun x => decide (x = 0)) (l := l)]
    congr 1
    rw [List.eq_replicate_iff]
    exact ⟨rfl, fun x hx => by simpa using List.mem_takeWhile_imp hx⟩
  have hval : value a.length (l.map fun (d : Nat) => (d : Int))
      = value a.length ((l.dropWhile (fun x => decide (x = 0))).map fun (d : Nat) => (d : Int)) := by
    conv_lhs => rw [hsplit]
    rw [List.map_append, value_append, List.map_replicate, Nat.cast_zero, value_replicate_zero]; simp
  rw [hval, beDigits_value a.length ha.two]
  · conv_rhs => rw [← hback, hsplit]
    rw [List.map_append, List.map_replicate]
  · intro d hd; exact hlt d ((List.dropWhile_sublist _).subset hd)
  · intro h
    have := List.head?_dropWhile_not (p := fun x : Nat => decide (x = 0)) (l := l)
    rw [h] at this
    simp at this

end Bip38
