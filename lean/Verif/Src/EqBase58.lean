import Verif.Src.Base58
import Verif.Src.EqUtils
import Verif.Lemmas.Base58
/-!
# The text of `bip38/libs/base58.py` computes what the model says
-/
namespace Bip38.Src

open Run

variable (H : Host)

theorem alphabet_eq : base58_base58_alphabet H = pure (.str bitcoinAlphabet) := rfl

theorem sti_loop (l : Bytes) (k acc : Nat) (env : Env) (he : env v!"val" = some (.int acc)) {β : Type} {f : Outcome → Run β} {r : Run β}
    (hf : ∀ env' : Env, env' v!"val" = some (.int ((l.zipIdx k).foldl (fun val (x : UInt8 × Nat) => val + 256 ^ x.2 * x.1.toNat) acc : Nat)) →
      f (.next env') = r) :
    forLoop [.name v!"i", .name v!"c"] true [base58_string_to_int_L17 H]
      ((l.zipIdx k).map fun p => .tuple [.int p.2, .int p.1.toNat]) env >>= f = r := by
  induction l generalizing k acc env with
  | nil => exact hf env he
  | cons c l ih =>
    rw [List.zipIdx_cons, List.map_cons, for_cons_unpack]
    ev [block_cons, he]
    simp only [Int.natCast_nonneg, if_true, src, Int.toNat_natCast]
    refine ih (k + 1) (acc + 256 ^ k * c.toNat) _ ?_ fun env' h' => hf env' ?_
    · ev []
      push_cast
      rfl
    · rw [List.zipIdx_cons, List.foldl_cons]
      exact h'

theorem string_to_int_eq (b : Bytes) : base58_string_to_int H [.bytes b] [] = pure (.int (stringToInt b)) := by
  unfold base58_string_to_int
  rw [defun_eq]
  ev [block_cons]
  have e : pyEnumerate [.bytes b.reverse] [] = pure (.list ((b.reverse.zipIdx 0).map fun p => .tuple [.int p.2, .int p.1.toNat])) := by
    simp only [pyEnumerate, src, List.zipIdx_map, List.map_map]
    rfl
  simp only [e, src]
  refine sti_loop H b.reverse 0 0 _ rfl fun env' h' => ?_
  ev [block_cons, h']
  rfl

theorem ensure_string_eq (d : Data) : base58_ensure_string H [ofData d] [] = ofPy (ensureStringAny d) >>= fun s => pure (.str s) := by
  rcases d with _ | s | b | _
  · rfl
  · rfl
  · unfold base58_ensure_string ensureStringAny
    rw [defun_eq]
    ev [block_cons, ofData]
    cases h : utf8Decode b <;> simp [mDecode, h] <;> rfl
  · rfl

/-- The `while` loop of `encode`. -/
theorem enc_loop (a : Str) (ha : 2 ≤ a.length) (d : Val) (fuel v : Nat) (e : Str) (hv : v < 2 ^ fuel) (env : Env)
    (h1 : env v!"val" = some (.int v)) (h2 : env v!"enc" = some (.str e)) (h3 : env v!"alphabet" = some (.str a)) (h4 : env v!"data" = some d)
    {β : Type} {f : Outcome → Run β} {r : Run β}
    (hf : ∀ env' : Env, env' v!"val" = some (.int (encodeLoop a fuel v e).1) → env' v!"enc" = some (.str (encodeLoop a fuel v e).2) →
      env' v!"alphabet" = some (.str a) → env' v!"data" = some d → (encodeLoop a fuel v e).1 < a.length → f (.next env') = r) :
    base58_encode_L32 H env >>= f = r := by
  induction fuel generalizing v e env with
  | zero =>
    have : v = 0 := by simpa using hv
    subst this
    ev []
    rw [while_eq]
    ev [h1, h3]
    rw [if_neg (by omega)]
    exact hf env h1 h2 h3 h4 (by simp only [encodeLoop]; omega)
  | succ n ih =>
    ev []
    rw [while_eq]
    ev [h1, h3]
    by_cases hc : a.length ≤ v
    · have e1 : encodeLoop a (n + 1) v e = encodeLoop a n (v / a.length) (a.getD (v % a.length) '?' :: e) := by
        rw [encodeLoop, if_pos hc]
      rw [e1] at hf
      have hd := divmod_nat v a.length (by omega)
      have hi := index_str a (Nat.mod_lt v (by omega : 0 < a.length)) '?'
      rw [if_pos (by omega)]
      ev [block_cons, h1, h2, h3, hd, hi]
      refine ih (v / a.length) _ ?_ _ rfl rfl ?_ ?_ hf
      · calc v / a.length ≤ v / 2 := Nat.div_le_div_left ha (by omega)
          _ < 2 ^ n := by omega
      · ev [h3]
      · ev [h4]
    · have e1 : encodeLoop a (n + 1) v e = (v, e) := by rw [encodeLoop, if_neg hc]
      rw [e1] at hf
      rw [if_neg (by omega)]
      exact hf env h1 h2 h3 h4 (by simp only; omega)

/-- The last two lines of `encode`. -/
theorem enc_tail (b : Bytes) (a e : Str) (ha : 1 ≤ a.length) (env : Env) (h2 : env v!"enc" = some (.str e))
    (h3 : env v!"alphabet" = some (.str a)) (h4 : env v!"data" = some (.bytes b)) :
    (block [base58_encode_L38 H, base58_encode_L39 H] env >>= finish)
      = pure (.str (List.replicate (leadingZeros b) (a.getD 0 '?') ++ e)) := by
  have hi := index_str a (n := 0) (by omega) '?'
  have hz : ((b.length : Int) - ((b.dropWhile (· ∈ [0])).length : Nat)).toNat = leadingZeros b := by
    have e : (fun x : UInt8 => decide (x ∈ [0])) = (· == 0) := by
      funext x
      simp only [List.mem_singleton]
      rfl
    unfold leadingZeros
    rw [e]
    omega
  simp only [Nat.cast_zero] at hi
  ev [block_cons, h2, h3, h4, hi, hz]
  congr 3
  induction leadingZeros b with
  | zero => rfl
  | succ n ih => simp only [List.replicate_succ, List.flatten_cons, ih]; rfl

theorem encode_bytes (b : Bytes) (a : Str) (ha : 2 ≤ a.length) : base58_encode H [.bytes b, .str a] [] = pure (.str (b58encode b a)) := by
  unfold base58_encode
  rw [defun_eq]
  ev []
  rw [block_cons]
  ev []
  rw [block_cons]
  ev [string_to_int_eq]
  rw [block_cons]
  simp only [run_assoc]
  refine enc_loop H a ha (.bytes b) ((stringToInt b).log2 + 1) _ [] Nat.lt_log2_self _ rfl rfl rfl rfl fun env' h1 h2 h3 h4 h5 => ?_
  have e : b58encode b a = List.replicate (leadingZeros b) (a.getD 0 '?')
      ++ (if (encodeLoop a ((stringToInt b).log2 + 1) (stringToInt b) []).1 ≠ 0 then
        a.getD (encodeLoop a ((stringToInt b).log2 + 1) (stringToInt b) []).1 '?' :: (encodeLoop a ((stringToInt b).log2 + 1) (stringToInt b) []).2
        else (encodeLoop a ((stringToInt b).log2 + 1) (stringToInt b) []).2) := rfl
  rw [e]
  generalize encodeLoop a ((stringToInt b).log2 + 1) (stringToInt b) [] = p at *
  obtain ⟨v, x⟩ := p
  simp only at h1 h2 h5 ⊢
  rw [runRest_next, block_cons]
  ev [h1]
  by_cases hv : v = 0
  · subst hv
    simp only [Nat.cast_zero, ne_eq, not_true_eq_false, if_false, src]
    exact enc_tail H b a x (by omega) env' h2 h3 h4
  · have hv2 : (v : Int) ≠ 0 := by omega
    have hi := index_str a h5 '?'
    simp only [ne_eq, hv, hv2, not_false_eq_true, if_true, src]
    rw [block_cons]
    ev [h1, h2, h3, hi]
    refine enc_tail H b a (a.getD v '?' :: x) (by omega) _ ?_ ?_ ?_
    · rfl
    · ev [h3]
    · ev [h4]

/-- Arguments of `encode` other than `bytes`. -/
theorem encode_other (a : Str) :
    (∀ s, base58_encode H [.str s, .str a] [] = Run.raise .typeError "string argument without an encoding") ∧
      base58_encode H [.none, .str a] [] = Run.raise .typeError "'NoneType' object is not subscriptable" := ⟨fun _ => rfl, rfl⟩

theorem check_encode_eq (b : Bytes) (a : Str) (ha : 2 ≤ a.length) :
    base58_check_encode H [.bytes b, .str a] [] = pure (.str (checkEncode H.P.sha256 b a)) := by
  have h4 := slice_to (H.P.sha256 (H.P.sha256 b)) 4
  unfold base58_check_encode
  rw [defun_eq]
  ev [block_cons]
  simp only [Nat.cast_ofNat] at h4
  simp only [h4, encode_bytes H _ a ha, src]
  rfl

theorem check_encode_default (b : Bytes) : base58_check_encode H [.bytes b] [] = pure (.str (checkEncode H.P.sha256 b)) :=
  check_encode_eq H b bitcoinAlphabet (by decide)

theorem dec_loop1 (a : Str) (l : Bytes) (st : Int × Nat) (env : Env) (h1 : env v!"val" = some (.int st.1))
    (h2 : env v!"prefix" = some (.int st.2)) (h3 : env v!"alphabet" = some (.str a)) {β : Type} {f : Outcome → Run β} {r : Run β}
    (hf : ∀ env' : Env, env' v!"val" = some (.int (l.foldl (decodeStep a) st).1) → env' v!"prefix" = some (.int (l.foldl (decodeStep a) st).2) →
      f (.next env') = r) :
    forLoop [.name v!"c"] false [base58_decode_L54 H, base58_decode_L55 H] (l.map fun c => .int c.toNat) env >>= f = r := by
  induction l generalizing st env with
  | nil => exact hf env h1 h2
  | cons c l ih =>
    rw [List.map_cons, for_cons]
    ev [block_cons, h1, h2, h3]
    have e : decodeStep a st c = (st.1 * a.length + bytesFind (utf8 a) c, if st.1 * a.length + bytesFind (utf8 a) c = 0 then st.2 + 1 else st.2) := rfl
    rw [List.foldl_cons, e] at hf
    by_cases hv : st.1 * a.length + bytesFind (utf8 a) c = 0
    · simp only [hv, if_true, src] at hf ⊢
      refine ih (0, st.2 + 1) _ ?_ ?_ ?_ hf
      · ev []
      · ev []
        push_cast
        rfl
      · ev [h3]
    · simp only [hv, if_false, src] at hf ⊢
      refine ih (_, st.2) _ ?_ ?_ ?_ hf
      · ev []
      · ev [h2]
      · ev [h3]

theorem dec_loop2 (fuel v : Nat) (z : Int) (hv : z.toNat = v) (hf : v < 2 ^ fuel) (d : Bytes) (p : Val) (env : Env)
    (h1 : env v!"val" = some (.int z)) (h2 : env v!"dec" = some (.bytearray d)) (h3 : env v!"prefix" = some p)
    {β : Type} {f : Outcome → Run β} {r : Run β}
    (hr : ∀ env' : Env, env' v!"dec" = some (.bytearray (d ++ decodeLoop fuel v)) → env' v!"prefix" = some p → f (.next env') = r) :
    base58_decode_L59 H env >>= f = r := by
  induction fuel generalizing v z d env with
  | zero =>
    have : v = 0 := by simpa using hf
    ev []
    rw [while_eq]
    ev [h1]
    rw [if_neg (by omega)]
    refine hr env ?_ h3
    rw [h2]
    simp [decodeLoop]
  | succ n ih =>
    ev []
    rw [while_eq]
    ev [h1]
    by_cases hc : 0 < v
    · have e1 : decodeLoop (n + 1) v = UInt8.ofNat (v % 256) :: decodeLoop n (v / 256) := by rw [decodeLoop, if_pos hc]
      have e2 : z = v := by omega
      subst e2
      have hd := divmod_nat v 256 (by omega)
      have ha := append_nat d (Nat.mod_lt v (by omega : 0 < 256))
      simp only [Nat.cast_ofNat] at hd
      rw [if_pos (by omega)]
      ev [block_cons, h1, h2, hd, ha]
      refine ih (v / 256) (v / 256 : Nat) (by omega) (by omega) (d ++ [UInt8.ofNat (v % 256)]) _ rfl rfl ?_ fun env' h1 h2 => hr env' ?_ h2
      · ev [h3]
      · rw [h1, e1]
        simp
    · have e1 : decodeLoop (n + 1) v = [] := by rw [decodeLoop, if_neg hc]
      rw [if_neg (by omega)]
      refine hr env ?_ h3
      rw [h2, e1, List.append_nil]

theorem decode_eq (s : Str) (a : Str) : base58_decode H [.str s, .str a] [] = ofPy (b58decode s a) >>= fun b => pure (.bytes b) := by
  unfold base58_decode b58decode
  rw [defun_eq, ofPy_bind, run_assoc]
  ev []
  rw [block_cons]
  ev [block_cons]
  refine step fun d hd => ?_
  refine dec_loop1 H a d (0, 0) _ rfl rfl rfl fun env' h1 h2 => ?_
  ev []
  rw [block_cons]
  ev []
  rw [block_cons]
  simp only [run_assoc]
  refine dec_loop2 H _ _ (d.foldl (decodeStep a) (0, 0)).1 rfl Nat.lt_log2_self [] (.int (d.foldl (decodeStep a) (0, 0)).2) _ ?_ ?_ ?_
    fun env2 h3 h4 => ?_
  · ev [h1]
  · rfl
  · ev [h2]
  · ev [block_cons, h3, h4, bytearray_int]
    rfl

/-- Arguments of `decode` other than texts. -/
theorem decode_other (a : Str) (d : Data) (hd : ∀ s, d ≠ .str s) :
    base58_decode H [ofData d, .str a] [] = Run.raise .typeError "encoding without a string argument" := by
  rcases d with _ | s | b | _
  · rfl
  · exact absurd rfl (hd s)
  · rfl
  · rfl

theorem check_decode_eq (s a : Str) :
    base58_check_decode H [.str s, .str a] [] = ofPy (checkDecode H.P.sha256 s a) >>= fun b => pure (.bytes b) := by
  unfold base58_check_decode checkDecode
  rw [defun_eq, ofPy_bind, run_assoc]
  ev [block_cons, decode_eq]
  refine step fun d hd => ?_
  have h1 := slice_dropLast d 4 (by decide)
  have h2 := slice_last d 4 (by decide)
  have h3 := slice_to (H.P.sha256 (H.P.sha256 (dropLastN 4 d))) 4
  simp only [Nat.cast_ofNat] at h1 h2 h3
  simp only [h1, h2, h3, src]
  by_cases h : lastN 4 d = (H.P.sha256 (H.P.sha256 (dropLastN 4 d))).take 4
  · simp only [h, src, ne_eq, not_true_eq_false]
  · simp only [h, src, ne_eq, not_false_eq_true]
    rfl

theorem check_decode_default (s : Str) :
    base58_check_decode H [.str s] [] = ofPy (checkDecode H.P.sha256 s) >>= fun b => pure (.bytes b) :=
  check_decode_eq H s bitcoinAlphabet

theorem check_decode_other (a : Str) (d : Data) (hd : ∀ s, d ≠ .str s) :
    base58_check_decode H [ofData d, .str a] [] = Run.raise .typeError "encoding without a string argument" := by
  rcases d with _ | s | b | _
  · rfl
  · exact absurd rfl (hd s)
  · rfl
  · rfl

end Bip38.Src
