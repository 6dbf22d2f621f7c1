import Verif.Src.Wif
import Verif.Src.EqCrypto
import Verif.Src.EqBase58
/-!
# The text of `bip38/wif.py` computes what the model says
-/
namespace Bip38.Src

open Run

variable (H : Host)

theorem ofPy_raise_bind {α β : Type} (c : ExcClass) (m : String) (f : α → Py β) :
    ofPy ((Bip38.raise c m : Py α) >>= f) = Run.raise c m := rfl

/-- A run that raises, or goes on. -/
theorem ofPy_raiseIf_bind {β : Type} (c : Prop) [Decidable c] (k : ExcClass) (m : String) (f : Unit → Py β) :
    ofPy (raiseIf c k m >>= f) = if c then Run.raise k m else ofPy (f ()) := by
  unfold raiseIf
  split <;> rfl

theorem encode_default (b : Bytes) : base58_encode H [.bytes b] [] = pure (.str (b58encode b)) := encode_bytes H b bitcoinAlphabet (by decide)

theorem decode_default (s : Str) : base58_decode H [.str s] [] = ofPy (b58decode s) >>= fun b => pure (.bytes b) := decode_eq H s bitcoinAlphabet

theorem compressed_prefix : const_COMPRESSED_PRIVATE_KEY_PREFIX H = pure (.int COMPRESSED_PRIVATE_KEY_PREFIX) := rfl

theorem expected_int (n : Int) (h : n ≠ 0) : ExpectedVal (.int n) (.one true (toString n).toList) := by
  have := ExpectedVal.one (v := .int n) (t := (toString n).toList) (by simp [typeOf]) rfl (by simp [typeOf])
  rwa [t_int, decide_eq_true h] at this

theorem int_text (n : Nat) : String.ofList (toString (n : Int)).toList = toString n := by
  rw [String.ofList_toList]
  rfl

theorem expected_64 : ExpectedVal (.int 64) (.one true "64".toList) := expected_int 64 (by decide)

theorem encode_wif_eq (d : Data) (w : Int) :
    wif_encode_wif H [ofData d, .int w] [] = ofPy (encodeWif H.P d w) >>= fun p => pure (wifPair p) := by
  unfold wif_encode_wif encodeWif
  rw [defun_eq, ofPy_bind, run_assoc]
  ev []
  rw [block_cons]
  ev [get_bytes_r, rBytes]
  refine step fun b hb => ?_
  rw [ofPy_raiseIf_bind]
  by_cases h : b.length = 32
  · have hg : utils_get_bytes H [ofData d] [] = pure (.bytes b) := by rw [get_bytes_r, hb]; rfl
    have n1 : ¬ (b.length ≠ 32 ∧ d = .none) := by simp [h]
    have n2 : ¬ b.length ≠ 32 := by simp [h]
    simp only [if_neg n1, ofPy_raiseIf_bind, if_neg n2]
    have e32 : (((b.length : Nat) : Int) = 32) = True := eq_true (by omega)
    ev [e32]
    rw [block_cons]
    ev [integer_to_bytes_default, ofPy_bind]
    refine step fun pre hp => ?_
    have hi : utils_integer_to_bytes H [.int w] [] = pure (.bytes pre) := by rw [integer_to_bytes_default, hp]; rfl
    ev [hg]
    rw [block_cons]
    ev [hi, hg, compressed_prefix, integer_to_bytes_default]
    refine step fun one ho => ?_
    rw [block_cons]
    ev [get_checksum_bytes, rBytes, encode_default]
    rfl
  · by_cases hn : d = .none
    · subst hn
      cases hb
      rfl
    · have n1 : ¬ (b.length ≠ 32 ∧ d = .none) := by simp [hn]
      simp only [if_neg n1, ofPy_raiseIf_bind, if_pos h]
      have hl : pyLen [ofData d] [] = pure (.int d.len) := by
        rcases d with _ | s | c | _
        · exact absurd rfl hn
        · rfl
        · rfl
        · cases hb
      have e32 : (((b.length : Nat) : Int) = 32) = False := eq_false (by omega)
      ev [e32]
      ev [block_cons, hl, raise_expected H .secp256k1Error rfl "Invalid private key length" expected_64 (f_int d.len), int_text]

theorem wif_slices (l : Bytes) : pySlice l (some (-1 * 4)) none = lastN 4 l ∧ pySlice l none (some (-1 * 4)) = dropLastN 4 l :=
  ⟨slice_last l 4 (by decide), slice_dropLast l 4 (by decide)⟩

theorem mem_int_two (n a b : Int) : memList (.int n) [.int a, .int b] = pure (decide (n = a) || decide (n = b)) := by
  simp only [memList, eq_int, run_pure_bind]
  by_cases h : n = a
  · simp [h]
  · by_cases h2 : n = b <;> simp [h, h2]

theorem decode_wif_eq (s : Str) (w : Int) :
    wif_decode_wif H [.str s, .int w] [] = ofPy (decodeWif s w) >>= fun p => pure (wifParts p) := by
  unfold wif_decode_wif decodeWif
  rw [defun_eq, ofPy_bind, run_assoc]
  ev []
  rw [block_cons]
  ev [decode_default]
  refine step fun raw hr => ?_
  rw [block_cons]
  ev [integer_to_bytes_default, ofPy_bind]
  refine step fun pre hp => ?_
  have hi : utils_integer_to_bytes H [.int w] [] = pure (.bytes pre) := by rw [integer_to_bytes_default, hp]; rfl
  simp only [ofPy_raiseIf]
  ev [mStartswith]
  by_cases h : pre.isPrefixOf raw = true
  · have h2 : raw.take pre.length = pre := (List.prefix_iff_eq_take.1 (List.isPrefixOf_iff_prefix.1 h)).symm
    simp only [h, not_true_eq_false, if_false]
    ev []
    rw [block_cons]
    ev [hi]
    rw [block_cons]
    ev [slice_to]
    rw [block_cons]
    ev [hi, h2, ne_eq, not_true_eq_false]
    rw [block_cons]
    ev [slice_from]
    rw [block_cons]
    ev [wif_slices]
    rw [block_cons]
    ev [wif_slices]
    rw [block_cons]
    ev []
    rw [block_cons]
    ev [mem_int_two]
    have ho : integerToBytes COMPRESSED_PRIVATE_KEY_PREFIX = .ok [1] := by decide +kernel
    have hio : utils_integer_to_bytes H [.int COMPRESSED_PRIVATE_KEY_PREFIX] [] = pure (.bytes [1]) := by
      rw [integer_to_bytes_default, ho]
      rfl
    generalize hk : dropLastN 4 (raw.drop pre.length) = k
    rw [ho]
    by_cases h33 : k.length = 33
    · have e1 : ((k.length : Int) = 33) = True := eq_true (by omega)
      have n1 : ¬ (k.length ≠ 33 ∧ k.length ≠ 32) := by omega
      simp only [if_neg n1, if_pos h33]
      ev [e1]
      ev [block_cons, e1, hio, compressed_prefix, slice_dropLast k ([1] : Bytes).length (by decide)]
      rfl
    · by_cases h32 : k.length = 32
      · have e1 : ((k.length : Int) = 33) = False := eq_false (by omega)
        have e2 : ((k.length : Int) = 32) = True := eq_true (by omega)
        have n1 : ¬ (k.length ≠ 33 ∧ k.length ≠ 32) := by omega
        simp only [if_neg n1, if_neg h33]
        ev [e1, e2]
        ev [block_cons, e1]
        rfl
      · have e1 : ((k.length : Int) = 33) = False := eq_false (by omega)
        have e2 : ((k.length : Int) = 32) = False := eq_false (by omega)
        have n1 : k.length ≠ 33 ∧ k.length ≠ 32 := by omega
        simp only [if_pos n1]
        ev [e1, e2]
        ev [block_cons, raise_msg H .wifError rfl]
        rfl
  · ev [h, not_false_eq_true]
    ev [block_cons, raise_msg H .wifError rfl]
    rfl

theorem lookup_dict (l : List (String × Net)) (n : String) :
    dictGet (l.map fun p => (p.1.toList, netVal p.2)) n.toList
      = ofPy (match l.lookup n with | some net => .ok net | none => Bip38.raise .keyError n) >>= fun net => pure (netVal net) := by
  unfold dictGet
  induction l with
  | nil =>
    show Run.raise .keyError (String.ofList n.toList) = _
    rw [String.ofList_toList]
    rfl
  | cons p l ih =>
    rw [List.map_cons, List.find?_cons, List.lookup_cons]
    by_cases h : p.1 = n
    · have h1 : (n == p.1) = true := by simp [h]
      have h2 : decide (p.1.toList = n.toList) = true := by simp [h]
      simp only [h1, h2]
      rfl
    · have h1 : (n == p.1) = false := by simp [Ne.symm h]
      have h2 : decide (p.1.toList = n.toList) = false := by simp [String.toList_inj, h]
      simp only [h1, h2]
      exact ih

/-- `cryptocurrency.NETWORKS[network]` -/
theorem networks_eq (c : Coin) (n : String) :
    (pyAttr (.coin (.coin c)) v!"NETWORKS" >>= fun v => pySubscript v (.str n.toList)) = ofPy (lookupNet c n) >>= fun net => pure (netVal net) :=
  lookup_dict c.networks n

@[src] theorem attr_networks (c : Coin) : pyAttr (.coin (.coin c)) v!"NETWORKS" = pure (networksVal c) := rfl
@[src] theorem attr_alphabet (c : Coin) : pyAttr (.coin (.coin c)) v!"ALPHABET" = pure (alphabetVal c) := rfl
@[src] theorem networks_get (c : Coin) (n : String) :
    pySubscript (networksVal c) (.str n.toList) = ofPy (lookupNet c n) >>= fun net => pure (netVal net) := lookup_dict c.networks n
@[src] theorem net_wif (n : Net) : pySubscript (netVal n) (.str "wif_prefix".toList) = pure (.int n.wifPrefix) := rfl
@[src] theorem net_address (n : Net) : pySubscript (netVal n) (.str "address_prefix".toList) = pure (.int n.addressPrefix) := rfl

theorem encode_wif_kw (v w : Val) :
    wif_encode_wif H [] [(v!"private_key", v), (v!"wif_prefix", w)] = wif_encode_wif H [v, w] [] := rfl

theorem encode_wif_default (v : Val) : wif_encode_wif H [v] [] = wif_encode_wif H [v, .int 0x80] [] := rfl

theorem decode_wif_kw (v w : Val) :
    wif_decode_wif H [] [(v!"wif", v), (v!"wif_prefix", w)] = wif_decode_wif H [v, w] [] := rfl

theorem decode_wif_default (v : Val) : wif_decode_wif H [v] [] = wif_decode_wif H [v, .int 0x80] [] := rfl

theorem mem_str_two (s a b : Str) : memList (.str s) [.str a, .str b] = pure (decide (s = a) || decide (s = b)) := by
  simp only [memList, eq_str, run_pure_bind]
  by_cases h : s = a
  · simp [h]
  · by_cases h2 : s = b <;> simp [h, h2]

theorem wif_types : const_WIF_TYPES H = pure (.list [.str "wif".toList, .str "wif-compressed".toList]) := rfl

theorem expected_strs (l : List String) : ExpectedVal (.list (l.map fun s => Val.str s.toList)) (.list (l.map String.toList)) := by
  refine .list ?_
  induction l with
  | nil => exact .nil
  | cons a l ih => exact .cons rfl ih

theorem private_key_to_wif_eq (d : Data) (t : String) (c : Coin) (n : String) :
    wif_private_key_to_wif H [ofData d, .str t.toList, .coin (.coin c), .str n.toList] []
      = rStr (privateKeyToWif H.P d t c n) := by
  unfold wif_private_key_to_wif privateKeyToWif
  rw [defun_eq]
  ev []
  rw [block_cons]
  ev [wif_types, mem_str_two, ofPy_raiseIf_bind, rStr]
  by_cases h : t ∈ WIF_TYPES
  · have hn : ¬ t ∉ WIF_TYPES := fun h' => h' h
    have ht : (decide (t.toList = "wif".toList) || decide (t.toList = "wif-compressed".toList)) = true := by
      rcases List.mem_cons.1 h with h | h
      · subst h; rfl
      · rcases List.mem_cons.1 h with h | h
        · subst h; rfl
        · cases h
    simp only [if_neg hn]
    ev [ht]
    rw [block_cons]
    ev [ofPy_bind]
    refine step fun net hnet => ?_
    ev [encode_wif_kw, encode_wif_eq, wifPair]
    refine step fun p hp => ?_
    rw [block_cons]
    have e : t.toList = "wif".toList ↔ t = "wif" := String.toList_inj
    by_cases hw : t = "wif"
    · ev [e, hw]
    · ev [e, hw]
  · have ht : (decide (t.toList = "wif".toList) || decide (t.toList = "wif-compressed".toList)) = false := by
      have h1 : t ≠ "wif" := fun h' => h (by subst h'; decide)
      have h2 : t ≠ "wif-compressed" := fun h' => h (by subst h'; decide)
      simp only [String.toList_inj, h1, h2, decide_false, Bool.or_false]
    simp only [if_pos h]
    ev [ht]
    ev [block_cons, wif_types, raise_expected H .wifError rfl "Wrong WIF type" (expected_strs ["wif", "wif-compressed"]) (f_str t.toList)]
    rfl

theorem wif_to_private_key_eq (s : Str) (c : Coin) (n : String) :
    wif_wif_to_private_key H [.str s, .coin (.coin c), .str n.toList] [] = rStr (wifToPrivateKey s c n) := by
  have hb : ∀ b : Bytes, utils_bytes_to_string H [.bytes b] [] = _ := fun b => bytes_to_string_eq H (.bytes b)
  unfold wif_wif_to_private_key wifToPrivateKey
  rw [defun_eq]
  ev []
  rw [block_cons]
  ev [rStr, ofPy_bind]
  refine step fun net hnet => ?_
  ev [decode_wif_kw, decode_wif_eq, wifParts]
  refine step fun p hp => ?_
  have e : pySubscript (.tuple [.bytes p.1, .str p.2.1.toList, .bytes p.2.2]) (.int 0) = pure (.bytes p.1) := rfl
  ev [e, hb]

theorem get_wif_type_eq (s : Str) (c : Coin) (n : String) :
    wif_get_wif_type H [.str s, .coin (.coin c), .str n.toList] [] = ofPy (getWifType s c n) >>= fun t => pure (.str t.toList) := by
  unfold wif_get_wif_type getWifType
  rw [defun_eq]
  ev []
  rw [block_cons]
  ev [rStr, ofPy_bind]
  refine step fun net hnet => ?_
  ev [decode_wif_kw, decode_wif_eq, wifParts]
  refine step fun p hp => ?_
  rfl

theorem get_wif_checksum_eq (s : Str) (c : Coin) (n : String) :
    wif_get_wif_checksum H [.str s, .coin (.coin c), .str n.toList] [] = rStr (getWifChecksum s c n) := by
  have hb : ∀ b : Bytes, utils_bytes_to_string H [.bytes b] [] = _ := fun b => bytes_to_string_eq H (.bytes b)
  unfold wif_get_wif_checksum getWifChecksum
  rw [defun_eq]
  ev []
  rw [block_cons]
  ev [rStr, ofPy_bind]
  refine step fun net hnet => ?_
  ev [decode_wif_kw, decode_wif_eq, wifParts]
  refine step fun p hp => ?_
  have e : pySubscript (.tuple [.bytes p.1, .str p.2.1.toList, .bytes p.2.2]) (.int 2) = pure (.bytes p.2.2) := rfl
  ev [e, hb]

end Bip38.Src
