import Verif.Src.Bip38
import Verif.Src.EqP2pkh
import Verif.Lemmas.ReportBip38
import Verif.Lemmas.Bip38
/-!
# The text of `bip38/bip38.py` computes what the model says: common parts
-/
namespace Bip38.Src

open Run

variable (H : Host)

@[src] theorem attr_cryptocurrency (b : BIP38) : pyAttr (bipVal b) v!"cryptocurrency" = pure (.coin (.coin b.cryptocurrency)) := rfl
@[src] theorem attr_bipNetworks (b : BIP38) : pyAttr (bipVal b) v!"networks" = pure (strsVal b.networks) := rfl
@[src] theorem attr_bipNetwork (b : BIP38) : pyAttr (bipVal b) v!"network" = pure (.str b.network.toList) := rfl

theorem mem_strs (s : String) (l : List String) : pyIn (.str s.toList) (strsVal l) = pure (decide (s ∈ l)) := by
  show memList _ _ = _
  induction l with
  | nil => rfl
  | cons a l ih =>
    simp only [List.map_cons, memList, eq_str, run_pure_bind, ih, String.toList_inj, List.mem_cons]
    by_cases h : s = a
    · simp [h]
    · simp [h]

theorem mem_ints (n : Nat) (l : List Nat) : memList (.int n) (l.map fun m : Nat => Val.int m) = pure (decide (n ∈ l)) := by
  induction l with
  | nil => rfl
  | cons a l ih =>
    have e : ((n : Int) = (a : Int)) ↔ n = a := Int.ofNat_inj
    simp only [List.map_cons, memList, eq_int, run_pure_bind, ih, List.mem_cons, e]
    by_cases h : n = a
    · simp [h]
    · simp [h]

/-- `network if network else self.network` -/
theorem select_net {β : Type} (b : BIP38) (net : Option String) (k : Val → Run β) :
    ((if truthy (optNet net) = true then pure (optNet net) else pure (.str b.network.toList)) >>= k)
      = k (.str (b.selectNetwork net).toList) := by
  cases net with
  | none => rfl
  | some n =>
    have e : truthy (optNet (some n)) = decide (n ≠ "") := by
      show (!n.toList.isEmpty) = _
      by_cases h : n = ""
      · subst h; rfl
      · have : n.toList ≠ [] := fun h' => h (String.toList_inj.1 h')
        simp [h]
    rw [e]
    unfold BIP38.selectNetwork
    by_cases h : n = ""
    · simp only [h, ne_eq, not_true_eq_false, decide_false, Bool.false_eq_true, if_false, if_true, run_pure_bind]
    · simp only [h, ne_eq, not_false_eq_true, decide_true, if_false, if_true, run_pure_bind]
      rfl

theorem text_str : format (.type .str) = pure "<class 'str'>".toList := rfl

/-- `raise NetworkError("Wrong network type", ..)` -/
theorem raise_network {β : Type} (l : List String) (f : Outcome → Run β) :
    (Error_init H .networkError [.str "Wrong network type".toList] [(v!"expected", strsVal l), (v!"got", .type .str)] >>= fun a =>
      raiseVal (Error_str H) a >>= f) = Run.raise .networkError (wrongNetwork l) :=
  raise_expected H .networkError rfl "Wrong network type" (expected_strs l) text_str f

/-- `raise Error(message, detail=..)` -/
theorem raise_detail {β : Type} (c : ExcClass) (hc : c.isBip38Error = true) (m : String) (d : Str) (f : Outcome → Run β) :
    (Error_init H c [.str m.toList] [(v!"detail", .str d)] >>= fun a => raiseVal (Error_str H) a >>= f)
      = Run.raise c (errText m (detail := some (String.ofList d))) := by
  have h := raise_error H c hc m.toList (some d) .none (g := .none) rfl
  rw [show Error_init H c [.str m.toList] [(v!"detail", .str d)] = Error_init H c [.str m.toList, ofOptStr (some d), .none, .none] [] from rfl,
    ← run_assoc, h]
  unfold errText
  simp only [Option.map_some, String.toList_ofList]
  rfl

/-! ### External functions -/

theorem normalize_eq (s : Str) : xNormalize H [.str "NFC".toList, .str s] [] = pure (.str (H.P.nfc s)) := rfl
theorem scrypt_text (s : Str) (salt : Bytes) (n : Nat) :
    xScrypt H [.str (H.P.nfc s), .bytes salt, .int 16384, .int 8, .int 8, .int n] [] = pure (.bytes (scryptPassphrase H.P s salt n)) := rfl
theorem scrypt_32 (s : Str) (salt : Bytes) :
    xScrypt H [.str (H.P.nfc s), .bytes salt, .int 16384, .int 8, .int 8, .int 32] [] = pure (.bytes (scryptPassphrase H.P s salt 32)) := rfl
theorem scrypt_64 (s : Str) (salt : Bytes) :
    xScrypt H [.str (H.P.nfc s), .bytes salt, .int 16384, .int 8, .int 8] [] = pure (.bytes (scryptPassphrase H.P s salt)) := rfl
theorem scrypt_point (b salt : Bytes) :
    xScrypt H [.bytes b, .bytes salt, .int 1024, .int 1, .int 1, .int 64] [] = pure (.bytes (H.P.scrypt b salt 1024 1 1 64)) := rfl
theorem aes_eq (k : Bytes) : xAes [.bytes k] [] = ofPy (AES.new k) >>= fun a => pure (.aes a) := rfl
theorem encrypt_block (a : AES) (b : Bytes) : mEncrypt H (.aes a) [.bytes b] [] = ofPy (a.encrypt H.P b) >>= fun c => pure (.bytes c) := rfl
theorem decrypt_block (a : AES) (b : Bytes) : mDecrypt H (.aes a) [.bytes b] [] = ofPy (a.decrypt H.P b) >>= fun c => pure (.bytes c) := rfl
theorem urandom_8 : xUrandom H [.int 8] [] = pure (.bytes (H.urandom 8)) := rfl
theorem urandom_24 : xUrandom H [.int 24] [] = pure (.bytes (H.urandom 24)) := rfl

/-! ### Functions of the repository -/

theorem b2i_eq (b : Bytes) : utils_bytes_to_integer H [.bytes b] [] = pure (.int ((b2i b : Nat) : Int)) := rfl
theorem xor_nat (a b : Nat) : Int.xor (a : Int) (b : Int) = ((a ^^^ b : Nat) : Int) := rfl
theorem and_one (a : Nat) : Int.land (a : Int) 1 = ((a &&& 1 : Nat) : Int) := rfl
theorem xorBytes_fold (a b : Bytes) : integerToBytes ((b2i a ^^^ b2i b : Nat) : Int) = xorBytes a b := rfl
theorem hex_bytes (b : Bytes) : utils_bytes_to_string H [.bytes b] [] = ofPy (bytesToString (.bytes b)) >>= fun s => pure (.str s) :=
  bytes_to_string_eq H (.bytes b)
theorem hexText_src (b : Bytes) : utils_bytes_to_string H [.bytes b] [] = pure (.str (hexText b)) := by
  rw [hex_bytes, bytesToString_bytes, hexText_eq]
  rfl
theorem double_sha256_bytes (b : Bytes) : crypto_double_sha256 H [.bytes b] [] = rBytes (doubleSha256 H.P (.bytes b)) :=
  crypto_double_sha256_eq H (.bytes b)
theorem get_bytes_str (s : Str) : utils_get_bytes H [.str s] [] = rBytes (getBytes (.str s)) := get_bytes_r H (.str s)
theorem get_bytes_text (s : Str) : utils_get_bytes H [.str s] [(v!"unhexlify", .bool false)] = rBytes (getBytes (.str s) false) :=
  get_bytes_eq H (.str s) false
theorem p2pkh_key (hP : H.P.Lawful) (k : PublicKey) (w : Int) (t : String) :
    P2PKHAddress_encode H [] [(v!"public_key", publicVal k), (v!"address_prefix", .int w), (v!"public_key_type", .str t.toList)]
      = rStr (p2pkhEncode H.P (.key k) w t) :=
  p2pkh_encode_eq H hP (.key k) [(v!"address_prefix", .int w), (v!"public_key_type", .str t.toList)] ⟨rfl, rfl, rfl, by decide⟩ rfl
theorem private_public (k : PrivateKey) :
    callMethod [(.PrivateKey, PrivateKey_public_key H)] noMethod (privateVal k) [] [] = pure (publicVal k.publicKey) := rfl
theorem method_private_raw (k : PrivateKey) :
    callMethod [(.Point, Point_raw H), (.PublicKey, PublicKey_raw H), (.PrivateKey, PrivateKey_raw H)] noMethod (privateVal k) [] []
      = pure (.bytes k.raw) := rfl
theorem method_public_raw (k : PublicKey) (t : String) :
    callMethod [(.Point, Point_raw H), (.PublicKey, PublicKey_raw H), (.PrivateKey, PrivateKey_raw H)] noMethod (publicVal k) []
      [(v!"public_key_type", .str t.toList)] = pure (.bytes (k.raw t)) := PublicKey_raw_eq H k t
theorem method_point (k : PublicKey) : callMethod [(.PublicKey, PublicKey_point H)] noMethod (publicVal k) [] [] = pure (pointVal k.point) := rfl
theorem from_bytes_kw (b : Bytes) : PrivateKey_from_bytes H [] [(v!"private_key", .bytes b)] = PrivateKey_from_bytes H [.bytes b] [] := rfl
theorem point_mul (p : Pt) (n : Nat) :
    callBin [(.Point, Point_mul H)] [(.Point, Point_rmul H)] .mul (pointVal p) (.int n) = pure (pointVal (p.mul n)) := by
  show Point_mul H [pointVal p, .int n] [] = _
  rw [Point_mul_eq]
  rfl

theorem wif_type_kw (s : Str) (c : Coin) (n : String) :
    wif_get_wif_type H [] [(v!"wif", .str s), (v!"cryptocurrency", .coin (.coin c)), (v!"network", .str n.toList)]
      = ofPy (getWifType s c n) >>= fun t => pure (.str t.toList) := get_wif_type_eq H s c n
theorem wif_to_private_key_kw (s : Str) (c : Coin) (n : String) :
    wif_wif_to_private_key H [] [(v!"wif", .str s), (v!"cryptocurrency", .coin (.coin c)), (v!"network", .str n.toList)]
      = rStr (wifToPrivateKey s c n) := wif_to_private_key_eq H s c n
theorem private_key_to_wif_kw (b : Bytes) (t : String) (c : Coin) (n : String) :
    wif_private_key_to_wif H [] [(v!"private_key", .bytes b), (v!"wif_type", .str t.toList), (v!"cryptocurrency", .coin (.coin c)),
      (v!"network", .str n.toList)] = rStr (privateKeyToWif H.P (.bytes b) t c n) := private_key_to_wif_eq H (.bytes b) t c n

/-! ### Slices with literal bounds -/

theorem slice_lit {α : Type} (l : List α) (a b : Int) (ha : 0 ≤ a) (hb : 0 ≤ b) :
    pySlice l (some a) (some b) = slice a.toNat b.toNat l := by
  rw [← slice_nat, Int.toNat_of_nonneg ha, Int.toNat_of_nonneg hb]
theorem take_lit {α : Type} (l : List α) (b : Int) (hb : 0 ≤ b) : pySlice l none (some b) = l.take b.toNat := by
  rw [← slice_to, Int.toNat_of_nonneg hb]
theorem drop_lit {α : Type} (l : List α) (a : Int) (ha : 0 ≤ a) : pySlice l (some a) none = l.drop a.toNat := by
  rw [← slice_from, Int.toNat_of_nonneg ha]

/-! ### Constants -/

theorem s_N : const_N H = pure (.int (N : Nat)) := rfl
theorem s_magicLot : const_MAGIC_LOT_AND_SEQUENCE H = pure (.int (MAGIC_LOT_AND_SEQUENCE : Nat)) := rfl
theorem s_magicNo : const_MAGIC_NO_LOT_AND_SEQUENCE H = pure (.int (MAGIC_NO_LOT_AND_SEQUENCE : Nat)) := rfl
theorem s_flagU : const_NO_EC_MULTIPLIED_WIF_FLAG H = pure (.int (NO_EC_MULTIPLIED_WIF_FLAG : Nat)) := rfl
theorem s_flagC : const_NO_EC_MULTIPLIED_WIF_COMPRESSED_FLAG H = pure (.int (NO_EC_MULTIPLIED_WIF_COMPRESSED_FLAG : Nat)) := rfl
theorem s_noEc : const_NO_EC_MULTIPLIED_PRIVATE_KEY_PREFIX H = pure (.int (NO_EC_MULTIPLIED_PRIVATE_KEY_PREFIX : Nat)) := rfl
theorem s_ec : const_EC_MULTIPLIED_PRIVATE_KEY_PREFIX H = pure (.int (EC_MULTIPLIED_PRIVATE_KEY_PREFIX : Nat)) := rfl
theorem s_04 : const_MAGIC_LOT_AND_SEQUENCE_UNCOMPRESSED_FLAG H = pure (.int (MAGIC_LOT_AND_SEQUENCE_UNCOMPRESSED_FLAG : Nat)) := rfl
theorem s_24 : const_MAGIC_LOT_AND_SEQUENCE_COMPRESSED_FLAG H = pure (.int (MAGIC_LOT_AND_SEQUENCE_COMPRESSED_FLAG : Nat)) := rfl
theorem s_00 : const_MAGIC_NO_LOT_AND_SEQUENCE_UNCOMPRESSED_FLAG H = pure (.int (MAGIC_NO_LOT_AND_SEQUENCE_UNCOMPRESSED_FLAG : Nat)) := rfl
theorem s_20 : const_MAGIC_NO_LOT_AND_SEQUENCE_COMPRESSED_FLAG H = pure (.int (MAGIC_NO_LOT_AND_SEQUENCE_COMPRESSED_FLAG : Nat)) := rfl
theorem s_conf : const_CONFIRMATION_CODE_PREFIX H = pure (.int (CONFIRMATION_CODE_PREFIX : Nat)) := rfl

/-- `FLAGS[..]` -/
theorem flags_lot : (const_FLAGS H >>= fun v => pySubscript v (.str "lot_and_sequence".toList))
    = pure (.list (FLAGS_lot_and_sequence.map fun n : Nat => Val.int n)) := rfl
theorem flags_compression : (const_FLAGS H >>= fun v => pySubscript v (.str "compression".toList))
    = pure (.list (FLAGS_compression.map fun n : Nat => Val.int n)) := rfl

end Bip38.Src
