import Verif.Props.Source
/-!
# Properties C82 to C85: the text of `base58.py`, `ripemd160.py`, `secp256k1/*.py`, `wif.py`, `p2pkh_address.py`
-/
namespace Bip38.Props
open Bip38 Spec Src

variable (H : Host)

/-! ### C82 `bip38/libs/base58.py` -/

/-- C82: `string_to_int`, `encode`, `check_encode` on bytes: the loops end, with the values of the model. -/
theorem C82_encode (b : Bytes) (a : Str) (ha : 2 ≤ a.length) :
    Returns (base58_string_to_int H [.bytes b] []) (.int (be b))
      ∧ Returns (base58_encode H [.bytes b, .str a] []) (.str (b58encode b a))
      ∧ Returns (base58_check_encode H [.bytes b, .str a] []) (.str (b58encode (b ++ checksum H.P b) a)) := by
  refine ⟨?_, encode_bytes H b a ha, check_encode_eq H b a ha⟩
  rw [Returns, string_to_int_eq, stringToInt_eq, ← be_eq]
  rfl

/-- C82: `decode`, `check_decode`, `ensure_string`, on every text and every alphabet, and on other kinds of arguments. -/
theorem C82_decode (d : Data) (a : Str) :
    EndsAs (base58_decode H [ofData d, .str a] []) (b58decodeAny d a) .bytes
      ∧ EndsAs (base58_check_decode H [ofData d, .str a] []) (checkDecodeAny H.P.sha256 d a) .bytes
      ∧ EndsAs (base58_ensure_string H [ofData d] []) (ensureStringAny d) .str := by
  refine ⟨?_, ?_, endsAs (ensure_string_eq H d)⟩
  · rcases d with _ | s | b | _
    · exact endsAs (decode_other H a .none (by simp))
    · exact endsAs (decode_eq H s a)
    · exact endsAs (decode_other H a (.bytes b) (by simp))
    · exact endsAs (decode_other H a .other (by simp))
  · rcases d with _ | s | b | _
    · exact endsAs (check_decode_other H a .none (by simp))
    · exact endsAs (check_decode_eq H s a)
    · exact endsAs (check_decode_other H a (.bytes b) (by simp))
    · exact endsAs (check_decode_other H a .other (by simp))

/-- C82: on the text: the Base58 text of bytes, written out, and read back; with and without checksum. -/
theorem C82_roundtrip (hP : H.P.Lawful) (a : Str) (h : ValidAlphabet a) (b : Bytes) : ∃ s t : Str,
    s = (b.takeWhile (· == 0)).map (fun _ => a.getD 0 '?') ++ (Nat.digits a.length (be b)).reverse.map (fun d => a.getD d '?')
      ∧ Returns (base58_encode H [.bytes b, .str a] []) (.str s)
      ∧ Returns (base58_decode H [.str s, .str a] []) (.bytes b)
      ∧ Returns (base58_check_encode H [.bytes b, .str a] []) (.str t)
      ∧ Returns (base58_decode H [.str t, .str a] []) (.bytes (b ++ checksum H.P b))
      ∧ Returns (base58_check_decode H [.str t, .str a] []) (.bytes b) := by
  have ha : 2 ≤ a.length := h.two
  have h1 := C82_encode H b a ha
  refine ⟨_, _, C01_encode_text a h b ▸ rfl, h1.2.1, (C82_decode H (.str _) a).1.1 b (C01_decode_encode a h b), h1.2.2,
    (C82_decode H (.str _) a).1.1 _ (C01_decode_encode a h _), (C82_decode H (.str _) a).2.1.1 b ?_⟩
  exact C03_check_roundtrip H.P.sha256 hP.sha256_length a h b

/-- C82: on the text: every text made of characters of the alphabet is the text of the bytes it is read as. -/
theorem C82_read (a : Str) (h : ValidAlphabet a) (s : Str) (hs : WellFormed a s) :
    ∃ b, Returns (base58_decode H [.str s, .str a] []) (.bytes b) ∧ Returns (base58_encode H [.bytes b, .str a] []) (.str s) := by
  obtain ⟨b, h1, h2⟩ := C02_encode_decode a h s hs
  exact ⟨b, (C82_decode H (.str s) a).1.1 b h1, h2 ▸ (C82_encode H b a h.two).2.1⟩

/-- C82: text and `None` given to `encode` raise `TypeError`. -/
theorem C82_encode_other (a s : Str) : (∃ m, Raises (base58_encode H [.str s, .str a] []) .typeError m)
    ∧ ∃ m, Raises (base58_encode H [.none, .str a] []) .typeError m :=
  ⟨⟨_, (encode_other H a).1 s⟩, ⟨_, (encode_other H a).2⟩⟩

/-- The `while` loop of `encode` with an alphabet of one character. -/
theorem enc_loop_one (c : Char) (env : Env) (r : Py Outcome)
    (h : sWhile (eCompare (eName v!"val") [(.ge, (eCall pyLen [(eName v!"alphabet")] []))]) [base58_encode_L33 H, base58_encode_L34 H] env = some r) :
    ¬ ∃ (v : Nat) (e : Str), 1 ≤ v ∧ env v!"val" = some (.int v) ∧ env v!"enc" = some (.str e) ∧ env v!"alphabet" = some (.str [c]) := by
  refine sWhile.partial_correctness _ _ (fun env _ => ¬ ∃ (v : Nat) (e : Str), 1 ≤ v ∧ env v!"val" = some (.int v) ∧
    env v!"enc" = some (.str e) ∧ env v!"alphabet" = some (.str [c])) ?_ env r h
  rintro loop ih env r hr ⟨v, e, hv, h1, h2, h3⟩
  have hc : eCompare (eName v!"val") [(.ge, (eCall pyLen [(eName v!"alphabet")] []))] env = pure (.bool true) := by
    have e : decide ((([c].length : Nat) : Int) ≤ (v : Int)) = true := by simp; omega
    ev [h1, h3, e]
  have hd := divmod_nat v 1 (by omega)
  have hi := index_str [c] (n := 0) (by simp) '?'
  rw [Nat.div_one, Nat.mod_one] at hd
  have hb : ∃ env', block [base58_encode_L33 H, base58_encode_L34 H] env = pure (.next env') ∧ env' v!"val" = some (.int v) ∧
      env' v!"enc" = some (.str (c :: e)) ∧ env' v!"alphabet" = some (.str [c]) := by
    refine ⟨((env.set v!"val" (.int v)).set v!"mod" (.int (0 : Nat))).set v!"enc" (.str (c :: e)), ?_, ?_⟩
    · ev [block_cons, h1, h2, h3, hd, hi, List.length_singleton]
      rfl
    · refine ⟨?_, ?_, ?_⟩
      · ev []
      · rfl
      · ev [h3]
  obtain ⟨env', hb1, hb2⟩ := hb
  rw [hc, hb1] at hr
  exact ih env' r hr ⟨v, _, hv, hb2⟩

/-- C82: finding: with an alphabet of one character `encode` of bytes that are not all zero never ends; with an empty alphabet it raises
`ZeroDivisionError` for all bytes. -/
theorem C82_bad_alphabets (b : Bytes) (c : Char) :
    (be b ≠ 0 → ¬ Halts (base58_encode H [.bytes b, .str [c]] [])) ∧
    (be b = 0 → Returns (base58_encode H [.bytes b, .str [c]] []) (.str (List.replicate b.length c))) ∧
    (∃ m, Raises (base58_encode H [.bytes b, .str []] []) (.other "ZeroDivisionError") m) := by
  have hs : stringToInt b = be b := by rw [stringToInt_eq, be_eq]
  refine ⟨fun hb => ?_, fun hb => ?_, ?_⟩
  · have key : base58_encode H [.bytes b, .str [c]] [] = Run.stuck := by
      unfold base58_encode
      rw [defun_eq]
      ev []
      rw [block_cons]
      ev []
      rw [block_cons]
      ev [string_to_int_eq]
      rw [block_cons]
      have hn : base58_encode_L32 H (((Env.empty.set v!"data" (.bytes b)).set v!"alphabet" (.str [c])).set v!"enc" (.str "".toList)
          |>.set v!"val" (.int (stringToInt b))) = Run.stuck := by
        unfold base58_encode_L32
        cases h : sWhile _ _ _ with
        | none => rfl
        | some r => exact absurd ⟨be b, [], by omega, by rw [← hs]; rfl, rfl, rfl⟩ (enc_loop_one H c _ r h)
      rw [hn]
      rfl
    rw [key]
    rintro (⟨v, h⟩ | ⟨c, m, h⟩) <;> cases h
  · have hz : ∀ l : Bytes, be l = 0 → leadingZeros l = l.length := by
      intro l hl
      have h0 : fromBE (List.replicate l.length 0 ++ []) = 0 := fromBE_replicate_append l.length []
      rw [be_eq] at hl
      have e : l = List.replicate l.length 0 ++ [] := fromBE_inj (by simp) (hl.trans h0.symm)
      have h1 := leadingZeros_replicate_append l.length [] (by simp)
      rw [← e] at h1
      exact h1
    unfold base58_encode
    rw [defun_eq]
    ev []
    rw [block_cons]
    ev []
    rw [block_cons]
    ev [string_to_int_eq]
    rw [block_cons]
    ev [hs, hb]
    rw [while_eq]
    ev []
    rw [if_neg (by simp), run_pure_bind, runRest_next, block_cons]
    ev [Nat.cast_zero]
    rw [if_neg (by simp), run_pure_bind, runRest_next, enc_tail H b [c] "".toList (by simp) _ rfl rfl rfl, hz b hb]
    simp [Returns]
    rfl
  · refine ⟨"integer division or modulo by zero", ?_⟩
    unfold base58_encode
    rw [defun_eq]
    ev []
    rw [block_cons]
    ev []
    rw [block_cons]
    ev [string_to_int_eq]
    rw [block_cons]
    ev []
    rw [while_eq]
    ev []
    rw [if_pos (by simp)]
    rw [block_cons]
    rfl

example : Returns (base58_encode toyHost [.bytes [0, 0, 58], .str bitcoinAlphabet] []) (.str "1121".toList) ∧ ValidAlphabet bitcoinAlphabet ∧
    ¬ Halts (base58_encode toyHost [.bytes [1], .str "1".toList] []) :=
  ⟨(C82_encode toyHost [0, 0, 58] bitcoinAlphabet (by decide)).2.1.trans (by rw [show b58encode [0, 0, 58] bitcoinAlphabet = "1121".toList by decide +kernel]),
    ⟨by decide, by decide, by decide⟩, (C82_bad_alphabets toyHost [1] '1').1 (by decide)⟩

/-! ### C83 `bip38/libs/ripemd160.py` -/

/-- C83: running the text of `ripemd160` gives the standard function, for every byte string below 2^61 bytes. -/
theorem C83_ripemd160 (m : Bytes) (hm : m.length < 2 ^ 61) :
    Returns (ripemd160_ripemd160 H [.bytes m] []) (.bytes (Spec.Ripemd160.ripemd160 m)) := by
  rw [← C38_ripemd160]
  exact ripemd160_eq H m hm

/-- C83: where `hashlib` has no RIPEMD-160, the text of `crypto.ripemd160` uses it. -/
theorem C83_fallback (h : H.P.hashlibRipemd160 = none) (m : Bytes) (hm : m.length < 2 ^ 61) :
    Returns (crypto_ripemd160 H [.bytes m] []) (.bytes (Spec.Ripemd160.ripemd160 m)) :=
  (endsAs (crypto_ripemd160_eq H (.bytes m) (by rintro b hb; rw [getBytes_bytes] at hb; injection hb with hb; exact hb ▸ hm))).1 _
    (C38_fallback H.P h m)

example : (List.replicate 1000000 97 : Bytes).length < 2 ^ 61 := by rw [List.length_replicate]; decide

/-! ### C84 `bip38/secp256k1/*.py` -/

/-- C84: the text of `PrivateKey.from_bytes` accepts exactly the 32-byte numbers from 1 to N - 1; `raw` of the object gives the bytes back, its
public key is that multiple of the generator, and `raw(type)` of this one is the SEC1 encoding. -/
theorem C84_private_key (b : Bytes) :
    (IsPrivateKey b → ∃ k pk, Returns (PrivateKey_from_bytes H [.bytes b] []) k ∧ Returns (PrivateKey_raw H [k] []) (.bytes b)
      ∧ IsPublicKeyOf pk b ∧ Returns (PrivateKey_public_key H [k] []) (publicVal pk)
      ∧ ∀ type : String, Returns (PublicKey_raw H [publicVal pk, .str type.toList] []) (.bytes (sec1 pk type))) ∧
    (¬ IsPrivateKey b → ∃ m, Raises (PrivateKey_from_bytes H [.bytes b] []) .secp256k1Error m) := by
  have h := endsAs (PrivateKey_from_bytes_eq H b)
  constructor
  · intro hb
    obtain ⟨k, hk, hr⟩ := (C14_private_key_iff b).mpr hb
    refine ⟨privateVal k, k.publicKey, h.1 k hk, by rw [Returns, PrivateKey_raw_eq, hr]; rfl, (C14_private_key_ok b k hk).2, rfl, fun type => ?_⟩
    rw [Returns, PublicKey_raw_eq, raw_eq_sec1]
    rfl
  · intro hb
    obtain ⟨m, hm⟩ := C14_private_key_error b hb
    exact ⟨m, h.2 _ hm⟩

/-- C84: the text of `PublicKey.from_bytes` accepts exactly the encodings of points of the curve. -/
theorem C84_public_key (b : Bytes) :
    (∀ pk : PublicKey, Returns (PublicKey_from_bytes H [.bytes b] []) (publicVal pk) ↔ Denotes b pk.x pk.y ∧ OnSecp256k1 pk.x pk.y) ∧
    ((∀ x y, OnSecp256k1 x y → ¬ Denotes b x y) → ∃ m, Raises (PublicKey_from_bytes H [.bytes b] []) .secp256k1Error m) := by
  have h := endsAs (PublicKey_from_bytes_eq H b)
  refine ⟨fun pk => ⟨fun hr => ?_, fun hd => h.1 pk ((C15_public_key_iff b pk).mpr hd)⟩, fun hd => ?_⟩
  · obtain ⟨k, hk, he⟩ := h.returned hr
    have : k = pk := by
      unfold publicVal at he
      injection he with _ he
      injection he with he
      injection he with _ he
      injection he
    exact (C15_public_key_iff b pk).mp (this ▸ hk)
  · obtain ⟨m, hm⟩ := C15_public_key_error b hd
    exact ⟨m, h.2 _ hm⟩

/-- C84: the other functions and methods of the classes `PublicKey` and `PrivateKey`. -/
theorem C84_key_methods (p : Pt) (k : PublicKey) (type : String) :
    EndsAs (PublicKey_from_point H [pointVal p] []) (PublicKey.fromPoint p) publicVal
      ∧ Returns (PublicKey_raw_compressed H [publicVal k] []) (.bytes (sec1 k "compressed"))
      ∧ Returns (PublicKey_raw_uncompressed H [publicVal k] []) (.bytes (sec1 k "uncompressed"))
      ∧ Returns (PublicKey_raw H [publicVal k, .str type.toList] []) (.bytes (sec1 k type))
      ∧ Returns (PublicKey_point H [publicVal k] []) (pointVal (.aff k.x k.y))
      ∧ Returns (PublicKey_compressed_length H [] []) (.int 33)
      ∧ Returns (PublicKey_uncompressed_length H [] []) (.int 65)
      ∧ Returns (PrivateKey_length H [] []) (.int 32) := by
  refine ⟨endsAs (PublicKey_from_point_eq H p), ?_, ?_, ?_, rfl, rfl, rfl, rfl⟩
  · exact (PublicKey_raw_eq H k "compressed").trans (by rw [raw_eq_sec1]; rfl)
  · exact (PublicKey_raw_eq H k "uncompressed").trans (by rw [raw_eq_sec1]; rfl)
  · exact (PublicKey_raw_eq H k type).trans (by rw [raw_eq_sec1]; rfl)

/-- C84: the methods of `Point`, also for old releases of `ecdsa`. -/
theorem C84_point (p q : Pt) (b : Bytes) (x y : Nat) (k : Int) :
    EndsAs (Point_from_bytes H [.bytes b] []) (if H.oldEcdsa then Point.fromBytesOld b else Point.fromBytes b) pointVal
      ∧ EndsAs (Point_from_coordinates H [.int x, .int y] []) (Point.fromCoordinates x y) pointVal
      ∧ EndsAs (Point_raw_encoded H [pointVal (.aff x y)] []) (if H.oldEcdsa then Point.rawEncodedOld x y else .ok (Point.rawEncoded x y)) .bytes
      ∧ EndsAs (Point_raw_decoded H [pointVal (.aff x y)] []) (if H.oldEcdsa then Point.rawDecodedOld x y else .ok (Point.rawDecoded x y)) .bytes
      ∧ EndsAs (Point_raw H [pointVal (.aff x y)] []) (if H.oldEcdsa then Point.rawDecodedOld x y else .ok (Point.rawDecoded x y)) .bytes
      ∧ Returns (Point_x H [pointVal (.aff x y)] []) (.int x) ∧ Returns (Point_y H [pointVal (.aff x y)] []) (.int y)
      ∧ Returns (Point_x H [pointVal .inf] []) .none ∧ Returns (Point_y H [pointVal .inf] []) .none
      ∧ Returns (Point_add H [pointVal p, pointVal q] []) (pointVal (Point.add p q))
      ∧ Returns (Point_radd H [pointVal p, pointVal q] []) (pointVal (Point.radd p q))
      ∧ Returns (Point_mul H [pointVal p, .int k] []) (pointVal (Point.mul p k))
      ∧ Returns (Point_rmul H [pointVal p, .int k] []) (pointVal (Point.rmul p k)) :=
  ⟨endsAs (Point_from_bytes_eq H b), endsAs (Point_from_coordinates_eq H x y), endsAs (Point_raw_encoded_eq H x y),
    endsAs (Point_raw_decoded_eq H x y), endsAs (Point_raw_eq H x y), Point_x_eq H _, Point_y_eq H _, Point_x_eq H _, Point_y_eq H _,
    rfl, rfl, rfl, rfl⟩

example : IsPrivateKey (List.replicate 32 1) ∧ ¬ IsPrivateKey (List.replicate 32 0) ∧ ¬ IsPrivateKey (List.replicate 32 255) := by decide +kernel

end Bip38.Props
