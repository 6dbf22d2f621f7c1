import Verif.Src.P2pkhAddress
import Verif.Src.EqWif
import Verif.Src.EqSecp
/-!
# The text of `bip38/p2pkh_address.py` computes what the model says
-/
namespace Bip38.Src

open Run

variable (H : Host)

theorem default_prefix : P2PKHAddress_address_prefix H = pure (.int 0) := rfl
theorem default_alphabet : P2PKHAddress_alphabet H = pure (.str bitcoinAlphabet) := rfl

theorem isinstance_key (d : Data) : decide (typeOf (ofData d) = .cls .PublicKey) = false := by
  rcases d with _ | _ | _ | _ <;> rfl

theorem check_encode_kw (b : Bytes) (a : Str) (ha : 2 ≤ a.length) :
    base58_check_encode H [.bytes b] [(v!"alphabet", .str a)] = pure (.str (checkEncode H.P.sha256 b a)) := check_encode_eq H b a ha

theorem check_decode_kw (s a : Str) :
    base58_check_decode H [.str s] [(v!"alphabet", .str a)] = ofPy (checkDecode H.P.sha256 s a) >>= fun b => pure (.bytes b) :=
  check_decode_eq H s a

theorem ensure_string_str (s : Str) : base58_ensure_string H [.str s] [] = pure (.str (ensureString s)) := rfl

theorem hash160_bytes (hP : H.P.Lawful) (b : Bytes) : crypto_hash160 H [.bytes b] [] = rBytes (Bip38.hash160 H.P (.bytes b)) :=
  crypto_hash160_eq H hP (.bytes b)

theorem method_raw_compressed (k : PublicKey) :
    callMethod [(.PublicKey, PublicKey_raw_compressed H)] noMethod (publicVal k) [] [] = pure (.bytes k.rawCompressed) := rfl
theorem method_raw_uncompressed (k : PublicKey) :
    callMethod [(.PublicKey, PublicKey_raw_uncompressed H)] noMethod (publicVal k) [] [] = pure (.bytes k.rawUncompressed) := rfl

theorem p2pkh_tail (hP : H.P.Lawful) (k : PublicKey) (pre : Bytes) (kw : List (Name × Val)) {w : Int} {t : String} {a : Str}
    (hk : AddressKw kw w t a) (env : Env) (h1 : env v!"public_key" = some (publicVal k)) (h2 : env v!"kwargs" = some (.kwargs kw))
    (h3 : env v!"address_prefix" = some (.bytes pre)) :
    (block [P2PKHAddress_encode_L52 H, P2PKHAddress_encode_L58 H] env >>= finish)
      = rStr (Bip38.hash160 H.P (.bytes (if t = "compressed" then k.rawCompressed else k.rawUncompressed)) >>= fun h =>
          .ok (ensureString (checkEncode H.P.sha256 (pre ++ h) a))) := by
  rw [block_cons]
  have e : t.toList = "compressed".toList ↔ t = "compressed" := String.toList_inj
  by_cases h : t = "compressed"
  · ev [h1, h2, hk.type, e, h, method_raw_compressed, hash160_bytes H hP, rBytes, rStr, ofPy_bind]
    refine step fun x hx => ?_
    rw [block_cons]
    ev [h1, h2, h3, hk.alphabet, default_alphabet, check_encode_kw H _ _ hk.proper, ensure_string_str]
  · ev [h1, h2, hk.type, e, h, method_raw_uncompressed, hash160_bytes H hP, rBytes, rStr, ofPy_bind]
    refine step fun x hx => ?_
    rw [block_cons]
    ev [h1, h2, h3, hk.alphabet, default_alphabet, check_encode_kw H _ _ hk.proper, ensure_string_str]

theorem p2pkh_encode_eq (hP : H.P.Lawful) (pk : PkArg) (kw : List (Name × Val)) {w : Int} {t : String} {a : Str}
    (hk : AddressKw kw w t a) (hn : getField kw v!"public_key" = none) :
    P2PKHAddress_encode H [ofPk pk] kw = rStr (p2pkhEncode H.P pk w t a) := by
  unfold P2PKHAddress_encode p2pkhEncode
  rw [defun_eq]
  ev [hn]
  rw [block_cons]
  ev [hk.pre, default_prefix, integer_to_bytes_default, rStr, ofPy_bind]
  refine step fun pre hp => ?_
  rw [block_cons]
  cases pk with
  | key k =>
    ev [ofPk, publicVal]
    refine (p2pkh_tail H hP k pre kw hk _ ?_ ?_ ?_).trans ?_
    · ev [publicVal]
    · ev []
    · ev []
    · ev [rStr, ofPy_bind]
  | data d =>
    ev [ofPk, isinstance_key]
    rw [block_cons]
    ev [get_bytes_r, rBytes, ofPy_bind]
    refine step fun b hb => ?_
    ev [PublicKey_from_bytes_eq]
    refine step fun k hkk => ?_
    refine (p2pkh_tail H hP k pre kw hk _ ?_ ?_ ?_).trans ?_
    · ev []
    · ev []
    · ev []
    · ev [rStr, ofPy_bind]

theorem p2pkh_encode_kw (v : Val) (kw : List (Name × Val)) :
    P2PKHAddress_encode H [] ((v!"public_key", v) :: kw) = bindParams (some v!"kwargs") [] [] kw (Env.empty.set v!"public_key" v) >>= fun env =>
      block [P2PKHAddress_encode_L45 H, P2PKHAddress_encode_L49 H, P2PKHAddress_encode_L52 H, P2PKHAddress_encode_L58 H] env >>= finish := rfl

theorem p2pkh_decode_eq (s : Str) (kw : List (Name × Val)) {w : Int} {t : String} {a : Str}
    (hk : AddressKw kw w t a) (hn : getField kw v!"address" = none) :
    P2PKHAddress_decode H [.str s] kw = rStr (p2pkhDecode H.P s w a) := by
  unfold P2PKHAddress_decode p2pkhDecode
  rw [defun_eq]
  ev [hn]
  rw [block_cons]
  ev [hk.pre, default_prefix, integer_to_bytes_default, rStr, ofPy_bind]
  refine step fun pre hp => ?_
  rw [block_cons]
  ev [hk.alphabet, default_alphabet, check_decode_kw]
  refine step fun d hd => ?_
  rw [block_cons]
  ev []
  rw [block_cons]
  ev [ofPy_raiseIf]
  by_cases h : d.length = 20 + pre.length
  · have e1 : ((d.length : Int) = 20 + (pre.length : Int)) = True := eq_true (by omega)
    have n1 : ¬ d.length ≠ 20 + pre.length := fun h' => h' h
    simp only [if_neg n1]
    ev [e1]
    rw [block_cons]
    ev [slice_to]
    rw [block_cons]
    ev []
    by_cases h2 : pre = d.take pre.length
    · have n2 : ¬ pre ≠ d.take pre.length := fun h' => h' h2
      have e2 : (pre = d.take pre.length) = True := eq_true h2
      simp only [if_neg n2]
      ev [e2]
      rw [block_cons]
      have hb : ∀ b : Bytes, utils_bytes_to_string H [.bytes b] [] = _ := fun b => bytes_to_string_eq H (.bytes b)
      ev [slice_from, hb]
    · have e2 : (pre = d.take pre.length) = False := eq_false h2
      simp only [if_pos h2]
      ev [e2]
      ev [block_cons, raise_msg H .addressError rfl]
      congr 1
      simp [String.ext_iff]
  · have e1 : ((d.length : Int) = 20 + (pre.length : Int)) = False := eq_false (by omega)
    simp only [if_pos h]
    ev [e1]
    ev [block_cons, raise_msg H .addressError rfl]
    congr 1
    simp only [String.ext_iff, String.toList_ofList, String.toList_append]
    rw [show (20 : Int) + (pre.length : Int) = ((20 + pre.length : Nat) : Int) by omega]
    simp only [List.append_assoc]
    rfl

end Bip38.Src
