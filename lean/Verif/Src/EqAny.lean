import Verif.Src.EqKinds
import Verif.Model.Bip38Any
import Verif.Model.Bip38Num
/-!
# The text of the repository on texts and passphrases of any kind
-/
namespace Bip38.Src

open Run

variable (H : Host)

theorem normalize_not_text {v : Val} (hv : NonText v) :
    xNormalize H [.str "NFC".toList, v] [] = Run.raise .typeError "normalize() argument 2 must be str" := by
  cases v <;> first | rfl | exact absurd rfl (hv _)

theorem bytes_not_text {v : Val} (hv : NonText v) (c : Str) :
    pyBytes [v, .str c] [] = Run.raise .typeError "encoding without a string argument" := by
  cases v <;> first | rfl | exact absurd rfl (hv _)

theorem decode_not_text {v : Val} (hv : NonText v) (a : Val) :
    base58_decode H [v, a] [] = Run.raise .typeError "encoding without a string argument" := by
  unfold base58_decode
  rw [defun_eq]
  ev []
  rw [block_cons]
  ev [bytes_not_text hv]
  ev [block_cons, bytes_not_text hv]

theorem check_decode_not_text {v : Val} (hv : NonText v) (a : Val) :
    base58_check_decode H [v, a] [] = Run.raise .typeError "encoding without a string argument" := by
  unfold base58_check_decode
  rw [defun_eq]
  ev []
  ev [block_cons, decode_not_text H hv]

theorem text_or_not (v : Val) : (∃ s, v = .str s) ∨ (NonText v ∧ (∀ s, dataOf v ≠ .str s)) := by
  cases v <;> first | exact Or.inl ⟨_, rfl⟩ | exact Or.inr ⟨fun s h => (nomatch h), fun s h => (nomatch h)⟩

theorem decode_wif_any (v : Val) (w : Int) :
    wif_decode_wif H [v, .int w] [] = ofPy (decodeWifAny (dataOf v) w) >>= fun p => pure (wifParts p) := by
  rcases text_or_not v with ⟨s, rfl⟩ | ⟨hv, hd⟩
  · exact decode_wif_eq H s w
  · have e : decodeWifAny (dataOf v) w = Bip38.raise .typeError "encoding without a string argument" := by
      unfold decodeWifAny
      cases hdd : dataOf v <;> first | rfl | exact absurd hdd (hd _)
    rw [e]
    unfold wif_decode_wif
    rw [defun_eq]
    ev []
    rw [block_cons]
    have h2 := decode_not_text H hv (.str bitcoinAlphabet)
    have h3 : base58_decode H [v] [] = base58_decode H [v, .str bitcoinAlphabet] [] := rfl
    ev [h3, h2]

theorem p2pkh_decode_any (v : Val) (kw : List (Name × Val)) {w : Int} {t : String} {a : Str}
    (hk : AddressKw kw w t a) (hn : getField kw v!"address" = none) :
    P2PKHAddress_decode H [v] kw = rStr (p2pkhDecodeAny H.P (dataOf v) w a) := by
  rcases text_or_not v with ⟨s, rfl⟩ | ⟨hv, hd⟩
  · exact p2pkh_decode_eq H s kw hk hn
  · have e : p2pkhDecodeAny H.P (dataOf v) w a = (do
        let _ ← integerToBytes w
        Bip38.raise .typeError "encoding without a string argument") := by
      unfold p2pkhDecodeAny checkDecodeAny b58decodeAny
      cases hdd : dataOf v <;> first | rfl | exact absurd hdd (hd _)
    rw [e]
    unfold P2PKHAddress_decode
    rw [defun_eq]
    ev [hn]
    rw [block_cons]
    ev [hk.pre, default_prefix, integer_to_bytes_default, rStr, ofPy_bind]
    refine step fun pre hp => ?_
    rw [block_cons]
    have h3 : ∀ a, base58_check_decode H [v] [(v!"alphabet", a)] = base58_check_decode H [v, a] [] := fun _ => rfl
    ev [hk.alphabet, default_alphabet, h3, check_decode_not_text H hv]

theorem wif_type_not_text {v : Val} (hv : NonText v) (c : Coin) (n : String) :
    wif_get_wif_type H [v, .coin (.coin c), .str n.toList] []
      = ofPy (lookupNet c n) >>= fun _ => Run.raise .typeError "encoding without a string argument" := by
  have hd : ∀ w, decodeWifAny (dataOf v) w = Bip38.raise .typeError "encoding without a string argument" := by
    intro w
    have hd : ∀ s, dataOf v ≠ .str s := by
      rcases text_or_not v with ⟨s, rfl⟩ | ⟨_, hd⟩
      · exact absurd rfl (hv s)
      · exact hd
    unfold decodeWifAny
    cases hdd : dataOf v <;> first | rfl | exact absurd hdd (hd _)
  unfold wif_get_wif_type
  rw [defun_eq]
  ev []
  rw [block_cons]
  ev [rStr, ofPy_bind]
  refine step fun net hnet => ?_
  ev [decode_wif_kw, decode_wif_any, hd]

theorem encrypt_any (hP : H.P.Lawful) (b : BIP38) (v p : Val) (net : Option String) :
    BIP38_encrypt H [bipVal b, v, p, optNet net] [] = rStr (b.encryptAny H.P (dataOf v) (dataOf p) net) := by
  rcases text_or_not v with ⟨wif, rfl⟩ | ⟨hv, hd⟩
  · rcases text_or_not p with ⟨s, rfl⟩ | ⟨hp, hpd⟩
    · exact encrypt_src H hP b wif s net
    · have e : b.encryptAny H.P (dataOf (.str wif)) (dataOf p) net = b.encryptAny H.P (.str wif) .none net := by
        cases hdd : dataOf p <;> first | rfl | exact absurd hdd (hpd _)
      rw [e]
      unfold BIP38_encrypt BIP38.encryptAny
      rw [defun_eq]
      ev []
      rw [block_cons]
      ev [select_net]
      generalize b.selectNetwork net = n
      rw [block_cons]
      ev [mem_strs, rStr, ofPy_raiseIf_bind]
      by_cases hn : n ∈ b.networks
      · have n1 : ¬ n ∉ b.networks := fun h => h hn
        simp only [if_neg n1]
        ev [hn]
        rw [block_cons]
        ev [wif_type_kw, ofPy_bind]
        refine step fun t ht => ?_
        rw [block_cons]
        ev []
        have e : t.toList = "wif".toList ↔ t = "wif" := String.toList_inj
        have tail : ∀ (env : Env) (k : PrivateKey) (ty : String), env v!"self" = some (bipVal b) →
            env v!"passphrase" = some p → env v!"network" = some (.str n.toList) →
            env v!"private_key" = some (privateVal k) → env v!"public_key_type" = some (.str ty.toList) →
            (block [BIP38_encrypt_L201 H, BIP38_encrypt_L206 H, BIP38_encrypt_L207 H, BIP38_encrypt_L208 H, BIP38_encrypt_L210 H,
              BIP38_encrypt_L211 H, BIP38_encrypt_L214 H, BIP38_encrypt_L218 H, BIP38_encrypt_L223 H] env >>= finish)
              = rStr (do
                  let net ← lookupNet b.cryptocurrency n
                  let address ← p2pkhEncode H.P (.key k.publicKey) net.addressPrefix ty
                  let _ ← getChecksum H.P (.bytes (← getBytes (.str address) (unhexlify := false)))
                  normalizeFails) := by
          intro env k ty h1 h2 h3 h5 h6
          simp only [rStr, ofPy_bind]
          rw [block_cons]
          ev [h1, h3, h5, h6, private_public]
          refine step fun net hnet => ?_
          ev [h6, p2pkh_key H hP, rStr]
          refine step fun address ha => ?_
          rw [block_cons]
          ev [get_bytes_text, rBytes]
          refine step fun ab hab => ?_
          ev [get_checksum_bytes, rBytes]
          refine step fun ah hah => ?_
          rw [block_cons]
          ev [h2, normalize_not_text H hp]
          rfl
        by_cases ht : t = "wif"
        · simp only [if_pos ht]
          ev [e, ht]
          rw [block_cons]
          ev [s_flagU, integer_to_bytes_default]
          rw [c_flagU]
          ev []
          rw [block_cons]
          ev [wif_to_private_key_kw, rStr]
          refine step fun s hs => ?_
          ev [get_bytes_str, rBytes]
          refine step fun kb hkb => ?_
          ev [PrivateKey_from_bytes_eq]
          refine step fun k hk => ?_
          rw [block_cons]
          ev []
          refine (tail _ k "uncompressed" ?_ ?_ ?_ ?_ ?_).trans ?_
          iterate 5 ev []
          ev [rStr, ofPy_bind]
        · simp only [if_neg ht]
          ev [e, ht]
          rw [block_cons]
          ev [s_flagC, integer_to_bytes_default]
          rw [c_flagC]
          ev []
          rw [block_cons]
          ev [wif_to_private_key_kw, rStr]
          refine step fun s hs => ?_
          ev [get_bytes_str, rBytes]
          refine step fun kb hkb => ?_
          ev [PrivateKey_from_bytes_eq]
          refine step fun k hk => ?_
          rw [block_cons]
          ev []
          refine (tail _ k "compressed" ?_ ?_ ?_ ?_ ?_).trans ?_
          iterate 5 ev []
          ev [rStr, ofPy_bind]
      · simp only [if_pos hn]
        ev [hn]
        ev [block_cons, raise_network]
  · have e : b.encryptAny H.P (dataOf v) (dataOf p) net = (do
        raiseIf (b.selectNetwork net ∉ b.networks) .networkError (wrongNetwork b.networks)
        let _ ← lookupNet b.cryptocurrency (b.selectNetwork net)
        Bip38.raise .typeError "encoding without a string argument") := by
      unfold BIP38.encryptAny
      cases hdd : dataOf v <;> first | rfl | exact absurd hdd (hd _)
    rw [e]
    unfold BIP38_encrypt
    rw [defun_eq]
    ev []
    rw [block_cons]
    ev [select_net]
    generalize b.selectNetwork net = n
    rw [block_cons]
    ev [mem_strs, rStr, ofPy_raiseIf_bind]
    by_cases hn : n ∈ b.networks
    · have n1 : ¬ n ∉ b.networks := fun h => h hn
      simp only [if_neg n1]
      ev [hn]
      rw [block_cons]
      have h3 : wif_get_wif_type H [] [(v!"wif", v), (v!"cryptocurrency", .coin (.coin b.cryptocurrency)), (v!"network", .str n.toList)]
        = wif_get_wif_type H [v, .coin (.coin b.cryptocurrency), .str n.toList] [] := rfl
      ev [h3, wif_type_not_text H hv, ofPy_bind]
    · simp only [if_pos hn]
      ev [hn]
      ev [block_cons, raise_network]

theorem decode_one {v : Val} (hv : NonText v) :
    base58_decode H [v] [] = Run.raise .typeError "encoding without a string argument" :=
  decode_not_text H hv (.str bitcoinAlphabet)

theorem check_decode_one {v : Val} (hv : NonText v) :
    base58_check_decode H [v] [] = Run.raise .typeError "encoding without a string argument" :=
  check_decode_not_text H hv (.str bitcoinAlphabet)

theorem decrypt_any (hP : H.P.Lawful) (b : BIP38) (v p : Val) (net : Option String) (dv : Val) :
    BIP38_decrypt H [bipVal b, v, p, optNet net, dv] []
      = ofPy (b.decryptAny H.P (dataOf v) (dataOf p) net (truthy dv)) >>= fun o => pure (decryptVal o) := by
  obtain ⟨pu, hpu⟩ : ∃ q : Bytes, integerToBytes (NO_EC_MULTIPLIED_PRIVATE_KEY_PREFIX : Nat) = .ok q := ⟨_, c_noEc⟩
  obtain ⟨pe, hpe⟩ : ∃ q : Bytes, integerToBytes (EC_MULTIPLIED_PRIVATE_KEY_PREFIX : Nat) = .ok q := ⟨_, c_ec⟩
  obtain ⟨fu, hfu⟩ : ∃ q : Bytes, integerToBytes (NO_EC_MULTIPLIED_WIF_FLAG : Nat) = .ok q := ⟨_, c_flagU⟩
  obtain ⟨fc, hfc⟩ : ∃ q : Bytes, integerToBytes (NO_EC_MULTIPLIED_WIF_COMPRESSED_FLAG : Nat) = .ok q := ⟨_, c_flagC⟩
  rcases text_or_not v with ⟨w, rfl⟩ | ⟨hv, hd⟩
  · rcases text_or_not p with ⟨s, rfl⟩ | ⟨hp, hpd⟩
    · exact decrypt_obj H hP b w s net rfl
    · have e : b.decryptAny H.P (dataOf (.str w)) (dataOf p) net (truthy dv) = b.decryptAny H.P (.str w) .none net (truthy dv) := by
        cases hdd : dataOf p <;> first | rfl | exact absurd hdd (hpd _)
      rw [e]
      unfold BIP38_decrypt BIP38.decryptAny
      rw [defun_eq]
      ev []
      rw [block_cons]
      ev [select_net]
      generalize b.selectNetwork net = n
      rw [block_cons]
      ev [mem_strs, ofPy_raiseIf_bind]
      by_cases hn : n ∈ b.networks
      · have n1 : ¬ n ∉ b.networks := fun h => h hn
        simp only [if_neg n1]
        ev [hn]
        rw [block_cons]
        ev [decode_default, ofPy_bind]
        refine step fun d hd => ?_
        rw [block_cons]
        ev [ofPy_raiseIf]
        by_cases hl : d.length = 43
        · have n2 : ¬ d.length ≠ 43 := fun h => h hl
          have e2 : ((d.length : Int) = 43) = True := eq_true (by omega)
          simp only [if_neg n2, hpu, hpe, ofPy_ok, run_pure_bind]
          ev [e2]
          rw [block_cons]
          ev [take_lit]
          rw [block_cons]
          ev [slice_lit]
          rw [block_cons]
          ev [slice_lit]
          rw [block_cons]
          ev [s_noEc, int_bytes H hpu]
          by_cases h1 : d.take 2 = pu
          · simp only [if_pos h1, hfu, hfc, ofPy_ok, run_pure_bind, ofPy_bind, ofPy_raiseIf]
            rw [block_cons]
            by_cases hu : slice 2 3 d = fu
            · have n3 : ¬ (slice 2 3 d ≠ fu ∧ slice 2 3 d ≠ fc) := fun h => h.1 hu
              simp only [if_neg n3]
              ev [s_flagU, int_bytes H hfu, hu]
              ev [block_cons, normalize_not_text H hp]
              rfl
            · by_cases hc : slice 2 3 d = fc
              · have n3 : ¬ (slice 2 3 d ≠ fu ∧ slice 2 3 d ≠ fc) := fun h => h.2 hc
                simp only [if_neg n3]
                ev [s_flagU, int_bytes H hfu, hu]
                ev [block_cons, s_flagC, int_bytes H hfc, hc, normalize_not_text H hp]
                rfl
              · have n3 : slice 2 3 d ≠ fu ∧ slice 2 3 d ≠ fc := ⟨hu, hc⟩
                simp only [if_pos n3]
                ev [s_flagU, int_bytes H hfu, hu]
                rw [block_cons]
                ev [s_flagC, int_bytes H hfc, hc]
                rw [block_cons]
                ev [s_flagU, s_flagC, int_bytes H hfu, int_bytes H hfc, hexText_src,
                  raise_expected H .error rfl "Invalid flag" (expected_hex fu fc) (f_str (hexText (slice 2 3 d)))]
          · simp only [if_neg h1]
            rw [block_cons]
            ev [s_ec, int_bytes H hpe]
            by_cases h2 : d.take 2 = pe
            · simp only [if_pos h2]
              rw [block_cons]
              ev [slice_lit]
              rw [block_cons]
              ev [slice_lit]
              rw [block_cons]
              ev [slice_inner]
              rw [decrypt_split H _ _ (slice 2 3 d) (slice 7 15 d) (by ev []) (by ev [])]
              rw [block_cons]
              ev [normalize_not_text H hp]
              rfl
            · simp only [if_neg h2]
              rw [block_cons]
              ev [s_noEc, s_ec, int_bytes H hpu, int_bytes H hpe, hexText_src,
                raise_expected H .error rfl "Invalid prefix" (expected_hex pu pe) (f_str (hexText (d.take 2)))]
        · have e2 : ((d.length : Int) = 43) = False := eq_false (by omega)
          simp only [if_pos hl]
          ev [e2]
          ev [block_cons, raise_expected H .wifError rfl "Invalid encrypted WIF length" (expected_int 43 (by decide)) (length_text _)]
          rw [String.ofList_toList]
          rfl
      · simp only [if_pos hn]
        ev [hn]
        ev [block_cons, raise_network]
  · have e : b.decryptAny H.P (dataOf v) (dataOf p) net (truthy dv) = (do
        raiseIf (b.selectNetwork net ∉ b.networks) .networkError (wrongNetwork b.networks)
        Bip38.raise .typeError "encoding without a string argument") := by
      unfold BIP38.decryptAny
      cases hdd : dataOf v <;> first | rfl | exact absurd hdd (hd _)
    rw [e]
    unfold BIP38_decrypt
    rw [defun_eq]
    ev []
    rw [block_cons]
    ev [select_net]
    generalize b.selectNetwork net = n
    rw [block_cons]
    ev [mem_strs, ofPy_raiseIf_bind]
    by_cases hn : n ∈ b.networks
    · have n1 : ¬ n ∉ b.networks := fun h => h hn
      simp only [if_neg n1]
      ev [hn]
      rw [block_cons]
      ev [decode_one H hv]
    · simp only [if_pos hn]
      ev [hn]
      ev [block_cons, raise_network]

theorem confirm_any (hP : H.P.Lawful) (b : BIP38) (p v : Val) (net : Option String) (dv : Val) :
    BIP38_confirm_code H [bipVal b, p, v, optNet net, dv] []
      = ofPy (b.confirmAny H.P (dataOf p) (dataOf v) net (truthy dv)) >>= fun o => pure (confirmVal o) := by
  rcases text_or_not v with ⟨code, rfl⟩ | ⟨hv, hd⟩
  · rcases text_or_not p with ⟨s, rfl⟩ | ⟨hp, hpd⟩
    · exact confirm_obj H hP b s code net rfl
    · have e : b.confirmAny H.P (dataOf p) (dataOf (.str code)) net (truthy dv) = b.confirmAny H.P .none (.str code) net (truthy dv) := by
        cases hdd : dataOf p <;> first | rfl | exact absurd hdd (hpd _)
      rw [e]
      unfold BIP38_confirm_code BIP38.confirmAny
      rw [defun_eq]
      ev []
      rw [block_cons]
      ev [select_net]
      generalize b.selectNetwork net = n
      rw [block_cons]
      ev [mem_strs, ofPy_raiseIf_bind]
      by_cases hn : n ∈ b.networks
      · have n1 : ¬ n ∉ b.networks := fun h => h hn
        simp only [if_neg n1]
        ev [hn]
        rw [block_cons]
        unfold BIP38_confirm_code_L391
        rw [try_single]
        ev [check_decode_default, ofPy_bind]
        refine (check_decode_or H .error rfl "Invalid confirmation code" code _ _ _ _ fun e => ?_).trans ?_
        · ev []
        refine step fun d hd => ?_
        ev []
        rw [block_cons]
        ev [ofPy_raiseIf]
        by_cases hl : d.length = 51
        · have n2 : ¬ d.length ≠ 51 := fun h => h hl
          have e2 : ((d.length : Int) = 51) = True := eq_true (by omega)
          simp only [if_neg n2]
          ev [e2]
          obtain ⟨q, hq, hlq⟩ : ∃ q : Bytes, integerToBytes (CONFIRMATION_CODE_PREFIX : Nat) = .ok q ∧ q.length = 5 := ⟨_, c_conf, rfl⟩
          rw [block_cons]
          ev [s_conf, int_bytes H hq]
          simp only [hq, ofPy_ok, run_pure_bind]
          rw [block_cons]
          ev [slice_to]
          rw [block_cons]
          ev [s_conf, int_bytes H hq]
          by_cases hpre : q = d.take q.length
          · have n3 : ¬ q ≠ d.take q.length := fun h => h hpre
            simp only [if_neg n3]
            ev [decide_eq_true hpre]
            rw [block_cons]
            ev [slice_lit]
            rw [block_cons]
            ev [slice_lit]
            rw [block_cons]
            ev [slice_lit]
            rw [block_cons]
            ev [drop_lit]
            rw [confirm_split H _ _ (slice 5 6 d) (slice 10 18 d) (by ev []) (by ev [])]
            rw [block_cons]
            ev [normalize_not_text H hp]
            rfl
          · simp only [if_pos hpre]
            ev [decide_eq_false hpre]
            ev [block_cons, raise_expected H .error rfl "Invalid confirmation code prefix" (expected_int q.length (by omega)) (f_bytes _)]
            rfl
        · have e2 : ((d.length : Int) = 51) = False := eq_false (by omega)
          simp only [if_pos hl]
          ev [e2]
          ev [block_cons, raise_expected H .error rfl "Invalid confirmation code length" (expected_int 102 (by decide)) (length_text _)]
          rw [String.ofList_toList]
          rfl
      · simp only [if_pos hn]
        ev [hn]
        ev [block_cons, raise_network]
  · have e : b.confirmAny H.P (dataOf p) (dataOf v) net (truthy dv) = (do
        raiseIf (b.selectNetwork net ∉ b.networks) .networkError (wrongNetwork b.networks)
        Bip38.raise .typeError "encoding without a string argument") := by
      unfold BIP38.confirmAny
      cases hdd : dataOf v <;> first | exact absurd hdd (hd _) | (cases dataOf p <;> rfl)
    rw [e]
    unfold BIP38_confirm_code
    rw [defun_eq]
    ev []
    rw [block_cons]
    ev [select_net]
    generalize b.selectNetwork net = n
    rw [block_cons]
    ev [mem_strs, ofPy_raiseIf_bind]
    by_cases hn : n ∈ b.networks
    · have n1 : ¬ n ∉ b.networks := fun h => h hn
      simp only [if_neg n1]
      ev [hn]
      rw [block_cons]
      unfold BIP38_confirm_code_L391
      rw [try_single]
      ev [check_decode_one H hv]
      rfl
    · simp only [if_pos hn]
      ev [hn]
      ev [block_cons, raise_network]

theorem create_any (hP : H.P.Lawful) (b : BIP38) (v : Val) (wifType : String) (seed : Data) (net : Option String) :
    BIP38_create_new_encrypted_wif H [bipVal b, v, .str wifType.toList, ofData seed, optNet net] []
      = ofPy (b.createAny H.P (dataOf v) wifType seed net (H.urandom 24)) >>= fun c => pure (createdVal c) := by
  rcases text_or_not v with ⟨code, rfl⟩ | ⟨hv, hd⟩
  · exact create_src H hP b code wifType seed net
  · have e : b.createAny H.P (dataOf v) wifType seed net (H.urandom 24) = (do
        raiseIf (b.selectNetwork net ∉ b.networks) .networkError (wrongNetwork b.networks)
        let _ ← bytesOrRandom seed (H.urandom 24)
        Bip38.raise .typeError "encoding without a string argument") := by
      unfold BIP38.createAny
      cases hdd : dataOf v <;> first | exact absurd hdd (hd _) | rfl
    rw [e]
    unfold BIP38_create_new_encrypted_wif
    rw [defun_eq]
    ev []
    rw [block_cons]
    ev [select_net]
    generalize b.selectNetwork net = n
    rw [block_cons]
    ev [mem_strs, ofPy_raiseIf_bind]
    by_cases hn : n ∈ b.networks
    · have n1 : ¬ n ∉ b.networks := fun h => h hn
      simp only [if_neg n1]
      ev [hn]
      rw [block_cons]
      ev [bytes_or_random H seed (H.urandom 24) (xUrandom H [.int 24] []) rfl, rBytes, ofPy_bind]
      refine step fun sb hsb => ?_
      rw [block_cons]
      unfold BIP38_create_new_encrypted_wif_L264
      rw [try_single]
      ev [check_decode_one H hv]
      rfl
    · simp only [if_pos hn]
      ev [hn]
      ev [block_cons, raise_network]

/-- A WIF type that is no text. -/
theorem create_type (b : BIP38) (code : Str) (t : Val) (ht : PlainNonText t) (txt : Str) (hf : format t = pure txt) (seed : Data) (net : Option String) :
    BIP38_create_new_encrypted_wif H [bipVal b, .str code, t, ofData seed, optNet net] []
      = ofPy (do
          raiseIf (b.selectNetwork net ∉ b.networks) .networkError (wrongNetwork b.networks)
          let _ ← bytesOrRandom seed (H.urandom 24)
          let intermediateDecode ← checkDecodeOr H.P code .passphraseError "Invalid intermediate passphrase"
          raiseIf (intermediateDecode.length ≠ 49) .passphraseError
            (errText "Invalid intermediate passphrase length" (.one true "49".toList) (toString intermediateDecode.length))
          Bip38.raise .wifError (errText "Invalid wif type" (.list (WIF_TYPES.map String.toList)) (String.ofList txt))) := by
  unfold BIP38_create_new_encrypted_wif
  rw [defun_eq]
  ev []
  rw [block_cons]
  ev [select_net]
  generalize b.selectNetwork net = n
  rw [block_cons]
  ev [mem_strs, ofPy_raiseIf_bind]
  by_cases hn : n ∈ b.networks
  · have n1 : ¬ n ∉ b.networks := fun h => h hn
    simp only [if_neg n1]
    ev [hn]
    rw [block_cons]
    ev [bytes_or_random H seed (H.urandom 24) (xUrandom H [.int 24] []) rfl, rBytes, ofPy_bind]
    refine step fun sb hsb => ?_
    rw [block_cons]
    unfold BIP38_create_new_encrypted_wif_L264
    rw [try_single]
    ev [check_decode_default]
    refine (check_decode_or H .passphraseError rfl "Invalid intermediate passphrase" code _ _ _ _ fun e => ?_).trans ?_
    · ev []
    refine step fun d hd => ?_
    ev []
    rw [block_cons]
    ev [ofPy_raiseIf]
    by_cases hl : d.length = 49
    · have n2 : ¬ d.length ≠ 49 := fun h => h hl
      have e2 : ((d.length : Int) = 49) = True := eq_true (by omega)
      simp only [if_neg n2]
      ev [e2]
      rw [block_cons]
      ev [take_lit]
      rw [block_cons]
      ev [slice_lit]
      rw [block_cons]
      ev [drop_lit]
      rw [block_cons]
      have q : ∀ s, pyEq t (.str s) = pure false := fun s => eq_not_str ht s
      ev [q]
      ev [block_cons, q]
      ev [block_cons, wif_types, raise_expected H .wifError rfl "Invalid wif type" expected_types hf]
    · have e2 : ((d.length : Int) = 49) = False := eq_false (by omega)
      simp only [if_pos hl]
      ev [e2]
      ev [block_cons, raise_expected H .passphraseError rfl "Invalid intermediate passphrase length" (expected_int 49 (by decide)) (length_text _)]
      rw [String.ofList_toList]
      rfl
  · simp only [if_pos hn]
    ev [hn]
    ev [block_cons, raise_network]

/-- `private_key_to_wif` with a WIF type that is no text. -/
theorem wif_type_kind (v c n t : Val) (ht : PlainNonText t) (txt : Str) (hf : format t = pure txt) :
    wif_private_key_to_wif H [v, t, c, n] []
      = Run.raise .wifError (errText "Wrong WIF type" (.list (WIF_TYPES.map String.toList)) (String.ofList txt)) := by
  unfold wif_private_key_to_wif
  rw [defun_eq]
  ev []
  rw [block_cons]
  have m : memList t [.str "wif".toList, .str "wif-compressed".toList] = pure false := mem_not_str ht ["wif", "wif-compressed"]
  ev [wif_types, m]
  ev [block_cons, wif_types, raise_expected H .wifError rfl "Wrong WIF type" expected_types hf]

theorem intermediate_any (p : Val) (lot sequence : Option Int) (salt : Data) :
    BIP38_intermediate_code H [p, ofOptInt lot, ofOptInt sequence, ofData salt] []
      = rStr (intermediateCodeAny H.P (dataOf p) lot sequence salt (H.urandom 8)) := by
  rcases text_or_not p with ⟨w, rfl⟩ | ⟨hp, hpd⟩
  · exact intermediate_src H w lot sequence salt
  have e : intermediateCodeAny H.P (dataOf p) lot sequence salt (H.urandom 8)
      = intermediateCodeAny H.P .none lot sequence salt (H.urandom 8) := by
    cases hdd : dataOf p <;> first | rfl | exact absurd hdd (hpd _)
  rw [e]
  unfold BIP38_intermediate_code intermediateCodeAny
  rw [defun_eq]
  ev []
  rw [block_cons]
  ev [bytes_or_random H salt (H.urandom 8) (xUrandom H [.int 8] []) rfl, rBytes, rStr, ofPy_bind]
  refine step fun s hs => ?_
  rw [block_cons]
  ev [mem_int_two, ofPy_raiseIf]
  by_cases hl : s.length = 4 ∨ s.length = 8
  · have n1 : ¬ s.length ∉ [4, 8] := by
      intro h
      simp at h
      omega
    have e1 : (decide ((s.length : Int) = 4) || decide ((s.length : Int) = 8)) = true := by
      simp only [Bool.or_eq_true, decide_eq_true_eq]
      omega
    simp only [if_neg n1]
    ev [e1]
    rw [block_cons]
    ev [isNone_opt]
    refine (cond_eq (p := s.length = 4 ∧ (lot = none ∨ sequence = none)) ?_ _ _ _).trans ?_
    · by_cases h4 : s.length = 4
      · have e4 : ((s.length : Int) = 4) = True := eq_true (by omega)
        cases lot with
        | none => exact ⟨_, by simp only [e4, if_true]; rfl, by simp [h4]; rfl⟩
        | some l => exact ⟨_, by simp only [e4, if_true, reduceCtorEq, if_false]; rfl, by simp [h4]; rfl⟩
      · have e4 : ((s.length : Int) = 4) = False := eq_false (by omega)
        exact ⟨_, by simp only [e4, if_false]; rfl, by simp [h4]; rfl⟩
    by_cases hc : s.length = 4 ∧ (lot = none ∨ sequence = none)
    · simp only [if_pos hc]
      ev [block_cons, hexText_src, raise_expected H .error rfl "Invalid owner salt length for non lot/sequence" (expected_int 16 (by decide)) (length_text _)]
      rw [String.ofList_toList]
      rfl
    · simp only [if_neg hc]
      ev []
      rw [block_cons]
      ev [isNone_opt, truthy_int]
      rw [← run_assoc]
      refine (cond_eq (both_required lot sequence) _ _ _).trans ?_
      by_cases hb : truthyInt lot = true ∧ sequence = none ∨ lot = none ∧ truthyInt sequence = true
      · simp only [if_pos hb]
        ev [block_cons, format_opt, raise_detail H .error rfl]
        congr 2
        simp [String.ext_iff]
      · simp only [if_neg hb]
        ev []
        rw [block_cons]
        ev [truthy_int]
        by_cases ht : truthyInt lot = true ∧ truthyInt sequence = true
        · obtain ⟨ht1, ht2⟩ := ht
          obtain ⟨l, rfl⟩ : ∃ l, lot = some l := by cases lot; cases ht1; exact ⟨_, rfl⟩
          obtain ⟨q, rfl⟩ : ∃ q, sequence = some q := by cases sequence; cases ht2; exact ⟨_, rfl⟩
          have hi : ∀ n : Int, pyInt H [.int n] [] = pure (.int n) := fun _ => rfl
          simp only [ht1, ht2, and_self, if_true, Option.getD_some, true_and]
          ev [ht2, truthy_int]
          rw [block_cons]
          ev [ofOptInt, hi]
          rw [block_cons]
          ev [int_range]
          by_cases hlot : 100000 ≤ l ∧ l ≤ 999999
          · have m1 : ¬ ¬ (100000 ≤ l ∧ l ≤ 999999) := fun h => h hlot
            simp only [if_neg m1]
            ev [decide_eq_true hlot]
            rw [block_cons]
            ev [int_range]
            by_cases hseq : 0 ≤ q ∧ q ≤ 4095
            · have m2 : ¬ ¬ (0 ≤ q ∧ q ≤ 4095) := fun h => h hseq
              simp only [if_neg m2]
              ev [decide_eq_true hseq]
              rw [block_cons]
              ev [normalize_not_text H hp]
              rfl
            · simp only [if_pos hseq]
              ev [decide_eq_false hseq]
              ev [block_cons, raise_expected H .error rfl "Invalid sequence" expected_sequence (f_int q), String.ofList_toList]
          · simp only [if_pos hlot]
            ev [decide_eq_false hlot]
            ev [block_cons, raise_expected H .error rfl "Invalid lot" expected_lot (f_int l), String.ofList_toList]
        · have hv : truthy (if truthyInt lot = true then ofOptInt sequence else ofOptInt lot) = false := by
            by_cases h1 : truthyInt lot = true
            · have h2 : ¬ truthyInt sequence = true := fun h => ht ⟨h1, h⟩
              simp only [if_pos h1, truthy_int]
              simpa using h2
            · simp only [if_neg h1, truthy_int]
              simpa using h1
          have hp' : ((if truthyInt lot = true then pure (ofOptInt sequence) else pure (ofOptInt lot)) : Run Val)
              = pure (if truthyInt lot = true then ofOptInt sequence else ofOptInt lot) := by split <;> rfl
          have n2 : ∀ c : Prop, ¬ ((truthyInt lot = true ∧ truthyInt sequence = true) ∧ c) := fun c h => ht h.1
          simp only [if_neg (n2 _)]
          ev [hp', hv]
          rw [block_cons]
          ev [normalize_not_text H hp]
          rfl
  · have n1 : s.length ∉ [4, 8] := by simpa using hl
    have e1 : (decide ((s.length : Int) = 4) || decide ((s.length : Int) = 8)) = false := by
      simp only [Bool.or_eq_false_iff, decide_eq_false_iff_not]
      omega
    have hx : ExpectedVal (.list [.int 8, .int 16]) (.list ["8".toList, "16".toList]) := .list (.cons rfl (.cons rfl .nil))
    simp only [if_pos n1]
    ev [e1]
    ev [block_cons, hexText_src, raise_expected H .error rfl "Invalid owner salt length" hx (length_text _)]
    rw [String.ofList_toList]

/-! ### Lot and sequence numbers of any kind -/

variable {H}

theorem NumVal.truthy_eq {v : Val} {a : NumArg} (h : NumVal H v a) : truthy v = a.truthy := by
  cases h with
  | none => rfl
  | int n => rfl
  | bool b => rfl
  | text s =>
    show (!s.toList.isEmpty) = decide (s ≠ "")
    by_cases h : s = ""
    · subst h; rfl
    · have : s.toList ≠ [] := fun h' => h (String.toList_inj.1 h')
      simp [h]

theorem NumVal.is_none {v : Val} {a : NumArg} (h : NumVal H v a) : CmpOp.isNone.apply v .none = pure a.isNone := by
  cases h <;> rfl

theorem NumVal.show_eq {v : Val} {a : NumArg} (h : NumVal H v a) : format v = pure a.show.toList := by
  cases h with
  | none => rfl
  | int n => rfl
  | bool b => cases b <;> rfl
  | text s => rfl

theorem NumVal.to_int {v : Val} {a : NumArg} (h : NumVal H v a) (ht : a.truthy = true) :
    pyInt H [v] [] = ofPy a.toInt >>= fun n => pure (.int n) := by
  cases h with
  | none => cases ht
  | int n => rfl
  | bool b => rfl
  | text s => rfl

theorem NumVal.not_none {v : Val} {a : NumArg} (h : NumVal H v a) (ht : a.truthy = true) : a.isNone = false := by
  cases h with
  | none => cases ht
  | int n => rfl
  | bool b => rfl
  | text s => rfl

theorem NumVal.falsy {v : Val} {a : NumArg} (h : NumVal H v a) (ht : a.isNone = true) : a.truthy = false := by
  cases h <;> first | rfl | cases ht

variable (H)

theorem both_required_num {lot sequence : Val} {l q : NumArg} (hl : NumVal H lot l) (hq : NumVal H sequence q) :
    ∃ v, ((if l.truthy = true then pure (Val.bool q.isNone) else pure lot) >>= fun a =>
      (if truthy a = true then pure a
        else if l.isNone = true then pure sequence else pure (Val.bool l.isNone)) : Run Val) = pure v ∧
      truthy v = decide (l.truthy = true ∧ q.isNone = true ∨ l.isNone = true ∧ q.truthy = true) := by
  by_cases h1 : l.truthy = true
  · have h3 := hl.not_none h1
    cases h2 : q.isNone
    · refine ⟨.bool false, ?_, ?_⟩
      · simp [h1, h3, t_bool, run_pure_bind]
      · simp [h1, h3, t_bool]
    · refine ⟨.bool true, ?_, ?_⟩
      · simp [h1, t_bool, run_pure_bind]
      · simp [h1, h3, t_bool]
  · cases h2 : l.isNone
    · refine ⟨.bool false, ?_, ?_⟩
      · simp [h1, hl.truthy_eq, run_pure_bind]
      · simp [h1, t_bool]
    · refine ⟨sequence, ?_, ?_⟩
      · simp [h1, hl.truthy_eq, run_pure_bind]
      · simp [h1, hq.truthy_eq]

theorem intermediate_num (passphrase : Str) {lot sequence : Val} {lotN seqN : NumArg} (hlot : NumVal H lot lotN) (hseq : NumVal H sequence seqN)
    (salt : Data) :
    BIP38_intermediate_code H [.str passphrase, lot, sequence, ofData salt] []
      = rStr (intermediateCodeNum H.P passphrase lotN seqN salt (H.urandom 8)) := by
  unfold BIP38_intermediate_code intermediateCodeNum
  rw [defun_eq]
  ev []
  rw [block_cons]
  ev [bytes_or_random H salt (H.urandom 8) (xUrandom H [.int 8] []) rfl, rBytes, rStr, ofPy_bind]
  refine step fun s hs => ?_
  rw [block_cons]
  ev [mem_int_two, ofPy_raiseIf]
  by_cases hl : s.length = 4 ∨ s.length = 8
  · have n1 : ¬ s.length ∉ [4, 8] := by
      intro h
      simp at h
      omega
    have e1 : (decide ((s.length : Int) = 4) || decide ((s.length : Int) = 8)) = true := by
      simp only [Bool.or_eq_true, decide_eq_true_eq]
      omega
    simp only [if_neg n1]
    ev [e1]
    rw [block_cons]
    ev [hlot.is_none, hseq.is_none]
    refine (cond_eq (p := s.length = 4 ∧ (lotN.isNone = true ∨ seqN.isNone = true)) ?_ _ _ _).trans ?_
    · by_cases h4 : s.length = 4
      · have e4 : ((s.length : Int) = 4) = True := eq_true (by omega)
        cases hln : lotN.isNone with
        | true => exact ⟨_, by simp only [e4, if_true]; rfl, by simp [h4]; rfl⟩
        | false => exact ⟨.bool seqN.isNone, by simp [e4], by simp [h4]; rfl⟩
      · have e4 : ((s.length : Int) = 4) = False := eq_false (by omega)
        exact ⟨_, by simp only [e4, if_false]; rfl, by simp [h4]; rfl⟩
    by_cases hc : s.length = 4 ∧ (lotN.isNone = true ∨ seqN.isNone = true)
    · simp only [if_pos hc]
      ev [block_cons, hexText_src, raise_expected H .error rfl "Invalid owner salt length for non lot/sequence" (expected_int 16 (by decide)) (length_text _)]
      rw [String.ofList_toList]
      rfl
    · simp only [if_neg hc]
      ev []
      rw [block_cons]
      ev [hlot.is_none, hseq.is_none, hlot.truthy_eq]
      rw [← run_assoc]
      refine (cond_eq (both_required_num H hlot hseq) _ _ _).trans ?_
      by_cases hb : lotN.truthy = true ∧ seqN.isNone = true ∨ lotN.isNone = true ∧ seqN.truthy = true
      · simp only [if_pos hb]
        ev [block_cons, hlot.show_eq, hseq.show_eq, raise_detail H .error rfl]
        congr 2
        simp [String.ext_iff]
      · simp only [if_neg hb]
        ev []
        rw [block_cons]
        ev [hlot.truthy_eq]
        by_cases ht : lotN.truthy = true ∧ seqN.truthy = true
        · obtain ⟨ht1, ht2⟩ := ht
          simp only [ht1, ht2, and_self, if_true]
          ev [hseq.truthy_eq, ht2]
          rw [block_cons]
          ev [hlot.to_int ht1, hseq.to_int ht2, ofPy_bind]
          refine step fun l hl' => ?_
          refine step fun q hq' => ?_
          unfold lotFactor
          simp only [ofPy_bind, ofPy_raiseIf]
          rw [block_cons]
          ev [int_range]
          by_cases hlot : 100000 ≤ l ∧ l ≤ 999999
          · have m1 : ¬ ¬ (100000 ≤ l ∧ l ≤ 999999) := fun h => h hlot
            simp only [if_neg m1]
            ev [decide_eq_true hlot]
            rw [block_cons]
            ev [int_range]
            by_cases hseq : 0 ≤ q ∧ q ≤ 4095
            · have m2 : ¬ ¬ (0 ≤ q ∧ q ≤ 4095) := fun h => h hseq
              simp only [if_neg m2]
              ev [decide_eq_true hseq]
              rw [block_cons]
              ev [normalize_eq, take_lit, scrypt_32]
              rw [block_cons]
              ev [i2b_4, take_lit]
              refine step fun ls hls => ?_
              rw [block_cons]
              ev [double_sha256_bytes, rBytes]
              refine step fun pf hpf => ?_
              rw [block_cons]
              ev [s_magicLot, integer_to_bytes_default]
              refine step fun m hm => ?_
              refine intermediate_tail H _ pf m _ ?_ ?_ ?_
              all_goals ev []
            · simp only [if_pos hseq]
              ev [decide_eq_false hseq]
              ev [block_cons, raise_expected H .error rfl "Invalid sequence" expected_sequence (f_int q), String.ofList_toList]
          · simp only [if_pos hlot]
            ev [decide_eq_false hlot]
            ev [block_cons, raise_expected H .error rfl "Invalid lot" expected_lot (f_int l), String.ofList_toList]
        · have hv : truthy (if lotN.truthy = true then sequence else lot) = false := by
            by_cases h1 : lotN.truthy = true
            · have h2 : ¬ seqN.truthy = true := fun h => ht ⟨h1, h⟩
              simp only [if_pos h1, hseq.truthy_eq]
              simpa using h2
            · simp only [if_neg h1, hlot.truthy_eq]
              simpa using h1
          have hp : ((if lotN.truthy = true then pure sequence else pure lot) : Run Val)
              = pure (if lotN.truthy = true then sequence else lot) := by split <;> rfl
          simp only [if_neg ht]
          ev [hp, hv]
          unfold noLotFactor
          simp only [ofPy_bind, run_assoc]
          rw [block_cons]
          ev [normalize_eq, scrypt_32]
          rw [block_cons]
          ev [s_magicNo, integer_to_bytes_default]
          refine step fun m hm => ?_
          rw [block_cons]
          ev []
          refine intermediate_tail H _ _ m _ ?_ ?_ ?_
          all_goals ev []
  · have n1 : s.length ∉ [4, 8] := by simpa using hl
    have e1 : (decide ((s.length : Int) = 4) || decide ((s.length : Int) = 8)) = false := by
      simp only [Bool.or_eq_false_iff, decide_eq_false_iff_not]
      omega
    have hx : ExpectedVal (.list [.int 8, .int 16]) (.list ["8".toList, "16".toList]) := .list (.cons rfl (.cons rfl .nil))
    simp only [if_pos n1]
    ev [e1]
    ev [block_cons, hexText_src, raise_expected H .error rfl "Invalid owner salt length" hx (length_text _)]
    rw [String.ofList_toList]

/-! ### Networks of the functions of `bip38/wif.py`, types of public keys -/

theorem wif_network (c : Coin) (w n k t : Val) (e : ExcClass) (m : String) (hn : pySubscript (networksVal c) n = Run.raise e m)
    (ht : t = .str "wif".toList ∨ t = .str "wif-compressed".toList) :
    wif_wif_to_private_key H [w, .coin (.coin c), n] [] = Run.raise e m ∧
    wif_get_wif_type H [w, .coin (.coin c), n] [] = Run.raise e m ∧
    wif_get_wif_checksum H [w, .coin (.coin c), n] [] = Run.raise e m ∧
    wif_private_key_to_wif H [k, t, .coin (.coin c), n] [] = Run.raise e m := by
  refine ⟨?_, ?_, ?_, ?_⟩
  · unfold wif_wif_to_private_key
    rw [defun_eq]
    ev []
    rw [block_cons]
    ev [hn]
  · unfold wif_get_wif_type
    rw [defun_eq]
    ev []
    rw [block_cons]
    ev [hn]
  · unfold wif_get_wif_checksum
    rw [defun_eq]
    ev []
    rw [block_cons]
    ev [hn]
  · unfold wif_private_key_to_wif
    rw [defun_eq]
    ev []
    rw [block_cons]
    have h1 : memList t [.str "wif".toList, .str "wif-compressed".toList] = pure true := by
      rcases ht with rfl | rfl
      · rw [mem_str_two]; rfl
      · rw [mem_str_two]; rfl
    ev [wif_types, h1]
    rw [block_cons]
    ev [hn]

/-- `public_key_type` of any other kind. -/
theorem p2pkh_type (hP : H.P.Lawful) (pk : PkArg) (w : Int) (t : Val) (ht : PlainNonText t) :
    P2PKHAddress_encode H [ofPk pk] [(v!"address_prefix", .int w), (v!"public_key_type", t)]
      = rStr (p2pkhEncode H.P pk w "uncompressed") := by
  have hk : AddressKw [(v!"address_prefix", .int w), (v!"public_key_type", .str "uncompressed".toList)] w "uncompressed" bitcoinAlphabet :=
    ⟨rfl, rfl, rfl, by decide⟩
  have tail : ∀ (k : PublicKey) (pre : Bytes) (env : Env), env v!"public_key" = some (publicVal k) →
      env v!"kwargs" = some (.kwargs [(v!"address_prefix", .int w), (v!"public_key_type", t)]) → env v!"address_prefix" = some (.bytes pre) →
      (block [P2PKHAddress_encode_L52 H, P2PKHAddress_encode_L58 H] env >>= finish)
        = rStr (Bip38.hash160 H.P (.bytes (if "uncompressed" = "compressed" then k.rawCompressed else k.rawUncompressed)) >>= fun h =>
            .ok (ensureString (checkEncode H.P.sha256 (pre ++ h) bitcoinAlphabet))) := by
    intro k pre env h1 h2 h3
    have q : ∀ s, pyEq t (.str s) = pure false := fun s => eq_not_str ht s
    rw [block_cons]
    ev [h1, h2, q, method_raw_uncompressed, hash160_bytes H hP, rBytes, rStr, ofPy_bind, String.reduceEq]
    refine step fun x hx => ?_
    rw [block_cons]
    ev [h1, h2, h3, default_alphabet, check_encode_kw H _ _ hk.proper, ensure_string_str]
  unfold P2PKHAddress_encode p2pkhEncode
  rw [defun_eq]
  ev []
  rw [block_cons]
  ev [default_prefix, integer_to_bytes_default, rStr, ofPy_bind]
  refine step fun pre hp => ?_
  rw [block_cons]
  cases pk with
  | key k =>
    ev [ofPk, publicVal]
    refine (tail k pre _ ?_ ?_ ?_).trans ?_
    · ev [publicVal]
    · ev []
    · ev []
    · ev [rStr, ofPy_bind]
  | data d =>
    ev [ofPk, isinstance_key]
    rw [block_cons]
    ev [get_bytes_r, rBytes, ofPy_bind]
    refine step fun b hb => ?_
    ev [PublicKey_from_bytes_eq]
    refine step fun k hkk => ?_
    refine (tail k pre _ ?_ ?_ ?_).trans ?_
    · ev []
    · ev []
    · ev []
    · ev [rStr, ofPy_bind]

end Bip38.Src
