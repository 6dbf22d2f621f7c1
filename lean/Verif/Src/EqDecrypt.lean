import Verif.Src.EqConfirm
/-!
# The text of `BIP38.decrypt` computes what the model says
-/
namespace Bip38.Src

open Run Spec

variable (H : Host)

/-! ### Records without EC multiplication -/

/-- The statements after the choice of the key type. -/
theorem decrypt_noEc_tail (hP : H.P.Lawful) (b : BIP38) (d : Bytes) (passphrase : Str) (n : String) {dv : Val} {detail : Bool} (hdv : truthy dv = detail) (wt pt : String) (env : Env)
    (h1 : env v!"self" = some (bipVal b)) (h2 : env v!"encrypted_wif_decode" = some (.bytes d))
    (h4 : env v!"address_hash" = some (.bytes (slice 3 7 d)))
    (h5 : env v!"passphrase" = some (.str passphrase)) (h6 : env v!"network" = some (.str n.toList)) (h7 : env v!"detail" = some dv)
    (h8 : env v!"wif_type" = some (.str wt.toList)) (h9 : env v!"public_key_type" = some (.str pt.toList)) :
    block [BIP38_decrypt_L532 H, BIP38_decrypt_L535 H, BIP38_decrypt_L536 H, BIP38_decrypt_L537 H, BIP38_decrypt_L539 H, BIP38_decrypt_L540 H,
        BIP38_decrypt_L541 H, BIP38_decrypt_L543 H, BIP38_decrypt_L546 H, BIP38_decrypt_L549 H, BIP38_decrypt_L550 H, BIP38_decrypt_L555 H,
        BIP38_decrypt_L558 H, BIP38_decrypt_L561 H, BIP38_decrypt_L573 H] env
      = ofPy (do
          let key := scryptPassphrase H.P passphrase (slice 3 7 d)
          let aes ← AES.new (slice 32 64 key)
          let decryptedHalf2 ← aes.decrypt H.P (slice 23 39 d)
          let decryptedHalf1 ← aes.decrypt H.P (slice 7 23 d)
          let privateKey ← xorBytes (decryptedHalf1 ++ decryptedHalf2) (slice 0 32 key)
          raiseIf (b2i privateKey = 0 ∨ b2i privateKey ≥ N) .error "Invalid Non-EC encrypted WIF (Wallet Import Format)"
          let sk ← PrivateKey.fromBytes privateKey
          let publicKey := sk.publicKey
          let net ← lookupNet b.cryptocurrency n
          let address ← p2pkhEncode H.P (.key publicKey) net.addressPrefix pt
          let addressChecksum ← getChecksum H.P (.bytes (← getBytes (.str address) (unhexlify := false)))
          raiseIf (addressChecksum ≠ slice 3 7 d) .passphraseError "Incorrect passphrase"
          let wif ← privateKeyToWif H.P (.bytes privateKey) wt b.cryptocurrency n
          if detail then do
            let privateKeyText ← bytesToString (.bytes privateKey)
            let publicKeyText ← bytesToString (.bytes (publicKey.raw pt))
            .ok (.detail { wif, privateKey := privateKeyText, wifType := wt, publicKey := publicKeyText, publicKeyType := pt
                           seed := none, address, lot := none, sequence := none })
          else .ok (.wif wif)) >>= fun o => pure (.ret (decryptVal o)) := by
  simp only [ofPy_bind, run_assoc, ofPy_raiseIf]
  rw [block_cons]
  ev [h5, h4, normalize_eq, scrypt_64]
  generalize scryptPassphrase H.P passphrase (slice 3 7 d) = key
  rw [block_cons]
  ev [slice_lit]
  rw [block_cons]
  ev [h2, slice_lit]
  rw [block_cons]
  ev [h2, slice_lit]
  rw [block_cons]
  ev [aes_eq]
  refine step fun aes haes => ?_
  rw [block_cons]
  ev [decrypt_block]
  refine step fun d2 hd2 => ?_
  rw [block_cons]
  ev [decrypt_block]
  refine step fun d1 hd1 => ?_
  rw [block_cons]
  ev [b2i_eq, xor_nat, integer_to_bytes_default, xorBytes_fold]
  refine step fun k hk => ?_
  rw [block_cons]
  ev [b2i_eq, s_N, outside]
  by_cases hr : b2i k = 0 ∨ b2i k ≥ N
  · simp only [if_pos hr]
    ev [block_cons, raise_msg H .error rfl, String.ofList_toList]
  · simp only [if_neg hr]
    ev []
    rw [block_cons]
    ev [PrivateKey_from_bytes_eq]
    refine step fun sk hsk => ?_
    ev [private_public]
    rw [block_cons]
    ev [h1, h6, h9]
    refine step fun net hnet => ?_
    ev [p2pkh_key H hP, rStr]
    refine step fun address ha => ?_
    rw [block_cons]
    ev [get_bytes_text, rBytes]
    refine step fun ab hab => ?_
    ev [get_checksum_bytes, rBytes]
    refine step fun ah hah => ?_
    ev [h4]
    by_cases hc : ah = slice 3 7 d
    · have hc' : ¬ ah ≠ slice 3 7 d := fun h => h hc
      simp only [if_neg hc']
      ev [decide_eq_true hc]
      rw [block_cons]
      ev [h1, h6, h8, private_key_to_wif_kw, rStr]
      refine step fun w hw => ?_
      rw [block_cons]
      ev [h7, hdv]
      cases detail with
      | true =>
        simp only [if_true]
        ev [block_cons, h8, h9, hex_bytes, method_public_raw, ofPy_bind]
        refine step fun s1 hs1 => ?_
        refine step fun s2 hs2 => ?_
        rfl
      | false =>
        ev [block_cons]
        rfl
    · simp only [if_pos hc]
      ev [decide_eq_false hc]
      ev [block_cons, raise_msg H .passphraseError rfl, String.ofList_toList]

theorem decrypt_noEc_block (hP : H.P.Lawful) (b : BIP38) (d : Bytes) (passphrase : Str) (n : String) {dv : Val} {detail : Bool} (hdv : truthy dv = detail) (env : Env)
    (h1 : env v!"self" = some (bipVal b)) (h2 : env v!"encrypted_wif_decode" = some (.bytes d))
    (h3 : env v!"flag" = some (.bytes (slice 2 3 d))) (h4 : env v!"address_hash" = some (.bytes (slice 3 7 d)))
    (h5 : env v!"passphrase" = some (.str passphrase)) (h6 : env v!"network" = some (.str n.toList)) (h7 : env v!"detail" = some dv) :
    block [BIP38_decrypt_L518 H, BIP38_decrypt_L532 H, BIP38_decrypt_L535 H, BIP38_decrypt_L536 H, BIP38_decrypt_L537 H, BIP38_decrypt_L539 H, BIP38_decrypt_L540 H,
        BIP38_decrypt_L541 H, BIP38_decrypt_L543 H, BIP38_decrypt_L546 H, BIP38_decrypt_L549 H, BIP38_decrypt_L550 H, BIP38_decrypt_L555 H,
        BIP38_decrypt_L558 H, BIP38_decrypt_L561 H, BIP38_decrypt_L573 H] env
      = ofPy (b.decryptNoEc H.P d passphrase n detail) >>= fun o => pure (.ret (decryptVal o)) := by
  obtain ⟨fu, hfu⟩ : ∃ q : Bytes, integerToBytes (NO_EC_MULTIPLIED_WIF_FLAG : Nat) = .ok q := ⟨_, c_flagU⟩
  obtain ⟨fc, hfc⟩ : ∃ q : Bytes, integerToBytes (NO_EC_MULTIPLIED_WIF_COMPRESSED_FLAG : Nat) = .ok q := ⟨_, c_flagC⟩
  unfold BIP38.decryptNoEc
  rw [hfu, hfc, block_cons]
  simp only [ofPy_bind, ofPy_ok, run_pure_bind]
  by_cases hu : slice 2 3 d = fu
  · have e : BIP38_decrypt_L518 H env = pure (.next ((env.set v!"wif_type" (.str "wif".toList)).set v!"public_key_type" (.str "uncompressed".toList))) := by
      ev [h3, s_flagU, int_bytes H hfu, hu]
      ev [block_cons]
    simp only [if_pos hu]
    rw [e, run_pure_bind, runRest_next]
    refine (decrypt_noEc_tail H hP b d passphrase n hdv "wif" "uncompressed" _ ?_ ?_ ?_ ?_ ?_ ?_ ?_ ?_).trans ?_
    · ev [h1]
    · ev [h2]
    · ev [h4]
    · ev [h5]
    · ev [h6]
    · ev [h7]
    · ev []
    · ev []
    · simp only [ofPy_bind, run_assoc, ofPy_ok, run_pure_bind]
  · by_cases hc : slice 2 3 d = fc
    · have e : BIP38_decrypt_L518 H env = pure (.next ((env.set v!"wif_type" (.str "wif-compressed".toList)).set v!"public_key_type" (.str "compressed".toList))) := by
        ev [h3, s_flagU, int_bytes H hfu, hu]
        ev [block_cons, h3, s_flagC, int_bytes H hfc, hc]
      simp only [if_neg hu, if_pos hc]
      rw [e, run_pure_bind, runRest_next]
      refine (decrypt_noEc_tail H hP b d passphrase n hdv "wif-compressed" "compressed" _ ?_ ?_ ?_ ?_ ?_ ?_ ?_ ?_).trans ?_
      · ev [h1]
      · ev [h2]
      · ev [h4]
      · ev [h5]
      · ev [h6]
      · ev [h7]
      · ev []
      · ev []
      · simp only [ofPy_bind, run_assoc, ofPy_ok, run_pure_bind]
    · simp only [if_neg hu, if_neg hc]
      ev [h3, s_flagU, int_bytes H hfu, hu]
      rw [block_cons]
      ev [h3, s_flagC, int_bytes H hfc, hc]
      rw [block_cons]
      ev [h3, s_flagU, s_flagC, int_bytes H hfu, int_bytes H hfc, hexText_src,
        raise_expected H .error rfl "Invalid flag" (expected_hex fu fc) (f_str (hexText (slice 2 3 d)))]
      rfl

/-! ### Records with EC multiplication -/

theorem decrypt_split (rest : List Stmt) (env : Env) (f o : Bytes) (hf : env v!"flag" = some (.bytes f)) (ho : env v!"owner_entropy" = some (.bytes o)) :
    block (BIP38_decrypt_L580 H :: BIP38_decrypt_L581 H :: rest) env
      = block rest ((env.set v!"lot_and_sequence" (optBytes (splitEntropy f o).2)).set v!"owner_salt" (.bytes (splitEntropy f o).1)) := by
  unfold splitEntropy
  rw [block_cons]
  ev []
  rw [block_cons]
  ev [hf, b2i_eq, flags_lot, mem_ints]
  by_cases h : b2i f ∈ FLAGS_lot_and_sequence
  · simp only [if_pos h]
    ev [block_cons, ho, take_lit, drop_lit]
    rw [env_set_comm _ (by decide), env_set_set]
    rfl
  · simp only [if_neg h]
    ev [block_cons, ho]
    rfl

theorem decrypt_factor (rest : List Stmt) (env : Env) (p : Str) (s o : Bytes) (l : Option Bytes) (hp : env v!"passphrase" = some (.str p))
    (hs : env v!"owner_salt" = some (.bytes s)) (ho : env v!"owner_entropy" = some (.bytes o)) (hl : env v!"lot_and_sequence" = some (optBytes l)) :
    block (BIP38_decrypt_L587 H :: BIP38_decrypt_L588 H :: rest) env
      = ofPy (passFactorOf H.P p s l o) >>= fun f => block rest (env.set v!"pass_factor" (.bytes f)) := by
  unfold passFactorOf
  rw [block_cons]
  ev [hp, hs, normalize_eq, scrypt_32]
  rw [block_cons]
  ev [hl]
  rcases l with _ | (_ | ⟨c, cs⟩)
  · ev [optBytes]
  · ev [optBytes, List.isEmpty_nil]
  · ev [optBytes, List.isEmpty_cons]
    ev [block_cons, ho, double_sha256_bytes, rBytes]

/-- The types of the WIF and of the public key. -/
theorem decrypt_types (rest : List Stmt) (env : Env) (f : Bytes) (hf : env v!"flag" = some (.bytes f)) :
    block (BIP38_decrypt_L620 H :: BIP38_decrypt_L621 H :: BIP38_decrypt_L622 H :: rest) env
      = block rest ((env.set v!"wif_type" (.str (if b2i f ∈ FLAGS_compression then ("wif-compressed", "compressed") else ("wif", "uncompressed")).1.toList)).set
          v!"public_key_type" (.str (if b2i f ∈ FLAGS_compression then ("wif-compressed", "compressed") else ("wif", "uncompressed")).2.toList)) := by
  rw [block_cons]
  ev []
  rw [block_cons]
  ev []
  rw [block_cons]
  ev [hf, b2i_eq, flags_compression, mem_ints]
  by_cases h : b2i f ∈ FLAGS_compression
  · simp only [if_pos h]
    ev [block_cons]
    rw [env_set_comm _ (by decide), env_set_set]
  · simp only [if_neg h]
    ev []

/-- Lot and sequence numbers and the dictionary. -/
theorem decrypt_detail (env : Env) (l : Option Bytes) (k : PublicKey) (t wt : String) (a w : Str) (key seed : Bytes)
    (hl : env v!"lot_and_sequence" = some (optBytes l)) (hk : env v!"public_key" = some (publicVal k))
    (ht : env v!"public_key_type" = some (.str t.toList)) (ha : env v!"address" = some (.str a))
    (h1 : env v!"lot" = some .none) (h2 : env v!"sequence" = some .none) (h3 : env v!"wif_type" = some (.str wt.toList))
    (h4 : env v!"wif" = some (.str w)) (h5 : env v!"private_key" = some (.bytes key)) (h6 : env v!"seed_b" = some (.bytes seed)) :
    block [BIP38_decrypt_L637 H, BIP38_decrypt_L640 H] env
      = ofPy (bytesToString (.bytes key)) >>= fun s1 => ofPy (bytesToString (.bytes (k.raw t))) >>= fun s2 =>
        ofPy (bytesToString (.bytes seed)) >>= fun s3 => pure (.ret (decryptVal (.detail
          { wif := w, privateKey := s1, wifType := wt, publicKey := s2, publicKeyType := t, seed := some s3, address := a,
            lot := (lotSequenceOf l).1, sequence := (lotSequenceOf l).2 }))) := by
  rw [block_cons]
  ev [hl]
  rcases l with _ | (_ | ⟨c, cs⟩)
  · ev [optBytes]
    ev [block_cons, hk, ht, ha, h1, h2, h3, h4, h5, h6, method_public_raw, hex_bytes]
    rfl
  · ev [optBytes, List.isEmpty_nil]
    ev [block_cons, hk, ht, ha, h1, h2, h3, h4, h5, h6, method_public_raw, hex_bytes]
    rfl
  · ev [optBytes, List.isEmpty_cons]
    have m1 : ((b2i (c :: cs) : Nat) : Int).fmod 4096 = ((b2i (c :: cs) % 4096 : Nat) : Int) := by
      rw [Int.fmod_eq_emod_of_nonneg _ (by omega)]
      rfl
    have m2 : (((b2i (c :: cs) : Nat) : Int) - ((b2i (c :: cs) % 4096 : Nat) : Int)).fdiv 4096
        = (((b2i (c :: cs) - b2i (c :: cs) % 4096) / 4096 : Nat) : Int) := by
      rw [Int.fdiv_eq_ediv_of_nonneg _ (by omega)]
      omega
    have q1 : block [BIP38_decrypt_L638 H, BIP38_decrypt_L639 H] env
        = pure (.next ((env.set v!"sequence" (.int (b2i (c :: cs) % 4096 : Nat))).set v!"lot"
            (.int ((b2i (c :: cs) - b2i (c :: cs) % 4096) / 4096 : Nat)))) := by
      rw [block_cons]
      ev [hl, optBytes, b2i_eq, m1]
      rw [block_cons]
      ev [hl, optBytes, b2i_eq, m2]
    rw [q1]
    ev []
    ev [block_cons, hk, ht, ha, h3, h4, h5, h6, method_public_raw, hex_bytes]
    rfl

/-- `l[23:-4]` -/
theorem slice_inner (l : Bytes) : pySlice l (some 23) (some (-4)) = (dropLastN 4 l).drop 23 := by
  have h : ¬ (0 : Int) ≤ -4 := by omega
  have e : (-4 + (l.length : Int)).toNat = l.length - 4 := by omega
  simp only [pySlice, sliceBound, h, if_false, e, dropLastN, Int.reduceLE, if_true, Int.reduceToNat]
  rcases Nat.le_total 23 l.length with h' | h'
  · rw [Nat.min_eq_left h']
  · rw [Nat.min_eq_right h', List.drop_eq_nil_of_le (by simp), List.drop_eq_nil_of_le (by simp; omega)]

theorem mod_nat (t r) (a m : Nat) (h : m ≠ 0) : callBin t r .mod (.int a) (.int m) = pure (.int ((a % m : Nat) : Int)) := by
  have h' : ((m : Int) = 0) = False := eq_false (by omega)
  rw [b_mod]
  simp only [h', if_false]
  rw [Int.fmod_eq_emod_of_nonneg _ (by omega)]
  rfl

theorem mul_nat (t r) (a m : Nat) : callBin t r .mul (.int a) (.int m) = pure (.int ((a * m : Nat) : Int)) := rfl

theorem decrypt_ec_block (hP : H.P.Lawful) (b : BIP38) (d : Bytes) (passphrase : Str) (n : String) {dv : Val} {detail : Bool} (hdv : truthy dv = detail) (env : Env)
    (h1 : env v!"self" = some (bipVal b)) (h2 : env v!"encrypted_wif_decode" = some (.bytes d))
    (h3 : env v!"flag" = some (.bytes (slice 2 3 d))) (h4 : env v!"address_hash" = some (.bytes (slice 3 7 d)))
    (h5 : env v!"passphrase" = some (.str passphrase)) (h6 : env v!"network" = some (.str n.toList)) (h7 : env v!"detail" = some dv) :
    block [BIP38_decrypt_L576 H, BIP38_decrypt_L577 H, BIP38_decrypt_L578 H, BIP38_decrypt_L580 H, BIP38_decrypt_L581 H, BIP38_decrypt_L587 H,
        BIP38_decrypt_L588 H, BIP38_decrypt_L590 H, BIP38_decrypt_L593 H, BIP38_decrypt_L594 H, BIP38_decrypt_L595 H, BIP38_decrypt_L596 H,
        BIP38_decrypt_L598 H, BIP38_decrypt_L599 H, BIP38_decrypt_L602 H, BIP38_decrypt_L603 H, BIP38_decrypt_L607 H, BIP38_decrypt_L611 H,
        BIP38_decrypt_L612 H, BIP38_decrypt_L616 H, BIP38_decrypt_L619 H, BIP38_decrypt_L620 H, BIP38_decrypt_L621 H, BIP38_decrypt_L622 H,
        BIP38_decrypt_L625 H, BIP38_decrypt_L630 H, BIP38_decrypt_L652 H] env
      = ofPy (b.decryptEc H.P d passphrase n detail) >>= fun o => pure (.ret (decryptVal o)) := by
  unfold BIP38.decryptEc
  simp only [ofPy_bind, run_assoc]
  rw [block_cons]
  ev [h2, slice_lit]
  rw [block_cons]
  ev [h2, slice_lit]
  rw [block_cons]
  ev [h2, slice_inner]
  rw [decrypt_split H _ _ (slice 2 3 d) (slice 7 15 d) (by ev [h3]) (by ev [])]
  generalize splitEntropy (slice 2 3 d) (slice 7 15 d) = sp
  obtain ⟨os, ls⟩ := sp
  rw [decrypt_factor H _ _ passphrase os (slice 7 15 d) ls (by ev [h5]) (by ev []) (by ev []) (by ev [])]
  ev [ofPy_raiseIf]
  refine step fun pf hpf => ?_
  rw [block_cons]
  ev [b2i_eq, s_N, outside]
  by_cases hr : b2i pf = 0 ∨ b2i pf ≥ N
  · simp only [if_pos hr]
    ev [block_cons, raise_msg H .error rfl, String.ofList_toList]
  · simp only [if_neg hr]
    ev []
    rw [block_cons]
    ev [PrivateKey_from_bytes_eq]
    refine step fun pk hpk => ?_
    ev [private_public]
    rw [block_cons]
    ev [h4]
    rw [block_cons]
    ev [method_raw_compressed, scrypt_point]
    generalize H.P.scrypt pk.publicKey.rawCompressed (slice 3 7 d ++ slice 7 15 d) 1024 1 1 64 = sh
    rw [block_cons]
    ev [drop_lit]
    rw [block_cons]
    ev [aes_eq]
    refine step fun aes haes => ?_
    rw [block_cons]
    ev [decrypt_block]
    refine step fun d2 hd2 => ?_
    ev [slice_lit, b2i_eq, xor_nat, integer_to_bytes_default, xorBytes_fold]
    refine step fun x2 hx2 => ?_
    rw [block_cons]
    ev [take_lit]
    rw [block_cons]
    ev []
    rw [block_cons]
    ev [decrypt_block]
    refine step fun d1 hd1 => ?_
    ev [take_lit, drop_lit, b2i_eq, xor_nat, integer_to_bytes_default, xorBytes_fold]
    refine step fun x1 hx1 => ?_
    rw [block_cons]
    ev [double_sha256_bytes, rBytes]
    refine step fun fb hfb => ?_
    rw [block_cons]
    ev [b2i_eq, s_N, outside]
    by_cases hr2 : b2i fb = 0 ∨ b2i fb ≥ N
    · simp only [if_pos hr2]
      ev [block_cons, raise_msg H .error rfl, String.ofList_toList]
    · simp only [if_neg hr2]
      ev []
      rw [block_cons]
      ev [b2i_eq, s_N, mul_nat, mod_nat _ _ _ N (by decide), integer_to_bytes_default]
      refine step fun k hk => ?_
      rw [block_cons]
      ev [PrivateKey_from_bytes_eq]
      refine step fun sk hsk => ?_
      ev [private_public]
      rw [decrypt_types H _ _ (slice 2 3 d) (by ev [h3])]
      generalize (if b2i (slice 2 3 d) ∈ FLAGS_compression then ("wif-compressed", "compressed") else ("wif", "uncompressed")) = ty
      obtain ⟨wt, pt⟩ := ty
      rw [block_cons]
      ev [h1, h6]
      refine step fun net hnet => ?_
      ev [p2pkh_key H hP, rStr]
      refine step fun address ha => ?_
      rw [block_cons]
      ev [get_bytes_text, rBytes]
      refine step fun ab hab => ?_
      ev [get_checksum_bytes, rBytes]
      refine step fun ah hah => ?_
      ev [h4]
      by_cases hc : ah = slice 3 7 d
      · simp only [if_pos hc]
        rw [block_cons]
        ev [h1, h6, private_key_to_wif_kw, rStr, ofPy_bind]
        refine step fun w hw => ?_
        rw [block_cons]
        ev []
        rw [block_cons]
        ev []
        rw [block_cons]
        ev [h7, hdv]
        cases detail with
        | true =>
          simp only [if_true]
          rw [decrypt_detail H _ ls sk.publicKey pt wt address w k (x1 ++ x2.drop 8) (by ev []) (by ev []) (by ev []) (by ev []) (by ev []) (by ev [])
            (by ev []) (by ev []) (by ev []) (by ev [])]
          ev [ofPy_bind]
        | false =>
          ev [block_cons]
          rfl
      · simp only [if_neg hc]
        ev [block_cons, raise_msg H .passphraseError rfl, String.ofList_toList]

/-! ### The method -/

theorem decrypt_obj (hP : H.P.Lawful) (b : BIP38) (encrypted passphrase : Str) (net : Option String) {dv : Val} {detail : Bool} (hdv : truthy dv = detail) :
    BIP38_decrypt H [bipVal b, .str encrypted, .str passphrase, optNet net, dv] []
      = ofPy (b.decrypt H.P encrypted passphrase net detail) >>= fun o => pure (decryptVal o) := by
  obtain ⟨pu, hpu⟩ : ∃ q : Bytes, integerToBytes (NO_EC_MULTIPLIED_PRIVATE_KEY_PREFIX : Nat) = .ok q := ⟨_, c_noEc⟩
  obtain ⟨pe, hpe⟩ : ∃ q : Bytes, integerToBytes (EC_MULTIPLIED_PRIVATE_KEY_PREFIX : Nat) = .ok q := ⟨_, c_ec⟩
  unfold BIP38_decrypt BIP38.decrypt
  rw [defun_eq]
  ev []
  rw [block_cons]
  ev [select_net]
  generalize b.selectNetwork net = n
  rw [block_cons]
  ev [mem_strs, ofPy_raiseIf_bind]
  by_cases hn : n ∈ b.networks
  · have n1 : ¬ n ∉ b.networks := fun h => h hn
    simp only [if_neg n1]
    ev [hn]
    rw [block_cons]
    ev [decode_default, ofPy_bind]
    refine step fun d hd => ?_
    rw [block_cons]
    ev [ofPy_raiseIf]
    by_cases hl : d.length = 43
    · have n2 : ¬ d.length ≠ 43 := fun h => h hl
      have e2 : ((d.length : Int) = 43) = True := eq_true (by omega)
      simp only [if_neg n2, hpu, hpe, ofPy_ok, run_pure_bind]
      ev [e2]
      rw [block_cons]
      ev [take_lit]
      rw [block_cons]
      ev [slice_lit]
      rw [block_cons]
      ev [slice_lit]
      rw [block_cons]
      ev [s_noEc, int_bytes H hpu]
      by_cases h1 : d.take 2 = pu
      · simp only [if_pos h1]
        rw [decrypt_noEc_block H hP b d passphrase n hdv _ (by ev []) (by ev []) (by ev []) (by ev []) (by ev []) (by ev []) (by ev [])]
        ev []
      · simp only [if_neg h1]
        rw [block_cons]
        ev [s_ec, int_bytes H hpe]
        by_cases h2 : d.take 2 = pe
        · simp only [if_pos h2]
          rw [decrypt_ec_block H hP b d passphrase n hdv _ (by ev []) (by ev []) (by ev []) (by ev []) (by ev []) (by ev []) (by ev [])]
          ev []
        · simp only [if_neg h2]
          rw [block_cons]
          ev [s_noEc, s_ec, int_bytes H hpu, int_bytes H hpe, hexText_src,
            raise_expected H .error rfl "Invalid prefix" (expected_hex pu pe) (f_str (hexText (d.take 2)))]
    · have e2 : ((d.length : Int) = 43) = False := eq_false (by omega)
      simp only [if_pos hl]
      ev [e2]
      ev [block_cons, raise_expected H .wifError rfl "Invalid encrypted WIF length" (expected_int 43 (by decide)) (length_text _)]
      rw [String.ofList_toList]
      rfl
  · simp only [if_pos hn]
    ev [hn]
    ev [block_cons, raise_network]

theorem decrypt_src (hP : H.P.Lawful) (b : BIP38) (encrypted passphrase : Str) (net : Option String) (detail : Bool) :
    BIP38_decrypt H [bipVal b, .str encrypted, .str passphrase, optNet net, .bool detail] []
      = ofPy (b.decrypt H.P encrypted passphrase net detail) >>= fun o => pure (decryptVal o) :=
  decrypt_obj H hP b encrypted passphrase net rfl

end Bip38.Src
