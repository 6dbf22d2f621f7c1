import Verif.Src.EqCreate
/-!
# The text of `BIP38.confirm_code` computes what the model says
-/
namespace Bip38.Src

open Run Spec

variable (H : Host)

theorem confirm_split (rest : List Stmt) (env : Env) (f o : Bytes) (hf : env v!"flag" = some (.bytes f)) (ho : env v!"owner_entropy" = some (.bytes o)) :
    block (BIP38_confirm_code_L408 H :: BIP38_confirm_code_L409 H :: rest) env
      = block rest ((env.set v!"lot_and_sequence" (optBytes (splitEntropy f o).2)).set v!"owner_salt" (.bytes (splitEntropy f o).1)) := by
  unfold splitEntropy
  rw [block_cons]
  ev []
  rw [block_cons]
  ev [hf, b2i_eq, flags_lot, mem_ints]
  by_cases h : b2i f ∈ FLAGS_lot_and_sequence
  · simp only [if_pos h]
    ev [block_cons, ho, take_lit, drop_lit]
    rw [env_set_comm _ (by decide), env_set_set]
    rfl
  · simp only [if_neg h]
    ev [block_cons, ho]
    rfl

/-- The pass factor. -/
theorem confirm_factor (rest : List Stmt) (env : Env) (p : Str) (s o : Bytes) (l : Option Bytes) (hp : env v!"passphrase" = some (.str p))
    (hs : env v!"owner_salt" = some (.bytes s)) (ho : env v!"owner_entropy" = some (.bytes o)) (hl : env v!"lot_and_sequence" = some (optBytes l)) :
    block (BIP38_confirm_code_L415 H :: BIP38_confirm_code_L416 H :: rest) env
      = ofPy (passFactorOf H.P p s l o) >>= fun f => block rest (env.set v!"pass_factor" (.bytes f)) := by
  unfold passFactorOf
  rw [block_cons]
  ev [hp, hs, normalize_eq, scrypt_32]
  rw [block_cons]
  ev [hl]
  rcases l with _ | (_ | ⟨c, cs⟩)
  · ev [optBytes]
  · ev [optBytes, List.isEmpty_nil]
  · ev [optBytes, List.isEmpty_cons]
    ev [block_cons, ho, double_sha256_bytes, rBytes]

theorem outside (x m : Nat) :
    ((if ((x : Int) = 0) then pure (Val.bool (decide ((x : Int) = 0))) else pure (Val.bool (decide ((m : Int) ≤ (x : Int))))) : Run Val)
      = pure (.bool (decide (x = 0 ∨ x ≥ m))) := by
  have e1 : (x : Int) = 0 ↔ x = 0 := by omega
  have e2 : (m : Int) ≤ (x : Int) ↔ x ≥ m := by omega
  simp only [e1, e2]
  by_cases h : x = 0 <;> simp [h]

/-- The public key and its type, or "Incorrect passphrase". -/
theorem confirm_try (env : Env) (pb f flag : Bytes) (hp : env v!"point_b" = some (.bytes pb)) (hf : env v!"pass_factor" = some (.bytes f))
    (hg : env v!"flag" = some (.bytes flag)) :
    BIP38_confirm_code_L440 H env
      = ofPy (orIncorrectPassphrase (do
          let pb ← PublicKey.fromBytes pb
          let publicKey ← PublicKey.fromPoint (pb.point.mul (b2i f))
          .ok (publicKey, if b2i flag ∈ FLAGS_compression then "compressed" else "uncompressed"))) >>= fun kt =>
        pure (.next ((env.set v!"public_key" (publicVal kt.1)).set v!"public_key_type" (.str kt.2.toList))) := by
  have hb : block [BIP38_confirm_code_L441 H, BIP38_confirm_code_L444 H, BIP38_confirm_code_L445 H] env
      = ofPy (do
          let pb ← PublicKey.fromBytes pb
          let publicKey ← PublicKey.fromPoint (pb.point.mul (b2i f))
          .ok (publicKey, if b2i flag ∈ FLAGS_compression then "compressed" else "uncompressed")) >>= fun kt =>
        pure (.next ((env.set v!"public_key" (publicVal kt.1)).set v!"public_key_type" (.str kt.2.toList))) := by
    simp only [ofPy_bind, run_assoc]
    rw [block_cons]
    ev [hp, PublicKey_from_bytes_eq]
    refine step fun k hk => ?_
    ev [method_point, hf, b2i_eq, point_mul, PublicKey_from_point_eq]
    refine step fun k2 hk2 => ?_
    rw [block_cons]
    ev []
    ev [block_cons, hg, b2i_eq, flags_compression, mem_ints]
    by_cases h : b2i flag ∈ FLAGS_compression
    · simp only [if_pos h]
      ev []
    · simp only [if_neg h]
      ev []
  unfold BIP38_confirm_code_L440 orIncorrectPassphrase
  rw [x_try, hb]
  generalize (do
    let pb ← PublicKey.fromBytes pb
    let publicKey ← PublicKey.fromPoint (pb.point.mul (b2i f))
    Except.ok (publicKey, if b2i flag ∈ FLAGS_compression then "compressed" else "uncompressed") : Py (PublicKey × String)) = x
  cases x with
  | ok kt => rfl
  | error e =>
    show handle e _ _ = _
    by_cases he : e.cls = .secp256k1Error
    · simp only [if_pos he]
      ev [he]
      ev [block_cons, raise_msg H .passphraseError rfl, String.ofList_toList]
    · simp only [if_neg he]
      ev [he, ofPy_error]

/-- Lot and sequence numbers and the dictionary. -/
theorem confirm_detail (env : Env) (l : Option Bytes) (k : PublicKey) (t : String) (a : Str)
    (hl : env v!"lot_and_sequence" = some (optBytes l)) (hk : env v!"public_key" = some (publicVal k))
    (ht : env v!"public_key_type" = some (.str t.toList)) (ha : env v!"address" = some (.str a))
    (h1 : env v!"lot" = some .none) (h2 : env v!"sequence" = some .none) :
    block [BIP38_confirm_code_L459 H, BIP38_confirm_code_L462 H] env
      = ofPy (bytesToString (.bytes (k.raw t))) >>= fun s => pure (.ret (confirmVal (.detail
          { publicKey := s, publicKeyType := t, address := a, lot := (lotSequenceOf l).1, sequence := (lotSequenceOf l).2 }))) := by
  rw [block_cons]
  ev [hl]
  rcases l with _ | (_ | ⟨c, cs⟩)
  · ev [optBytes]
    ev [block_cons, hk, ht, ha, h1, h2, method_public_raw, hex_bytes]
    rfl
  · ev [optBytes, List.isEmpty_nil]
    ev [block_cons, hk, ht, ha, h1, h2, method_public_raw, hex_bytes]
    rfl
  · ev [optBytes, List.isEmpty_cons]
    have m1 : ((b2i (c :: cs) : Nat) : Int).fmod 4096 = ((b2i (c :: cs) % 4096 : Nat) : Int) := by
      rw [Int.fmod_eq_emod_of_nonneg _ (by omega)]
      rfl
    have m2 : (((b2i (c :: cs) : Nat) : Int) - ((b2i (c :: cs) % 4096 : Nat) : Int)).fdiv 4096
        = (((b2i (c :: cs) - b2i (c :: cs) % 4096) / 4096 : Nat) : Int) := by
      rw [Int.fdiv_eq_ediv_of_nonneg _ (by omega)]
      omega
    have q1 : block [BIP38_confirm_code_L460 H, BIP38_confirm_code_L461 H] env
        = pure (.next ((env.set v!"sequence" (.int (b2i (c :: cs) % 4096 : Nat))).set v!"lot"
            (.int ((b2i (c :: cs) - b2i (c :: cs) % 4096) / 4096 : Nat)))) := by
      rw [block_cons]
      ev [hl, optBytes, b2i_eq, m1]
      rw [block_cons]
      ev [hl, optBytes, b2i_eq, m2]
    rw [q1]
    ev []
    ev [block_cons, hk, ht, ha, method_public_raw, hex_bytes]
    rfl

theorem confirm_obj (hP : H.P.Lawful) (b : BIP38) (passphrase code : Str) (net : Option String) {dv : Val} {detail : Bool} (hdv : truthy dv = detail) :
    BIP38_confirm_code H [bipVal b, .str passphrase, .str code, optNet net, dv] []
      = ofPy (b.confirmCode H.P passphrase code net detail) >>= fun c => pure (confirmVal c) := by
  unfold BIP38_confirm_code BIP38.confirmCode
  rw [defun_eq]
  ev []
  rw [block_cons]
  ev [select_net]
  generalize b.selectNetwork net = n
  rw [block_cons]
  ev [mem_strs, ofPy_raiseIf_bind]
  by_cases hn : n ∈ b.networks
  · have n1 : ¬ n ∉ b.networks := fun h => h hn
    simp only [if_neg n1]
    ev [hn]
    rw [block_cons]
    unfold BIP38_confirm_code_L391
    rw [try_single]
    ev [check_decode_default, ofPy_bind]
    refine (check_decode_or H .error rfl "Invalid confirmation code" code _ _ _ _ fun e => ?_).trans ?_
    · ev []
    refine step fun d hd => ?_
    ev []
    rw [block_cons]
    ev [ofPy_raiseIf]
    by_cases hl : d.length = 51
    · have n2 : ¬ d.length ≠ 51 := fun h => h hl
      have e2 : ((d.length : Int) = 51) = True := eq_true (by omega)
      simp only [if_neg n2]
      ev [e2]
      obtain ⟨q, hq, hlq⟩ : ∃ q : Bytes, integerToBytes (CONFIRMATION_CODE_PREFIX : Nat) = .ok q ∧ q.length = 5 := ⟨_, c_conf, rfl⟩
      rw [block_cons]
      ev [s_conf, int_bytes H hq]
      simp only [hq, ofPy_ok, run_pure_bind]
      rw [block_cons]
      ev [slice_to]
      rw [block_cons]
      ev [s_conf, int_bytes H hq]
      by_cases hpre : q = d.take q.length
      · have n3 : ¬ q ≠ d.take q.length := fun h => h hpre
        simp only [if_neg n3]
        ev [decide_eq_true hpre]
        rw [block_cons]
        ev [slice_lit]
        rw [block_cons]
        ev [slice_lit]
        rw [block_cons]
        ev [slice_lit]
        rw [block_cons]
        ev [drop_lit]
        rw [confirm_split H _ _ (slice 5 6 d) (slice 10 18 d) (by ev []) (by ev [])]
        generalize splitEntropy (slice 5 6 d) (slice 10 18 d) = sp
        obtain ⟨os, ls⟩ := sp
        rw [confirm_factor H _ _ passphrase os (slice 10 18 d) ls (by ev []) (by ev []) (by ev []) (by ev [])]
        ev []
        refine step fun pf hpf => ?_
        rw [block_cons]
        ev [b2i_eq, s_N, outside]
        by_cases hr : b2i pf = 0 ∨ b2i pf ≥ N
        · simp only [if_pos hr]
          ev [block_cons, raise_msg H .error rfl, String.ofList_toList]
        · simp only [if_neg hr]
          ev []
          rw [block_cons]
          ev [PrivateKey_from_bytes_eq]
          refine step fun pk hpk => ?_
          ev [private_public, method_raw_compressed]
          rw [block_cons]
          ev []
          rw [block_cons]
          ev [scrypt_point]
          generalize H.P.scrypt pk.publicKey.rawCompressed (slice 6 10 d ++ slice 10 18 d) 1024 1 1 64 = sh
          rw [block_cons]
          ev [slice_lit, drop_lit]
          rw [block_cons]
          ev [aes_eq]
          refine step fun aes haes => ?_
          rw [block_cons]
          ev [decrypt_block]
          refine step fun d1 hd1 => ?_
          ev [take_lit, b2i_eq, xor_nat, integer_to_bytes_default, xorBytes_fold]
          refine step fun x1 hx1 => ?_
          rw [block_cons]
          ev [decrypt_block]
          refine step fun d2 hd2 => ?_
          ev [slice_lit, b2i_eq, xor_nat, integer_to_bytes_default, xorBytes_fold]
          refine step fun x2 hx2 => ?_
          rw [block_cons]
          ev [take_lit, drop_lit, b2i_eq, and_one, xor_nat, integer_to_bytes_default]
          refine step fun pb hpb => ?_
          rw [block_cons]
          ev []
          rw [block_cons, confirm_try H _ (pb ++ x1 ++ x2) pf (slice 5 6 d) (by ev []) (by ev []) (by ev [])]
          ev []
          refine step fun kt hkt => ?_
          obtain ⟨k, t⟩ := kt
          rw [block_cons]
          ev []
          refine step fun net hnet => ?_
          ev [p2pkh_key H hP, rStr]
          refine step fun address ha => ?_
          rw [block_cons]
          ev [get_bytes_text, rBytes]
          refine step fun ab hab => ?_
          ev [get_checksum_bytes, rBytes]
          refine step fun ah hah => ?_
          by_cases hc : ah = slice 6 10 d
          · simp only [if_pos hc]
            rw [block_cons]
            ev []
            rw [block_cons]
            ev []
            rw [block_cons]
            ev [hdv]
            cases detail with
            | true =>
              simp only [if_true]
              rw [confirm_detail H _ ls k t address (by ev []) (by ev []) (by ev []) (by ev []) (by ev []) (by ev [])]
              ev [ofPy_bind]
            | false =>
              ev [block_cons]
              rfl
          · simp only [if_neg hc]
            ev [block_cons, raise_msg H .passphraseError rfl, String.ofList_toList]
      · simp only [if_pos hpre]
        ev [decide_eq_false hpre]
        ev [block_cons, raise_expected H .error rfl "Invalid confirmation code prefix" (expected_int q.length (by omega)) (f_bytes _)]
        rfl
    · have e2 : ((d.length : Int) = 51) = False := eq_false (by omega)
      simp only [if_pos hl]
      ev [e2]
      ev [block_cons, raise_expected H .error rfl "Invalid confirmation code length" (expected_int 102 (by decide)) (length_text _)]
      rw [String.ofList_toList]
      rfl
  · simp only [if_pos hn]
    ev [hn]
    ev [block_cons, raise_network]

theorem confirm_src (hP : H.P.Lawful) (b : BIP38) (passphrase code : Str) (net : Option String) (detail : Bool) :
    BIP38_confirm_code H [bipVal b, .str passphrase, .str code, optNet net, .bool detail] []
      = ofPy (b.confirmCode H.P passphrase code net detail) >>= fun c => pure (confirmVal c) :=
  confirm_obj H hP b passphrase code net rfl

end Bip38.Src
