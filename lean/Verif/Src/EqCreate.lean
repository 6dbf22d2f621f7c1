import Verif.Src.EqIntermediate
/-!
# The text of `BIP38.create_new_encrypted_wif` computes what the model says
-/
namespace Bip38.Src

open Run Spec

variable (H : Host)

/-- `try: x = check_decode(text) except ValueError: raise cls(message)` -/
theorem check_decode_or {β : Type} (c : ExcClass) (hc : c.isBip38Error = true) (m : String) (s : Str) (x : Name) (env : Env)
    (g : Outcome → Run β) (handler : Stmt)
    (hh : ∀ e, handler e = Error_init H c [.str m.toList] [] >>= raiseVal (Error_str H)) :
    (tryRun [x] [([.valueError], [handler])] env (ofPy (checkDecode H.P.sha256 s) >>= fun b => pure (.next (env.set x (.bytes b)))) >>= g)
      = ofPy (checkDecodeOr H.P s c m) >>= fun b => g (.next (env.set x (.bytes b))) := by
  unfold checkDecodeOr
  cases hd : checkDecode H.P.sha256 s with
  | ok b => rfl
  | error e =>
    have : tryRun [x] [([.valueError], [handler])] env (ofPy (.error e) >>= fun b => pure (.next (env.set x (.bytes b))))
        = if e.cls.isValueError = true then block [handler] (env.forget [x]) else Run.raise e.cls e.msg := by
      show handle e _ _ = _
      ev []
    rw [this]
    by_cases hv : e.cls.isValueError = true
    · have h := raise_msg H c hc m.toList (β := β) (fun o => runRest [] o >>= g)
      rw [String.ofList_toList] at h
      simp only [if_pos hv]
      rw [block_cons, hh, run_assoc, run_assoc]
      exact h
    · simp only [if_neg hv]
      rfl

theorem try_single (assigned : List Name) (s : Stmt) (handlers : List (List Catch × List Stmt)) (env : Env) :
    sTry assigned [s] handlers env = tryRun assigned handlers env (s env) := by
  rw [x_try, block_cons]
  congr 1
  rcases s env with _ | (_ | (_ | _)) <;> rfl

theorem expected_types : ExpectedVal (.list [.str "wif".toList, .str "wif-compressed".toList]) (.list (WIF_TYPES.map String.toList)) :=
  expected_strs ["wif", "wif-compressed"]

/-- The choice of the public key type. -/
theorem create_L275 (env : Env) (t : String) (h : env v!"wif_type" = some (.str t.toList)) :
    BIP38_create_new_encrypted_wif_L275 H env
      = ofPy (publicKeyTypeOf t) >>= fun ty => pure (.next (env.set v!"public_key_type" (.str ty.toList))) := by
  unfold publicKeyTypeOf
  have e : t.toList = "wif".toList ↔ t = "wif" := String.toList_inj
  have e2 : t.toList = "wif-compressed".toList ↔ t = "wif-compressed" := String.toList_inj
  by_cases h1 : t = "wif"
  · simp only [if_pos h1]
    ev [h, e, h1]
    ev [block_cons]
  · simp only [if_neg h1]
    by_cases h2 : t = "wif-compressed"
    · simp only [if_pos h2]
      ev [h, e, h1]
      ev [block_cons]
      ev [h, e2, h2]
    · simp only [if_neg h2]
      ev [h, e, h1]
      ev [block_cons]
      ev [h, e2, h2]
      ev [block_cons, h, wif_types, raise_expected H .wifError rfl "Invalid wif type" expected_types (f_str t.toList), String.ofList_toList]

theorem nat_range (x m : Nat) :
    ((if (0 : Int) < (x : Int) then pure (decide ((x : Int) < (m : Int))) else pure false) : Run Bool) = pure (decide (0 < x ∧ x < m)) := by
  have e1 : (0 : Int) < (x : Int) ↔ 0 < x := by omega
  have e2 : (x : Int) < (m : Int) ↔ x < m := by omega
  simp only [e1, e2]
  by_cases h : 0 < x <;> simp [h]

theorem expected_hex (a b : Bytes) : ExpectedVal (.list [.str (hexText a), .str (hexText b)]) (.list [hexText a, hexText b]) :=
  .list (.cons rfl (.cons rfl .nil))

theorem int_bytes {n : Nat} {b : Bytes} (h : integerToBytes (n : Int) = .ok b) : utils_integer_to_bytes H [.int n] [] = pure (.bytes b) := by
  rw [integer_to_bytes_default, h]
  rfl

/-- The choice of the flag. -/
theorem create_L282 (env : Env) (m : Bytes) (t : String) (h : env v!"magic" = some (.bytes m)) (ht : env v!"public_key_type" = some (.str t.toList)) :
    BIP38_create_new_encrypted_wif_L282 H env
      = ofPy (newFlag m t) >>= fun f => pure (.next (env.set v!"flag" (.bytes f))) := by
  unfold newFlag
  have e : t.toList = "uncompressed".toList ↔ t = "uncompressed" := String.toList_inj
  simp only [c_magicLot, c_magicNo, ofPy_bind, ofPy_ok, run_pure_bind]
  by_cases h1 : m = magicBytes true
  · simp only [if_pos h1]
    ev [h, s_magicLot, int_bytes H c_magicLot, h1]
    by_cases h2 : t = "uncompressed"
    · simp only [if_pos h2]
      ev [block_cons, ht, e, h2, s_04, integer_to_bytes_default]
    · simp only [if_neg h2]
      ev [block_cons, ht, e, h2, s_24, integer_to_bytes_default]
  · simp only [if_neg h1]
    ev [h, s_magicLot, int_bytes H c_magicLot, h1]
    by_cases h3 : m = magicBytes false
    · simp only [if_pos h3]
      ev [block_cons, h, s_magicNo, int_bytes H c_magicNo, h3]
      by_cases h2 : t = "uncompressed"
      · simp only [if_pos h2]
        ev [block_cons, ht, e, h2, s_00, integer_to_bytes_default]
      · simp only [if_neg h2]
        ev [block_cons, ht, e, h2, s_20, integer_to_bytes_default]
    · simp only [if_neg h3]
      ev [block_cons, h, s_magicNo, int_bytes H c_magicNo, h3]
      ev [block_cons, h, s_magicLot, s_magicNo, int_bytes H c_magicLot, int_bytes H c_magicNo, hexText_src,
        raise_expected H .error rfl "Invalid magic" (expected_hex (magicBytes true) (magicBytes false)) (f_str (hexText m))]

theorem create_src (hP : H.P.Lawful) (b : BIP38) (code : Str) (wifType : String) (seed : Data) (net : Option String) :
    BIP38_create_new_encrypted_wif H [bipVal b, .str code, .str wifType.toList, ofData seed, optNet net] []
      = ofPy (b.createNewEncryptedWif H.P code wifType seed net (H.urandom 24)) >>= fun c => pure (createdVal c) := by
  unfold BIP38_create_new_encrypted_wif BIP38.createNewEncryptedWif
  rw [defun_eq]
  ev []
  rw [block_cons]
  ev [select_net]
  generalize b.selectNetwork net = n
  rw [block_cons]
  ev [mem_strs, ofPy_raiseIf_bind]
  by_cases hn : n ∈ b.networks
  · have n1 : ¬ n ∉ b.networks := fun h => h hn
    simp only [if_neg n1]
    ev [hn]
    rw [block_cons]
    ev [bytes_or_random H seed (H.urandom 24) (xUrandom H [.int 24] []) rfl, rBytes, ofPy_bind]
    refine step fun sb hsb => ?_
    rw [block_cons]
    unfold BIP38_create_new_encrypted_wif_L264
    rw [try_single]
    ev [check_decode_default]
    refine (check_decode_or H .passphraseError rfl "Invalid intermediate passphrase" code _ _ _ _ fun e => ?_).trans ?_
    · ev []
    refine step fun d hd => ?_
    ev []
    rw [block_cons]
    ev [ofPy_raiseIf]
    by_cases hl : d.length = 49
    · have n2 : ¬ d.length ≠ 49 := fun h => h hl
      have e2 : ((d.length : Int) = 49) = True := eq_true (by omega)
      simp only [if_neg n2]
      ev [e2]
      rw [block_cons]
      ev [take_lit]
      rw [block_cons]
      ev [slice_lit]
      rw [block_cons]
      ev [drop_lit]
      rw [block_cons, create_L275 H _ wifType (by ev [])]
      ev []
      refine step fun ty hty => ?_
      rw [block_cons, create_L282 H _ (d.take 8) ty (by ev []) (by ev [])]
      ev []
      refine step fun flag hflag => ?_
      rw [block_cons]
      ev [double_sha256_bytes, rBytes]
      refine step fun fb hfb => ?_
      rw [block_cons]
      ev [b2i_eq, s_N, nat_range]
      by_cases hr : 0 < b2i fb ∧ b2i fb < N
      · have n3 : ¬ ¬ (0 < b2i fb ∧ b2i fb < N) := fun h => h hr
        simp only [if_neg n3]
        ev [decide_eq_true hr]
        rw [block_cons]
        ev [PublicKey_from_bytes_eq]
        refine step fun pp hpp => ?_
        ev [method_point, b2i_eq, point_mul, PublicKey_from_point_eq]
        refine step fun k hk => ?_
        rw [block_cons]
        ev []
        refine step fun net hnet => ?_
        ev [p2pkh_key H hP, rStr]
        refine step fun address ha => ?_
        rw [block_cons]
        ev [get_bytes_text, rBytes]
        refine step fun ab hab => ?_
        ev [get_checksum_bytes, rBytes]
        refine step fun ah hah => ?_
        rw [block_cons]
        ev []
        rw [block_cons]
        ev [scrypt_point]
        generalize H.P.scrypt (d.drop 16) (ah ++ slice 8 16 d) 1024 1 1 64 = sh
        rw [block_cons]
        ev [take_lit, slice_lit, drop_lit]
        rw [block_cons]
        ev [aes_eq]
        refine step fun aes haes => ?_
        rw [block_cons]
        ev [take_lit, b2i_eq, xor_nat, integer_to_bytes_default, xorBytes_fold]
        refine step fun x hx => ?_
        ev [encrypt_block]
        refine step fun e1 he1 => ?_
        rw [block_cons]
        ev [drop_lit, b2i_eq, xor_nat, integer_to_bytes_default, xorBytes_fold]
        refine step fun x hx => ?_
        ev [encrypt_block]
        refine step fun e2 he2 => ?_
        rw [block_cons]
        ev [s_ec, integer_to_bytes_default]
        refine step fun ecp hecp => ?_
        ev [take_lit, check_encode_default, ensure_string_str]
        rw [block_cons]
        ev [PrivateKey_from_bytes_eq]
        refine step fun bk hbk => ?_
        ev [private_public, method_raw_compressed]
        rw [block_cons]
        ev [drop_lit, take_lit, b2i_eq, and_one, xor_nat, integer_to_bytes_default]
        refine step fun bp hbp => ?_
        rw [block_cons]
        ev [slice_lit, b2i_eq, xor_nat, integer_to_bytes_default, xorBytes_fold]
        refine step fun x hx => ?_
        ev [encrypt_block]
        refine step fun b1 hb1 => ?_
        rw [block_cons]
        ev [drop_lit, b2i_eq, xor_nat, integer_to_bytes_default, xorBytes_fold]
        refine step fun x hx => ?_
        ev [encrypt_block]
        refine step fun b2 hb2 => ?_
        rw [block_cons]
        ev []
        rw [block_cons]
        ev [s_conf, integer_to_bytes_default]
        refine step fun cp hcp => ?_
        ev [check_encode_default, ensure_string_str]
        rw [block_cons]
        ev [method_public_raw, hex_bytes]
        refine step fun pt hpt => ?_
        refine step fun st hst => ?_
        rfl
      · simp only [if_pos hr]
        ev [decide_eq_false hr]
        ev [block_cons, raise_msg H .error rfl, String.ofList_toList]
    · have e2 : ((d.length : Int) = 49) = False := eq_false (by omega)
      simp only [if_pos hl]
      ev [e2]
      ev [block_cons, raise_expected H .passphraseError rfl "Invalid intermediate passphrase length" (expected_int 49 (by decide)) (length_text _)]
      rw [String.ofList_toList]
      rfl
  · simp only [if_pos hn]
    ev [hn]
    ev [block_cons, raise_network]

end Bip38.Src
