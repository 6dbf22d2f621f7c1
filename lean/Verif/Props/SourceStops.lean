import Verif.SrcX.StopText
import Verif.Props.SourceFaults
import Verif.Src.EqBase58
/-!
# Property C98: what becomes of a fault, also of one that is caught, on the text of the repository
-/
namespace Bip38.Props
open Bip38 Spec Src SrcX

variable (H : Host)

/-- These faults, and what these places make of them. -/
def places (K : Call → Exc → Prop) (l : List Rule) : Tr := ⟨K, Becomes l, fun _ _ => .inl rfl⟩

theorem stops {K : Call → Exc → Prop} {l : List Rule} {x : SrcX.Fn} {y : Src.Fn} (h : StF (places K l) x y) : Stops K l x y := h

theorem covers_all {K : Call → Exc → Prop} {l : List Rule} : Covers (places K l) l := fun r hr _ _ hk hc => .inr ⟨r, hr, hk, hc, rfl⟩

/-- C98: the functions of `utils.py`. -/
theorem C98_utils :
    Stops AnyFault [] (SrcX.utils_get_bytes H) (Src.utils_get_bytes H) ∧
    Stops AnyFault [] (SrcX.utils_bytes_reverse H) (Src.utils_bytes_reverse H) ∧
    Stops AnyFault [] (SrcX.utils_bytes_to_string H) (Src.utils_bytes_to_string H) ∧
    Stops AnyFault [] (SrcX.utils_bytes_to_integer H) (Src.utils_bytes_to_integer H) ∧
    Stops AnyFault [] (SrcX.utils_integer_to_bytes H) (Src.utils_integer_to_bytes H) :=
  ⟨stops (st_utils_get_bytes _), stops (st_utils_bytes_reverse _), stops (st_utils_bytes_to_string _), stops (st_utils_bytes_to_integer _), stops (st_utils_integer_to_bytes _)⟩

/-- C98: the functions of `libs/base58.py`. -/
theorem C98_base58 :
    Stops AnyFault [] (SrcX.base58_string_to_int H) (Src.base58_string_to_int H) ∧
    Stops AnyFault [] (SrcX.base58_ensure_string H) (Src.base58_ensure_string H) ∧
    Stops AnyFault [] (SrcX.base58_encode H) (Src.base58_encode H) ∧
    Stops AnyFault [] (SrcX.base58_check_encode H) (Src.base58_check_encode H) ∧
    Stops AnyFault [] (SrcX.base58_decode H) (Src.base58_decode H) ∧
    Stops AnyFault [] (SrcX.base58_check_decode H) (Src.base58_check_decode H) :=
  ⟨stops (st_base58_string_to_int _), stops (st_base58_ensure_string _), stops (st_base58_encode _), stops (st_base58_check_encode _), stops (st_base58_decode _), stops (st_base58_check_decode _)⟩

/-- C98: the functions of `crypto.py` and `libs/ripemd160.py`. -/
theorem C98_crypto :
    Stops AnyFault [] (SrcX.ripemd160_fi H) (Src.ripemd160_fi H) ∧
    Stops AnyFault [] (SrcX.ripemd160_rol H) (Src.ripemd160_rol H) ∧
    Stops AnyFault [] (SrcX.ripemd160_compress H) (Src.ripemd160_compress H) ∧
    Stops AnyFault [] (SrcX.ripemd160_ripemd160 H) (Src.ripemd160_ripemd160 H) ∧
    Stops AnyFault [] (SrcX.crypto_ripemd160 H) (Src.crypto_ripemd160 H) ∧
    Stops AnyFault [] (SrcX.crypto_sha256 H) (Src.crypto_sha256 H) ∧
    Stops AnyFault [] (SrcX.crypto_double_sha256 H) (Src.crypto_double_sha256 H) ∧
    Stops AnyFault [] (SrcX.crypto_get_checksum H) (Src.crypto_get_checksum H) ∧
    Stops AnyFault [] (SrcX.crypto_hash160 H) (Src.crypto_hash160 H) :=
  ⟨stops (st_ripemd160_fi _), stops (st_ripemd160_rol _), stops (st_ripemd160_compress _), stops (st_ripemd160_ripemd160 _), stops (st_crypto_ripemd160 _), stops (st_crypto_sha256 _), stops (st_crypto_double_sha256 _), stops (st_crypto_get_checksum _), stops (st_crypto_hash160 _)⟩

/-- C98: points. -/
theorem C98_points :
    Stops AnyFault [] (SrcX.Point_init H) (Src.Point_init H) ∧
    Stops AnyFault [] (SrcX.Point_from_coordinates H) (Src.Point_from_coordinates H) ∧
    Stops NotOld [.pointBytes] (SrcX.Point_from_bytes H) (Src.Point_from_bytes H) ∧
    Stops AnyFault [] (SrcX.Point_underlying_object H) (Src.Point_underlying_object H) ∧
    Stops AnyFault [] (SrcX.Point_x H) (Src.Point_x H) ∧
    Stops AnyFault [] (SrcX.Point_y H) (Src.Point_y H) ∧
    Stops NotOld [] (SrcX.Point_raw_encoded H) (Src.Point_raw_encoded H) ∧
    Stops NotOld [] (SrcX.Point_raw_decoded H) (Src.Point_raw_decoded H) ∧
    Stops NotOld [] (SrcX.Point_raw H) (Src.Point_raw H) ∧
    Stops AnyFault [] (SrcX.Point_add H) (Src.Point_add H) ∧
    Stops AnyFault [] (SrcX.Point_radd H) (Src.Point_radd H) ∧
    Stops AnyFault [] (SrcX.Point_mul H) (Src.Point_mul H) ∧
    Stops AnyFault [] (SrcX.Point_rmul H) (Src.Point_rmul H) :=
  ⟨stops (st_Point_init _), stops (st_Point_from_coordinates _), stops (st_Point_from_bytes _ covers_all (fun _ _ h => h)), stops (st_Point_underlying_object _), stops (st_Point_x _), stops (st_Point_y _), stops (st_Point_raw_encoded _ (fun _ _ h => h)), stops (st_Point_raw_decoded _ (fun _ _ h => h)), stops (st_Point_raw _ (fun _ _ h => h)), stops (st_Point_add _), stops (st_Point_radd _), stops (st_Point_mul _), stops (st_Point_rmul _)⟩

/-- C98: keys. -/
theorem C98_keys :
    Stops AnyFault [] (SrcX.PublicKey_init H) (Src.PublicKey_init H) ∧
    Stops AnyFault [.publicBytes] (SrcX.PublicKey_from_bytes H) (Src.PublicKey_from_bytes H) ∧
    Stops AnyFault [.publicPoint] (SrcX.PublicKey_from_point H) (Src.PublicKey_from_point H) ∧
    Stops AnyFault [] (SrcX.PublicKey_compressed_length H) (Src.PublicKey_compressed_length H) ∧
    Stops AnyFault [] (SrcX.PublicKey_uncompressed_length H) (Src.PublicKey_uncompressed_length H) ∧
    Stops AnyFault [] (SrcX.PublicKey_underlying_object H) (Src.PublicKey_underlying_object H) ∧
    Stops AnyFault [] (SrcX.PublicKey_raw_compressed H) (Src.PublicKey_raw_compressed H) ∧
    Stops AnyFault [] (SrcX.PublicKey_raw_uncompressed H) (Src.PublicKey_raw_uncompressed H) ∧
    Stops AnyFault [] (SrcX.PublicKey_raw H) (Src.PublicKey_raw H) ∧
    Stops AnyFault [] (SrcX.PublicKey_point H) (Src.PublicKey_point H) ∧
    Stops AnyFault [] (SrcX.PrivateKey_init H) (Src.PrivateKey_init H) ∧
    Stops AnyFault [.privateBytes] (SrcX.PrivateKey_from_bytes H) (Src.PrivateKey_from_bytes H) ∧
    Stops AnyFault [] (SrcX.PrivateKey_length H) (Src.PrivateKey_length H) ∧
    Stops AnyFault [] (SrcX.PrivateKey_underlying_object H) (Src.PrivateKey_underlying_object H) ∧
    Stops AnyFault [] (SrcX.PrivateKey_raw H) (Src.PrivateKey_raw H) ∧
    Stops AnyFault [] (SrcX.PrivateKey_public_key H) (Src.PrivateKey_public_key H) :=
  ⟨stops (st_PublicKey_init _), stops (st_PublicKey_from_bytes _ covers_all), stops (st_PublicKey_from_point _ covers_all), stops (st_PublicKey_compressed_length _), stops (st_PublicKey_uncompressed_length _), stops (st_PublicKey_underlying_object _), stops (st_PublicKey_raw_compressed _), stops (st_PublicKey_raw_uncompressed _), stops (st_PublicKey_raw _), stops (st_PublicKey_point _), stops (st_PrivateKey_init _), stops (st_PrivateKey_from_bytes _ covers_all), stops (st_PrivateKey_length _), stops (st_PrivateKey_underlying_object _), stops (st_PrivateKey_raw _), stops (st_PrivateKey_public_key _)⟩

/-- C98: the functions on WIFs. -/
theorem C98_wif :
    Stops AnyFault [] (SrcX.wif_encode_wif H) (Src.wif_encode_wif H) ∧
    Stops AnyFault [] (SrcX.wif_decode_wif H) (Src.wif_decode_wif H) ∧
    Stops AnyFault [] (SrcX.wif_private_key_to_wif H) (Src.wif_private_key_to_wif H) ∧
    Stops AnyFault [] (SrcX.wif_wif_to_private_key H) (Src.wif_wif_to_private_key H) ∧
    Stops AnyFault [] (SrcX.wif_get_wif_type H) (Src.wif_get_wif_type H) ∧
    Stops AnyFault [] (SrcX.wif_get_wif_checksum H) (Src.wif_get_wif_checksum H) :=
  ⟨stops (st_wif_encode_wif _), stops (st_wif_decode_wif _), stops (st_wif_private_key_to_wif _), stops (st_wif_wif_to_private_key _), stops (st_wif_get_wif_type _), stops (st_wif_get_wif_checksum _)⟩

/-- C98: addresses. -/
theorem C98_addresses :
    Stops AnyFault [.publicBytes] (SrcX.P2PKHAddress_encode H) (Src.P2PKHAddress_encode H) ∧
    Stops AnyFault [] (SrcX.P2PKHAddress_decode H) (Src.P2PKHAddress_decode H) :=
  ⟨stops (st_P2PKHAddress_encode _ covers_all), stops (st_P2PKHAddress_decode _)⟩

/-- C98: the class `BIP38`. -/
theorem C98_bip38 :
    Stops AnyFault [] (SrcX.BIP38_init H) (Src.BIP38_init H) ∧
    Stops AnyFault [.privateBytes] (SrcX.BIP38_intermediate_code H) (Src.BIP38_intermediate_code H) ∧
    Stops AnyFault [.publicBytes, .privateBytes] (SrcX.BIP38_encrypt H) (Src.BIP38_encrypt H) ∧
    Stops AnyFault [.publicBytes, .publicPoint, .privateBytes, .intermediateHash] (SrcX.BIP38_create_new_encrypted_wif H) (Src.BIP38_create_new_encrypted_wif H) ∧
    Stops AnyFault [.publicBytes, .privateBytes, .confirmationHash, .confirmationKey] (SrcX.BIP38_confirm_code H) (Src.BIP38_confirm_code H) ∧
    Stops AnyFault [.publicBytes, .privateBytes] (SrcX.BIP38_decrypt H) (Src.BIP38_decrypt H) :=
  ⟨stops (st_BIP38_init _), stops (st_BIP38_intermediate_code _ covers_all), stops (st_BIP38_encrypt _ covers_all), stops (st_BIP38_create_new_encrypted_wif _ covers_all), stops (st_BIP38_confirm_code _ covers_all), stops (st_BIP38_decrypt _ covers_all)⟩

/-- C98: a value that is returned is the value returned without faults, and no call made has raised: also if exceptions were caught on the way. -/
theorem C98_value {K : Call → Exc → Prop} {l : List Rule} {x : SrcX.Fn} {y : Src.Fn} (h : Stops K l x y) (args : List Val) (kw : List (Name × Val))
    (F : Faults) (hF : ∀ i c e, F i c = some e → K c e) (v : Val) (done : List Call) (hx : x args kw F [] = some (.ok v, done)) :
    y args kw = pure v ∧ Quiet F 0 done := by
  rcases h args kw F [] with ⟨d, hq, h⟩ | ⟨d, c, e, _, hf, h⟩
  · rw [hx] at h
    rcases hy : y args kw with _ | r
    · rw [hy] at h
      cases h
    · rw [hy] at h
      cases h
      exact ⟨rfl, hq⟩
  · obtain ⟨e', _, h'⟩ := h (hF _ c e hf)
    rw [h'] at hx
    cases hx

/-- C98: the exception a caller gets is the one raised without faults, or that of the call made last, or what one of the places made of that. -/
theorem C98_exception {K : Call → Exc → Prop} {l : List Rule} {x : SrcX.Fn} {y : Src.Fn} (h : Stops K l x y) (args : List Val) (kw : List (Name × Val))
    (F : Faults) (hF : ∀ i c e, F i c = some e → K c e) (e' : Exc) (done : List Call) (hx : x args kw F [] = some (.error e', done)) :
    (y args kw = some (.error e') ∧ Quiet F 0 done) ∨
    ∃ before c e, done = before ++ [c] ∧ Quiet F 0 before ∧ F before.length c = some e ∧ Becomes l c e e' := by
  rcases h args kw F [] with ⟨d, hq, h⟩ | ⟨d, c, e, hq, hf, h⟩
  · rw [hx] at h
    rcases hy : y args kw with _ | r
    · rw [hy] at h
      cases h
    · rw [hy] at h
      cases h
      exact .inl ⟨rfl, hq⟩
  · obtain ⟨e'', hb, h'⟩ := h (hF _ c e hf)
    rw [h'] at hx
    cases hx
    exact .inr ⟨d, c, e, rfl, hq, by simpa using hf, hb⟩

/-! ### Cases -/

/-- `MalformedPointError` of `ecdsa` reaches the caller as `Secp256k1Error`, after one external call. -/
example : SrcX.PublicKey_from_bytes H [.bytes [2]] [] (fun _ _ => some ⟨.other "MalformedPointError", "fault"⟩) []
    = some (.error ⟨.secp256k1Error, "Invalid public key bytes"⟩, [⟨.ecdsa, [.bytes [2]], [(v!"curve", .curve)]⟩]) := rfl

/-- Any other exception reaches the caller as it is. -/
example : SrcX.PublicKey_from_bytes H [.bytes [2]] [] (fun _ _ => some ⟨.other "MemoryError", "fault"⟩) []
    = some (.error ⟨.other "MemoryError", "fault"⟩, [⟨.ecdsa, [.bytes [2]], [(v!"curve", .curve)]⟩]) := rfl

/-! ### A failing hash is reported as a wrong text -/

theorem block_next {s : SrcX.Stmt} {ss : List SrcX.Stmt} {env env' : Env} (h : s env = SrcX.lift (pure (.next env'))) :
    SrcX.block (s :: ss) env = SrcX.block ss env' := by
  change (s env >>= _) = _
  rw [h]
  rfl

theorem block_error {s : SrcX.Stmt} {ss : List SrcX.Stmt} {env : Env} {F : Faults} {log l : List Call} {e : Exc} (h : s env F log = some (.error e, l)) :
    SrcX.block (s :: ss) env F log = some (.error e, l) := by
  change (SrcX.Run.bind (s env) _) F log = _
  unfold SrcX.Run.bind
  rw [h]

theorem bind_error {α β : Type} {x : SrcX.Run α} {f : α → SrcX.Run β} {F : Faults} {log l : List Call} {e : Exc} (h : x F log = some (.error e, l)) :
    (x >>= f) F log = some (.error e, l) := by
  change (SrcX.Run.bind x f) F log = _
  unfold SrcX.Run.bind
  rw [h]

theorem check_decode_hash (s : Str) (b : Bytes) (hb : b58decode s bitcoinAlphabet = .ok b) (F : Faults) (log : List Call) (e : Exc)
    (hF : ∀ c, c.kind = .sha256 → F log.length c = some e) :
    ∃ c, c.kind = .sha256 ∧ SrcX.base58_check_decode H [.str s] [] F log = some (.error e, log ++ [c]) := by
  have hd : SrcX.base58_decode H [.str s, .str bitcoinAlphabet] [] = SrcX.lift (pure (.bytes b)) := by
    rw [silent (sim_base58_decode H _ _) (by intro k; cases k <;> rfl), decode_eq, hb]
    rfl
  refine ⟨⟨.sha256, [.bytes (pySlice b none (some (-4)))], []⟩, rfl, ?_⟩
  have hf := hF ⟨.sha256, [.bytes (pySlice b none (some (-4)))], []⟩ rfl
  let env0 : Env := (Env.empty.set v!"enc" (.str s)).set v!"alphabet" (.str bitcoinAlphabet)
  let env1 := env0.set v!"dec" (.bytes b)
  have h1 : SrcX.base58_check_decode_L69 H env0 = SrcX.lift (pure (.next env1)) := by
    change (SrcX.base58_decode H [.str s, .str bitcoinAlphabet] [] >>= _) = _
    rw [hd]
    rfl
  let env2 := (env1.set v!"raw" (.bytes (pySlice b none (some (-4))))).set v!"chk" (.bytes (pySlice b (some (-4)) none))
  have h2 : SrcX.base58_check_decode_L70 H env1 = SrcX.lift (pure (.next env2)) := rfl
  have h3 : SrcX.base58_check_decode_L71 H env2 F log = some (.error e, log ++ [⟨.sha256, [.bytes (pySlice b none (some (-4)))], []⟩]) := by
    have ha : SrcX.ask ⟨.sha256, [.bytes (pySlice b none (some (-4)))], []⟩ (Src.xSha256 H [.bytes (pySlice b none (some (-4)))] []) F log
        = some (.error e, log ++ [⟨.sha256, [.bytes (pySlice b none (some (-4)))], []⟩]) := by
      unfold SrcX.ask
      rw [hf]
    -- `if`, the comparison, its right side, the slice of it, `.digest()`, `sha256(..)`, its argument, `.digest()`
    refine bind_error ?_
    change (SrcX.compareRest _ _ env2 >>= _) F log = _
    refine bind_error (bind_error (bind_error (bind_error (bind_error (bind_error (bind_error ?_))))))
    exact ha
  change (SrcX.block [SrcX.base58_check_decode_L69 H, SrcX.base58_check_decode_L70 H, SrcX.base58_check_decode_L71 H] env0 >>= _) F log = _
  rw [block_next h1, block_next h2]
  exact bind_error (block_error h3)

theorem try_hash {s : SrcX.Stmt} {hs : List SrcX.Stmt} {a : List Name} {g : Exc} {env : Env} {F : Faults} {log l : List Call} {e : Exc}
    (h : s env F log = some (.error e, l)) (hv : e.cls.isValueError = true) (hg : ∀ env, SrcX.block hs env = SrcX.lift (some (.error g))) :
    SrcX.sTry a [s] [([.valueError], hs)] env F log = some (.error g, l) := by
  have hb : SrcX.block [s] env F log = some (.error e, l) := block_error h
  change (match SrcX.block [s] env F log with | some (.error e, log') => SrcX.handle e _ (env.forget a) F log' | r => r) = _
  rw [hb]
  change (if [Catch.valueError].any (·.matches e.cls) = true then SrcX.block hs (env.forget a) else SrcX.handle e [] (env.forget a)) F l = _
  have hm : [Catch.valueError].any (·.matches e.cls) = true := by simp [Catch.matches, hv]
  rw [if_pos hm, hg]
  rfl

/-- C98: `create_new_encrypted_wif` for any text in the alphabet: if `hashlib` raises a `ValueError` (or one of its subclasses) at its first use, the
caller is told that the intermediate passphrase is invalid, whatever it is. -/
theorem C98_hash_failure_as_passphrase (s : Str) (raw : Bytes) (hs : b58decode s bitcoinAlphabet = .ok raw) (x : UInt8) (seed : Bytes)
    (F : Faults) (e : Exc) (hF : ∀ c, c.kind = .sha256 → F 0 c = some e) (he : e.cls.isValueError = true) :
    ∃ c, c.kind = .sha256 ∧ SrcX.BIP38_create_new_encrypted_wif H [bipVal bitcoinObject, .str s] [(v!"seed", .bytes (x :: seed))] F []
      = some (.error ⟨.passphraseError, "Invalid intermediate passphrase"⟩, [c]) := by
  obtain ⟨c, hc, h⟩ := check_decode_hash H s raw hs F [] e hF
  refine ⟨c, hc, ?_⟩
  let env0 : Env := ((((Env.empty.set v!"self" (bipVal bitcoinObject)).set v!"intermediate_passphrase" (.str s)).set v!"wif_type" (.str "wif".toList)).set
    v!"seed" (.bytes (x :: seed))).set v!"network" .none
  let env1 := env0.set v!"network" (.str "mainnet".toList)
  have h1 : SrcX.BIP38_create_new_encrypted_wif_L258 H env0 = SrcX.lift (pure (.next env1)) := rfl
  have h2 : SrcX.BIP38_create_new_encrypted_wif_L261 H env1 = SrcX.lift (pure (.next env1)) := rfl
  let env2 := env1.set v!"seed_b" (.bytes (x :: seed))
  have h3 : SrcX.BIP38_create_new_encrypted_wif_L263 H env1 = SrcX.lift (pure (.next env2)) := rfl
  have h4 : SrcX.BIP38_create_new_encrypted_wif_L264 H env2 F [] = some (.error ⟨.passphraseError, "Invalid intermediate passphrase"⟩, [c]) := by
    refine try_hash (e := e) ?_ he fun env => ?_
    · exact bind_error h
    · rfl
  unfold SrcX.BIP38_create_new_encrypted_wif
  change (SrcX.block (_ :: _ :: _ :: _ :: _) env0 >>= _) F [] = _
  rw [block_next h1, block_next h2, block_next h3]
  exact bind_error (block_error h4)

/-- C98: and `confirm_code` says that the confirmation code is invalid. -/
theorem C98_hash_failure_as_code (pass s : Str) (raw : Bytes) (hs : b58decode s bitcoinAlphabet = .ok raw)
    (F : Faults) (e : Exc) (hF : ∀ c, c.kind = .sha256 → F 0 c = some e) (he : e.cls.isValueError = true) :
    ∃ c, c.kind = .sha256 ∧ SrcX.BIP38_confirm_code H [bipVal bitcoinObject, .str pass, .str s] [] F []
      = some (.error ⟨.error, "Invalid confirmation code"⟩, [c]) := by
  obtain ⟨c, hc, h⟩ := check_decode_hash H s raw hs F [] e hF
  refine ⟨c, hc, ?_⟩
  let env0 : Env := ((((Env.empty.set v!"self" (bipVal bitcoinObject)).set v!"passphrase" (.str pass)).set v!"confirmation_code" (.str s)).set
    v!"network" .none).set v!"detail" (.bool false)
  let env1 := env0.set v!"network" (.str "mainnet".toList)
  have h1 : SrcX.BIP38_confirm_code_L386 H env0 = SrcX.lift (pure (.next env1)) := rfl
  have h2 : SrcX.BIP38_confirm_code_L389 H env1 = SrcX.lift (pure (.next env1)) := rfl
  have h4 : SrcX.BIP38_confirm_code_L391 H env1 F [] = some (.error ⟨.error, "Invalid confirmation code"⟩, [c]) := by
    refine try_hash (e := e) ?_ he fun env => ?_
    · exact bind_error h
    · rfl
  unfold SrcX.BIP38_confirm_code
  change (SrcX.block (_ :: _ :: _ :: _) env0 >>= _) F [] = _
  rw [block_next h1, block_next h2]
  exact bind_error (block_error h4)

/-- Every text in the alphabet is such a text, e.g. this one (which has no valid checksum either). -/
example : ∃ raw, b58decode "2".toList bitcoinAlphabet = .ok raw := ⟨_, rfl⟩


end Bip38.Props
