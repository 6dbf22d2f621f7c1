import Verif.Props.EcExamples
/-!
# Properties C30, C35 (and C31, C40 for `confirm_code`)
-/
namespace Bip38.Props
open Bip38 Spec

variable {P : Prims} {obj : BIP38} {network : Option String} {c : Coin} {n : String} {v : Net}

/-! ## C35: what `confirm_code` can return -/

/-- C35: text that is not Base58Check text raises `Error`. -/
theorem C35_checksum (hP : P.Lawful) (hs : Selects obj network c n v) (pass code : Str) (detail : Bool)
    (h : ¬ ∃ raw, b58decode code = .ok (raw ++ checksum P raw)) :
    ∃ x, obj.confirmCode P pass code network detail = .error x ∧ x.cls = .error := by
  have hc : ∃ y, checkDecode P.sha256 code = .error y := by
    cases hd : checkDecode P.sha256 code with
    | error y => exact ⟨y, rfl⟩
    | ok raw => exact absurd ⟨raw, (checkDecode_iff hP _ _ _).mp hd⟩ h
  obtain ⟨y, hy⟩ := hc
  have hv := C03_check_decode_error P.sha256 bitcoinAlphabet bitcoinAlphabet_valid code y hy
  unfold BIP38.confirmCode
  rw [hs.select]
  simp only
  rw [py_bind (not_raise (not_not.mpr hs.mem)), py_bind_err (checkDecodeOr_error _ _ _ y hy hv)]
  exact ⟨_, rfl, rfl⟩

/-- C35: a payload that has not 51 bytes raises `Error`. -/
theorem C35_length (hP : P.Lawful) (hs : Selects obj network c n v) (pass code : Str) (detail : Bool) (raw : Bytes)
    (h : b58decode code = .ok (raw ++ checksum P raw)) (hl : raw.length ≠ 51) :
    ∃ x, obj.confirmCode P pass code network detail = .error x ∧ x.cls = .error := by
  unfold BIP38.confirmCode
  rw [hs.select]
  simp only
  rw [py_bind (not_raise (not_not.mpr hs.mem)), py_bind (checkDecodeOr_ok _ _ _ _ ((checkDecode_iff hP _ _ _).mpr h)),
    py_bind_err (do_raise hl)]
  exact ⟨_, rfl, rfl⟩

/-- C35: a payload with another prefix raises `Error`. -/
theorem C35_prefix (hP : P.Lawful) (hs : Selects obj network c n v) (pass code : Str) (detail : Bool) (raw : Bytes)
    (h : b58decode code = .ok (raw ++ checksum P raw)) (hp : raw.take 5 ≠ [0x64, 0x3b, 0xf6, 0xa8, 0x9a]) :
    ∃ x, obj.confirmCode P pass code network detail = .error x ∧ x.cls = .error := by
  by_cases hl : raw.length = 51
  swap
  · exact C35_length hP hs pass code detail raw h hl
  unfold BIP38.confirmCode
  rw [hs.select]
  simp only
  rw [py_bind (not_raise (not_not.mpr hs.mem)), py_bind (checkDecodeOr_ok _ _ _ _ ((checkDecode_iff hP _ _ _).mpr h)),
    py_bind (not_raise (not_not.mpr hl)), py_bind c_conf, py_bind_err (do_raise (by exact fun h => hp h.symm))]
  exact ⟨_, rfl, rfl⟩

theorem split_confirm (rest : Bytes) (h : rest.length = 45) : ∃ hash ent x c1 c2, rest = hash ++ ent ++ [x] ++ c1 ++ c2
    ∧ hash.length = 4 ∧ ent.length = 8 ∧ c1.length = 16 ∧ c2.length = 16 := by
  obtain ⟨hash, r1, rfl, h1, hr1⟩ := split_at' rest 4 41 h
  obtain ⟨ent, r2, rfl, h2, hr2⟩ := split_at' r1 8 33 hr1
  obtain ⟨xs, r3, rfl, h3, hr3⟩ := split_at' r2 1 32 hr2
  obtain ⟨c1, c2, rfl, h4, h5⟩ := split_at' r3 16 16 hr3
  obtain ⟨x, rfl⟩ := List.length_eq_one_iff.mp h3
  exact ⟨hash, ent, x, c1, c2, by simp, h1, h2, h4, h5⟩

/-- Every text is malformed, or a confirmation code. -/
theorem confirm_total (hP : P.Lawful) (hs : Selects obj network c n v) (code : Str) :
    (∀ pass detail, ∃ x, obj.confirmCode P pass code network detail = .error x ∧ x.cls = .error) ∨
    ∃ f hash ent x c1 c2, checkDecode P.sha256 code = .ok ([0x64, 0x3b, 0xf6, 0xa8, 0x9a, f] ++ (hash ++ ent ++ [x] ++ c1 ++ c2))
      ∧ hash.length = 4 ∧ ent.length = 8 ∧ c1.length = 16 ∧ c2.length = 16 := by
  by_cases hc : ∃ raw, b58decode code = .ok (raw ++ checksum P raw)
  swap
  · exact Or.inl fun pass detail => C35_checksum hP hs pass code detail hc
  obtain ⟨raw, hraw⟩ := hc
  by_cases hl : raw.length = 51
  swap
  · exact Or.inl fun pass detail => C35_length hP hs pass code detail raw hraw hl
  by_cases hp : raw.take 5 = [0x64, 0x3b, 0xf6, 0xa8, 0x9a]
  swap
  · exact Or.inl fun pass detail => C35_prefix hP hs pass code detail raw hraw hp
  obtain ⟨p, r1, rfl, h1, hr1⟩ := split_at' raw 5 46 hl
  rw [List.take_left' h1] at hp
  subst hp
  obtain ⟨fs, r2, rfl, h2, hr2⟩ := split_at' r1 1 45 hr1
  obtain ⟨f, rfl⟩ := List.length_eq_one_iff.mp h2
  obtain ⟨hash, ent, x, c1, c2, rfl, g1, g2, g3, g4⟩ := split_confirm r2 hr2
  refine Or.inr ⟨f, hash, ent, x, c1, c2, ?_, g1, g2, g3, g4⟩
  rw [(checkDecode_iff hP _ _ _).mpr hraw]
  rfl

/-- C35 and C40: for a code of the right shape, `confirm_code` returns for exactly those passphrases whose pass factor is a private key
and for which the stored point can be read as a point of the curve whose multiple by the pass factor has the stored address hash; the
value returned describes that multiple. -/
theorem C35_iff (hP : P.Lawful) (hs : Selects obj network c n v) (pass code : Str) (detail : Bool) (f : UInt8)
    (hash ent : Bytes) (x : UInt8) (c1 c2 : Bytes) (hh : hash.length = 4) (hent : ent.length = 8) (h1 : c1.length = 16)
    (h2 : c2.length = 16)
    (hcode : checkDecode P.sha256 code = .ok ([0x64, 0x3b, 0xf6, 0xa8, 0x9a, f] ++ (hash ++ ent ++ [x] ++ c1 ++ c2)))
    (pf : Bytes) (hpf : pf = passFactor P (decide (hasLot f)) pass ent) (out : ConfirmOut) :
    obj.confirmCode P pass code network detail = .ok out ↔
      IsPrivateKey pf ∧ ∃ pp q pk : PublicKey, IsPublicKeyOf pp pf
        ∧ Denotes (confirmPoint P (ecDerive P (sec1 pp "compressed") hash ent) x c1 c2) q.x q.y ∧ OnSecp256k1 q.x q.y
        ∧ .aff pk.x pk.y = times (be pf) (.aff q.x q.y)
        ∧ addressHash P v pk (pubType (ecType f)) = hash
        ∧ out = presentAddress detail (confirmDict P v pk (ecType f) (lotSeq f ent)) := by
  have hpl : pf.length = 32 := by rw [hpf]; exact passFactor_length hP _ _ _
  rw [confirm_eq hP hs pass code detail f hash ent x c1 c2 hh hent h1 h2 hcode pf hpf]
  by_cases hr : be pf = 0 ∨ be pf ≥ n256k1
  · simp only [hr, if_true]
    constructor
    · intro h; simp at h
    · rintro ⟨⟨_, h1, h2⟩, _⟩; omega
  simp only [hr, if_false]
  have hk : IsPrivateKey pf := ⟨hpl, by omega, by omega⟩
  obtain ⟨pp, hpp, _, hok⟩ := priv_ok pf hk
  simp only [hok, PrivateKey.publicKey]
  rw [rawCompressed_sec1]
  have key : ∀ q : PublicKey, OnSecp256k1 q.x q.y → ∃ pk : PublicKey, .aff pk.x pk.y = times (be pf) (.aff q.x q.y) ∧
      PublicKey.fromPoint (q.point.mul (be pf)) = .ok pk := by
    intro q hq
    obtain ⟨pk, hpk, hpv⟩ := exists_mul q hq (n := be pf) (by omega) (by rw [← n256k1_eq]; omega)
    refine ⟨pk, ?_, by rw [hpk]; exact fromPoint_point pk hpv⟩
    rw [← mul_eq_times _ (valid_aff.mpr hq)]
    exact hpk.symm
  constructor
  · intro h
    refine ⟨hk, ?_⟩
    cases hq : PublicKey.fromBytes (confirmPoint P (ecDerive P (sec1 pp "compressed") hash ent) x c1 c2) with
    | error e => simp [hq] at h
    | ok q =>
      obtain ⟨hden, hon⟩ := (fromBytes_iff _ q).mp hq
      obtain ⟨pk, hpk, hfp⟩ := key q hon
      simp only [hq, hfp] at h
      split at h
      swap
      · simp at h
      rename_i ha
      exact ⟨pp, q, pk, hpp, hden, hon, hpk, ha, (Except.ok.inj h).symm⟩
  · rintro ⟨_, pp', q, pk, hpp', hden, hon, hpk, ha, rfl⟩
    have := isPublicKeyOf_unique hpp hpp'
    subst this
    obtain ⟨pk', hpk', hfp⟩ := key q hon
    have : pk = pk' := point_injective (hpk.trans hpk'.symm)
    subst this
    simp only [(fromBytes_iff _ q).mpr ⟨hden, hon⟩, hfp, ha, if_true]

/-- C35: whenever `confirm_code` returns, the code is Base58Check text of a 51-byte record with the right prefix, and there is a public
key equal to the pass factor times a point of the curve, whose P2PKH address (on the selected network, compressed or not as the
flag says) hashes to the 4 bytes in the record, and which all returned fields describe. -/
theorem C35_sound (hP : P.Lawful) (hs : Selects obj network c n v) (pass code : Str) (detail : Bool) (out : ConfirmOut)
    (h : obj.confirmCode P pass code network detail = .ok out) :
    ∃ (f : UInt8) (hash ent rest pf : Bytes) (q pk : PublicKey) (d : ConfirmDetail), b58decode code = .ok ([0x64, 0x3b, 0xf6, 0xa8, 0x9a, f] ++ (hash ++ ent ++ rest)
          ++ checksum P ([0x64, 0x3b, 0xf6, 0xa8, 0x9a, f] ++ (hash ++ ent ++ rest)))
      ∧ hash.length = 4 ∧ ent.length = 8 ∧ rest.length = 33
      ∧ pf = passFactor P (decide (hasLot f)) pass ent ∧ IsPrivateKey pf ∧ OnSecp256k1 q.x q.y
      ∧ .aff pk.x pk.y = times (be pf) (.aff q.x q.y)
      ∧ (checksum P (utf8 d.address) = hash
      ∧ d.publicKeyType = (if isCompressed f then "compressed" else "uncompressed")
      ∧ d.publicKey = hex (sec1 pk d.publicKeyType) ∧ d.address = addressText P v pk d.publicKeyType)
      ∧ obj.confirmCode P pass code network true = .ok (.detail d)
      ∧ obj.confirmCode P pass code network false = .ok (.address d.address) := by
  rcases confirm_total hP hs code with hbad | ⟨f, hash, ent, x, c1, c2, hcode, g1, g2, g3, g4⟩
  · obtain ⟨y, hy, _⟩ := hbad pass detail
    rw [hy] at h; simp at h
  have hiff := fun detail out => C35_iff hP hs pass code detail f hash ent x c1 c2 g1 g2 g3 g4 hcode _ rfl out
  obtain ⟨hk, pp, q, pk, hpp, hden, hon, hpk, ha, _⟩ := (hiff detail out).mp h
  refine ⟨f, hash, ent, [x] ++ c1 ++ c2, _, q, pk, confirmDict P v pk (ecType f) (lotSeq f ent), ?_, g1, g2, by simp [g3, g4], rfl, hk, hon,
    hpk, ⟨ha, pubType_ecType f, rfl, rfl⟩, (hiff true _).mpr ⟨hk, pp, q, pk, hpp, hden, hon, hpk, ha, rfl⟩,
    (hiff false _).mpr ⟨hk, pp, q, pk, hpp, hden, hon, hpk, ha, rfl⟩⟩
  have := (checkDecode_iff hP _ _ _).mp hcode
  rw [this]
  simp

/-- C40: every exception of `confirm_code` on a known network is `Error` or `PassphraseError`. -/
theorem C40_confirm_errors (hP : P.Lawful) (hs : Selects obj network c n v) (pass code : Str) (detail : Bool) (x : Exc)
    (h : obj.confirmCode P pass code network detail = .error x) : x.cls = .error ∨ x.cls = .passphraseError := by
  rcases confirm_total hP hs code with hbad | ⟨f, hash, ent, y, c1, c2, hcode, g1, g2, g3, g4⟩
  · obtain ⟨y, hy, hc⟩ := hbad pass detail
    rw [hy] at h
    rw [← Except.error.inj h]; exact Or.inl hc
  rw [confirm_eq hP hs pass code detail f hash ent y c1 c2 g1 g2 g3 g4 hcode _ rfl] at h
  have hpl := passFactor_length hP (decide (hasLot f)) pass ent
  obtain ⟨pf, hpf⟩ : ∃ pf, passFactor P (decide (hasLot f)) pass ent = pf := ⟨_, rfl⟩
  simp only [hpf] at h hpl
  by_cases hr : be pf = 0 ∨ be pf ≥ n256k1
  · simp only [hr, if_true] at h
    rw [← Except.error.inj h]; exact Or.inl rfl
  simp only [hr, if_false] at h
  obtain ⟨pp, hpp, _, hok⟩ := priv_ok pf ⟨hpl, by omega, by omega⟩
  simp only [hok] at h
  split at h
  · rw [← Except.error.inj h]; exact Or.inr rfl
  rename_i q hq
  obtain ⟨pk, hpk, hpv⟩ := exists_mul q ((fromBytes_iff _ q).mp hq).2 (n := be pf) (by omega) (by rw [← n256k1_eq]; omega)
  simp only [hpk, fromPoint_point pk hpv] at h
  split at h
  · simp at h
  · rw [← Except.error.inj h]; exact Or.inr rfl

/-! ## C30 -/

theorem denotes_length {b : Bytes} {x y : Nat} (h : Denotes b x y) : 33 ≤ b.length := by
  cases h <;> simp <;> omega

theorem strip_eq_iff (l : Bytes) (h : 2 ≤ l.length) : strip l = l ↔ l.getD 0 0 ≠ 0 := by
  have hne : l ≠ [] := by intro h'; rw [h'] at h; simp at h
  rw [← head_getD l hne]
  constructor
  · intro h'; exact (strip_length_eq_iff l h).mp (by rw [h'])
  · exact strip_of_head l hne

/-- `confirm_code` of a confirmation code with the passphrase of the pass point. -/
theorem confirm_written (hP : P.Lawful) (hs : Selects obj network c n v) {pass : Str} {L : Bool} {ent : Bytes} {type : String} {code : Str}
    {seedB pf : Bytes} {pp pb : PublicKey} {key : Bytes} {pk : PublicKey} {dk : Bytes}
    (hent : ent.length = 8) (hpf : pf = passFactor P L pass ent) (hpfok : IsPrivateKey pf) (hpp : IsPublicKeyOf pp pf)
    (hty : IsWifType type) (hfac : IsPrivateKey (dsha P seedB)) (hpb : IsPublicKeyOf pb (dsha P seedB))
    (hkv : be key = be pf * be (dsha P seedB) % n256k1) (hpk : IsPublicKeyOf pk key)
    (hdk' : dk = ecDerive P (sec1 pp "compressed") (addressHash P v pk (pubType type)) ent)
    (hr : code = checkText P (confirmRecord P (ecFlag L type) (addressHash P v pk (pubType type)) ent dk (sec1 pb "compressed"))) :
    ((toBE 32 pb.x).getD 0 0 ≠ 0 ∧ (toBE 32 pb.x).getD 16 0 ≠ 0 → ∀ detail, obj.confirmCode P pass code network detail
      = .ok (presentAddress detail (confirmDict P v pk type
          (if L then some (be (ent.drop 4) / 4096, be (ent.drop 4) % 4096) else none)))) ∧
    ((toBE 32 pb.x).getD 0 0 = 0 ∨ (toBE 32 pb.x).getD 16 0 = 0 → ∀ detail,
      ∃ x, obj.confirmCode P pass code network detail = .error x ∧ x.cls = .passphraseError) := by
  have hdl : dk.length = 64 := by rw [hdk']; exact ecDerive_length hP _ _ _
  have hhl := addressHash_length hP v pk (pubType type)
  set hash := addressHash P v pk (pubType type) with hhash
  have hkk : (dk.drop 32).length = 32 := by simp [hdl]
  have lc1 := hP.aesEncrypt_length (dk.drop 32) (mask (((sec1 pb "compressed").drop 1).take 16) (dk.take 16)) hkk (mask_length _ _)
  have lc2 := hP.aesEncrypt_length (dk.drop 32) (mask ((sec1 pb "compressed").drop 17) ((dk.take 32).drop 16)) hkk (mask_length _ _)
  have hcode : checkDecode P.sha256 code = .ok ([0x64, 0x3b, 0xf6, 0xa8, 0x9a, ecFlag L type]
      ++ (hash ++ ent ++ [(sec1 pb "compressed").headD 0 ^^^ (dk.getD 63 0 &&& 1)]
        ++ P.aesEncrypt (dk.drop 32) (mask (((sec1 pb "compressed").drop 1).take 16) (dk.take 16))
        ++ P.aesEncrypt (dk.drop 32) (mask ((sec1 pb "compressed").drop 17) ((dk.take 32).drop 16)))) := by
    rw [hr]
    refine (C03_check_roundtrip P.sha256 hP.sha256_length _ bitcoinAlphabet_valid _).trans ?_
    simp [confirmRecord]
  have hlot : decide (hasLot (ecFlag L type)) = L := by
    have := hasLot_ecFlag L type
    cases hLL : L
    · rw [hLL] at this; exact decide_eq_false (fun h => by simpa using this.mp h)
    · rw [hLL] at this; exact decide_eq_true (this.mpr rfl)
  have hdk : ecDerive P (sec1 pp "compressed") hash ent = dk := hdk'.symm
  have hpt := confirmPoint_written hP hdl (sec1 pb "compressed") (fits_16 _ _ (by simp [sec1]) (by simp [hdl])) (fits_16 _ _ (by simp [sec1]) (by simp [hdl]))
  have hsec : sec1 pb "compressed" = (if pb.y % 2 = 0 then 2 else 3) :: toBE 32 pb.x := by simp [sec1]
  have hxl : (toBE 32 pb.x).length = 32 := toBE_length _ _
  rw [hsec] at hpt
  simp only [List.headD_cons, List.drop_succ_cons, List.drop_zero] at hpt
  have s1 := strip_eq_iff ((toBE 32 pb.x).take 16) (by simp)
  have s2 := strip_eq_iff ((toBE 32 pb.x).drop 16) (by simp)
  have g1 : ((toBE 32 pb.x).take 16).getD 0 0 = (toBE 32 pb.x).getD 0 0 := by
    rw [List.getD_eq_getElem?_getD, List.getD_eq_getElem?_getD, List.getElem?_take_of_lt (by omega)]
  have g2 : ((toBE 32 pb.x).drop 16).getD 0 0 = (toBE 32 pb.x).getD 16 0 := by
    rw [List.getD_eq_getElem?_getD, List.getD_eq_getElem?_getD, List.getElem?_drop]
  rw [g1] at s1
  rw [g2] at s2
  have hon : OnSecp256k1 pb.x pb.y := by
    obtain ⟨pb', hpb', hon, _⟩ := priv_ok _ hfac
    rw [isPublicKeyOf_unique hpb hpb']; exact hon
  constructor
  · intro hg
    rw [s1.mpr hg.1, s2.mpr hg.2] at hpt
    have hden : Denotes (confirmPoint P dk (((if pb.y % 2 = 0 then 2 else 3) : UInt8) ^^^ (dk.getD 63 0 &&& 1))
        (P.aesEncrypt (dk.drop 32) (mask (((sec1 pb "compressed").drop 1).take 16) (dk.take 16)))
        (P.aesEncrypt (dk.drop 32) (mask ((sec1 pb "compressed").drop 17) ((dk.take 32).drop 16)))) pb.x pb.y := by
      rw [hsec]
      simp only [List.drop_succ_cons, List.drop_zero]
      rw [hpt, List.append_assoc, List.take_append_drop]
      refine Denotes.compressed hxl (be_toBE _ _ ?_)
      have := hon.hx
      unfold p256k1 at this
      omega
    have hmul : .aff pk.x pk.y = times (be pf) (.aff pb.x pb.y) := by
      have h1 := hpk
      have h2 := hpb
      unfold IsPublicKeyOf at h1 h2
      rw [h1, h2, hkv, Nat.mul_comm, ← C16_scalar_mul, ← h2, mul_eq_times _ (valid_aff.mpr hon)]
    have hconf : ∀ detail, obj.confirmCode P pass code network detail
        = .ok (presentAddress detail (confirmDict P v pk (ecType (ecFlag L type)) (lotSeq (ecFlag L type) ent))) := fun detail =>
      (C35_iff hP hs pass code detail _ hash ent _ _ _ hhl hent lc1 lc2 hcode pf
        (by rw [hlot]; exact hpf) _).mpr
        ⟨hpfok, pp, pb, pk, hpp, by rw [hdk, show (sec1 pb "compressed").headD 0 = _ by rw [hsec]]; exact hden, hon, hmul,
          by rw [ecType_ecFlag L hty], rfl⟩
    rw [ecType_ecFlag L hty, lotSeq_ecFlag] at hconf
    exact hconf
  · intro hb detail
    have hno : ∀ q : PublicKey, PublicKey.fromBytes (confirmPoint P dk ((sec1 pb "compressed").headD 0 ^^^ (dk.getD 63 0 &&& 1))
        (P.aesEncrypt (dk.drop 32) (mask (((sec1 pb "compressed").drop 1).take 16) (dk.take 16)))
        (P.aesEncrypt (dk.drop 32) (mask ((sec1 pb "compressed").drop 17) ((dk.take 32).drop 16)))) ≠ .ok q := by
      intro q hq
      have hden := ((fromBytes_iff _ q).mp hq).1
      have hlen : 33 ≤ (confirmPoint P dk ((sec1 pb "compressed").headD 0 ^^^ (dk.getD 63 0 &&& 1))
        (P.aesEncrypt (dk.drop 32) (mask (((sec1 pb "compressed").drop 1).take 16) (dk.take 16)))
        (P.aesEncrypt (dk.drop 32) (mask ((sec1 pb "compressed").drop 17) ((dk.take 32).drop 16)))).length := denotes_length hden
      have l1 := strip_length_eq_iff ((toBE 32 pb.x).take 16) (by simp)
      have l2 := strip_length_eq_iff ((toBE 32 pb.x).drop 16) (by simp)
      have n1 : (toBE 32 pb.x).take 16 ≠ [] := by intro h; have := congrArg List.length h; simp at this
      have n2 : (toBE 32 pb.x).drop 16 ≠ [] := by intro h; have := congrArg List.length h; simp at this
      rw [head_getD _ n1, g1] at l1
      rw [head_getD _ n2, g2] at l2
      have k1 := length_strip_le _ n1
      have k2 := length_strip_le _ n2
      rw [hsec] at hlen
      simp only [List.headD_cons, List.drop_succ_cons, List.drop_zero] at hlen
      rw [hpt] at hlen
      simp only [List.length_append, List.length_singleton, List.length_take, List.length_drop, hxl] at hlen k1 k2 l1 l2
      rcases hb with hb | hb
      · have : ¬ _ := fun h => l1.mp h hb
        omega
      · have : ¬ _ := fun h => l2.mp h hb
        omega
    rw [confirm_eq hP hs pass code detail _ hash ent _ _ _ hhl hent lc1 lc2 hcode pf
      (by rw [hlot]; exact hpf)]
    obtain ⟨pp', hpp', _, hok⟩ := priv_ok pf hpfok
    have := isPublicKeyOf_unique hpp hpp'
    subst this
    have q1 := hpfok.2
    have n1 : ¬ (be pf = 0 ∨ be pf ≥ n256k1) := by omega
    simp only [n1, if_false, hok, PrivateKey.publicKey, rawCompressed_sec1, hdk]
    cases hq : PublicKey.fromBytes (confirmPoint P dk ((sec1 pb "compressed").headD 0 ^^^ (dk.getD 63 0 &&& 1))
        (P.aesEncrypt (dk.drop 32) (mask (((sec1 pb "compressed").drop 1).take 16) (dk.take 16)))
        (P.aesEncrypt (dk.drop 32) (mask ((sec1 pb "compressed").drop 17) ((dk.take 32).drop 16)))) with
    | error e => exact ⟨_, rfl, rfl⟩
    | ok q => exact absurd hq (hno q)

/-- C30: let `create_new_encrypted_wif` return `r` for a code made from `pass`. The x coordinate of the point of the seed, in 32 bytes,
decides: if its bytes 0 and 16 are not 0, `confirm_code` of the confirmation code with `pass` returns the announced address and public
key (and lot and sequence); if one of them is 0, it raises `PassphraseError`. -/
theorem C30_confirm_create (hP : P.Lawful) (hs : Selects obj network c n v) (pass : Str) (lot sequence : Option Int) (salt : Data)
    (u : Bytes) (it : Str) (hi : intermediateCode P pass lot sequence salt u = .ok it) (type : String) (seed : Data) (u' : Bytes)
    (r : Created) (hc : obj.createNewEncryptedWif P it type seed network u' = .ok r) :
    ∃ seedB pb, Supplies seed u' seedB ∧ IsPublicKeyOf pb (dsha P seedB)
      ∧ ((toBE 32 pb.x).getD 0 0 ≠ 0 ∧ (toBE 32 pb.x).getD 16 0 ≠ 0 →
          (∃ d, obj.confirmCode P pass r.confirmationCode network true = .ok (.detail d)
            ∧ d.address = r.address ∧ d.publicKey = r.publicKey ∧ d.publicKeyType = r.publicKeyType
            ∧ (usesLot lot sequence = true → d.lot = lot ∧ d.sequence = sequence)
            ∧ (usesLot lot sequence = false → d.lot = none ∧ d.sequence = none))
          ∧ obj.confirmCode P pass r.confirmationCode network false = .ok (.address r.address))
      ∧ ((toBE 32 pb.x).getD 0 0 = 0 ∨ (toBE 32 pb.x).getD 16 0 = 0 → ∀ detail,
          ∃ x, obj.confirmCode P pass r.confirmationCode network detail = .error x ∧ x.cls = .passphraseError) := by
  obtain ⟨saltB, seedB, pf, pp, pb, key, pk, dk, h1, ha, h2, m⟩ := made hP hs pass lot sequence salt u it hi type seed u' r hc
  refine ⟨seedB, pb, h2, m.point_b, ?_⟩
  obtain ⟨good, bad⟩ := confirm_written hP hs m.ent_length m.pass_factor m.pass_factor_ok m.pass_point m.type_ok m.factor_ok m.point_b
    m.key_value m.public_key m.derived (code := r.confirmationCode) (by rw [m.result]; rfl)
  refine ⟨fun hg => ?_, bad⟩
  have hconf := good hg
  set ent := ownerEntropy lot sequence saltB with hentd
  set L := usesLot lot sequence with hL
  have e2 : r.address = addressText P v pk (pubType type) := by rw [m.result]; rfl
  refine ⟨⟨_, hconf true, e2.symm, by rw [m.result]; rfl, by rw [m.result]; rfl, fun hu => ?_, fun hu => ?_⟩, by rw [hconf false, e2]; rfl⟩
  · obtain ⟨hlen, l, s, rfl, rfl, hl, hs⟩ := accepted_lot ha (hL ▸ hu)
    have he : ent = lotEntropy saltB l s := by
      rw [hentd]; simp [ownerEntropy, hL ▸ hu]
    simp only [hu, if_true, confirmDict, Option.map_some]
    rw [he, lotEntropy_number saltB (by omega) l s (by omega) (by omega)]
    constructor <;> congr 2 <;> omega
  · simp [hu, confirmDict]

end Bip38.Props
