import Verif.Lemmas.External
import Verif.Props.Outcome
import Verif.Props.Outcome2
import Verif.Props.AnyArgs
/-!
# Properties C79 and C80: external calls that raise, and the work of a call

`m F []` is a run of a method: its outcome and the requests it made, with the faults `F`.
-/
namespace Bip38.Props
open Bip38 Spec

variable {P : Prims} {obj : BIP38} {network : Option String} {c : Coin} {n : String} {v : Net}

/-! ## C79 -/

/-- C79: `encrypt` with faults. -/
theorem C79_encrypt (o : BIP38) (w pass : Str) (net : Option String) (F : Faults) (r : Py Str) (log : List Request)
    (h : o.encryptX P w pass net F [] = (r, log)) : Ends F log r (o.encrypt P w pass net) := by
  have := (follows_encrypt (P := P) (plain_id 0) o w pass net F [] (Nat.le_refl _)).whole.1
  rwa [h] at this

/-- C79: `decrypt` with faults. -/
theorem C79_decrypt (o : BIP38) (e pass : Str) (net : Option String) (detail : Bool) (F : Faults) (r : Py DecryptOut) (log : List Request)
    (h : o.decryptX P e pass net detail F [] = (r, log)) : Ends F log r (o.decrypt P e pass net detail) := by
  obtain ⟨l, hN, hE⟩ : ∃ l : List Work, (∀ rec, b58decode e = .ok rec → rec.take 2 = [0x01, 0x42] → l = [.scrypt 16384 8 8]) ∧
      (∀ rec, b58decode e = .ok rec → rec.take 2 = [0x01, 0x43] → l = [.scrypt 16384 8 8, .scrypt 1024 1 1]) := by
    cases hd : b58decode e with
    | error x => exact ⟨[], by rintro _ ⟨⟩, by rintro _ ⟨⟩⟩
    | ok rec =>
      refine ⟨if rec.take 2 = [0x01, 0x42] then [.scrypt 16384 8 8] else [.scrypt 16384 8 8, .scrypt 1024 1 1], ?_, ?_⟩
      · rintro _ ⟨⟩ h
        rw [if_pos h]
      · rintro _ ⟨⟩ h
        rw [if_neg (by rw [h]; decide)]
  have := (follows_decrypt (P := P) (plain_id 0) o e pass net detail l hN hE F [] (Nat.le_refl _)).whole.1
  rwa [h] at this

/-- C79: `intermediate_code` with faults. -/
theorem C79_intermediate (pass : Str) (lot sequence : Option Int) (salt : Data) (u : Bytes) (F : Faults) (r : Py Str) (log : List Request)
    (h : intermediateCodeX P pass lot sequence salt u F [] = (r, log)) : Ends F log r (intermediateCode P pass lot sequence salt u) := by
  have := (follows_intermediate (P := P) (plain_id 0) pass lot sequence salt u F [] (Nat.le_refl _)).whole.1
  rwa [h] at this

/-- C79: `create_new_encrypted_wif` with faults.  A `ValueError` of the two hashes that verify the intermediate code is reported as an
invalid code. -/
theorem C79_create (o : BIP38) (code : Str) (wifType : String) (seed : Data) (net : Option String) (u : Bytes) (F : Faults)
    (r : Py Created) (log : List Request) (h : o.createX P code wifType seed net u F [] = (r, log)) :
    Ends F log r (o.createNewEncryptedWif P code wifType seed net u)
      (caught (if seed.truthy then 0 else 1) .passphraseError "Invalid intermediate passphrase") := by
  have := (followsAt_create (P := P) F o code wifType seed net u).whole.1
  rwa [h] at this

/-- C79: `confirm_code` with faults. -/
theorem C79_confirm (o : BIP38) (pass code : Str) (net : Option String) (detail : Bool) (F : Faults)
    (r : Py ConfirmOut) (log : List Request) (h : o.confirmX P pass code net detail F [] = (r, log)) :
    Ends F log r (o.confirmCode P pass code net detail) (caught 0 .error "Invalid confirmation code") := by
  have := (followsAt_confirm (P := P) F o pass code net detail).whole.1
  rwa [h] at this

/-- C79: with external functions that never raise the outcome is that of the other model. -/
theorem C79_quiet {α : Type} {F : Faults} {log : List Request} {r p : Py α} {seen : Nat → Exc → Exc} (h : Ends F log r p seen)
    (hF : ∀ i q, F i q = none) : r = p := by
  rcases h with ⟨_, h⟩ | ⟨done, q, e, _, _, h, _⟩
  · exact h
  · rw [hF] at h
    cases h

/-- C79, a consequence users meet: `hashlib` lists RIPEMD-160 but refuses it when asked (OpenSSL 3).  Then `encrypt` of every WIF
raises that error, whatever the passphrase, before any work; the bundled implementation is not used. -/
theorem C79_ripemd160_refused (hs : Selects obj network c n v) (w pass : Str) (key : Bytes) (type : String) (hw : WifLike w v key type)
    (hk : IsPrivateKey key) (f : Bytes → Bytes) (hf : P.hashlibRipemd160 = some f) (F : Faults) (e : Exc)
    (h1 : ∀ i b, F i (.sha256 b) = none) (h2 : ∀ i b, F i (.ripemd160 b) = some e) :
    ∃ log, obj.encryptX P w pass network F [] = (.error e, log) ∧ work log = [] := by
  obtain ⟨hkw, ht, hty⟩ := wifLike_reads hs w key type hw
  obtain ⟨pk, hpk, _, hpriv⟩ := priv_ok key hk
  have step : ∀ (t : String) (k : Str → Ext Str), ∃ log, (p2pkhEncodeX P pk v.addressPrefix t >>= k) F [] = (.error e, log) ∧ work log = [] := by
    intro t k
    refine ⟨[.sha256 (if t = "compressed" then pk.rawCompressed else pk.rawUncompressed),
      .ripemd160 (P.sha256 (if t = "compressed" then pk.rawCompressed else pk.rawUncompressed))], ?_, rfl⟩
    · rw [x_bind, p2pkhEncodeX, x_lift (integerToBytes_prefix _), x_bind, hash160X, x_bind, sha256X, ask, h1]
      simp only [ripemd160X, hf, ask, h2]
      rfl
  unfold BIP38.encryptX
  rw [hs.select, hs.coin]
  simp only
  rw [x_lift (not_raise (not_not.mpr hs.mem)), x_lift ht]
  rcases hty with rfl | rfl
  · rw [if_pos rfl, x_lift c_flagU, x_lift hkw, x_lift (getBytes_hex key), x_lift hpriv, x_lift rfl, x_lift (lookupNet_ok hs.net)]
    exact step _ _
  · rw [if_neg (by decide), x_lift c_flagC, x_lift hkw, x_lift (getBytes_hex key), x_lift hpriv, x_lift rfl, x_lift (lookupNet_ok hs.net)]
    exact step _ _

/-! ## C80 -/

/-- C80: the work of `encrypt`. -/
theorem C80_encrypt (o : BIP38) (w pass : Str) (net : Option String) (F : Faults) (r : Py Str) (log : List Request)
    (h : o.encryptX P w pass net F [] = (r, log)) :
    work log <+: [.scrypt 16384 8 8] ∧ (∀ e, r = .ok e → work log = [.scrypt 16384 8 8]) := by
  have := (follows_encrypt (P := P) (plain_id 0) o w pass net F [] (Nat.le_refl _)).whole.2
  rwa [h] at this

/-- C80: the work of `decrypt`, by the kind of record. -/
theorem C80_decrypt (o : BIP38) (e pass : Str) (net : Option String) (detail : Bool) (F : Faults) (r : Py DecryptOut) (log : List Request)
    (h : o.decryptX P e pass net detail F [] = (r, log)) (rec : Bytes) (hd : b58decode e = .ok rec) :
    (rec.take 2 = [0x01, 0x42] → work log <+: [.scrypt 16384 8 8] ∧ (∀ out, r = .ok out → work log = [.scrypt 16384 8 8])) ∧
    (rec.take 2 = [0x01, 0x43] → work log <+: [.scrypt 16384 8 8, .scrypt 1024 1 1] ∧
      (∀ out, r = .ok out → work log = [.scrypt 16384 8 8, .scrypt 1024 1 1])) := by
  constructor
  · intro hp
    have := (follows_decrypt (P := P) (plain_id 0) o e pass net detail [.scrypt 16384 8 8] (fun _ _ _ => rfl)
      (fun rec' hd' hp' => by rw [hd] at hd'; cases hd'; rw [hp] at hp'; exact absurd hp' (by decide)) F [] (Nat.le_refl _)).whole.2
    rwa [h] at this
  · intro hp
    have := (follows_decrypt (P := P) (plain_id 0) o e pass net detail [.scrypt 16384 8 8, .scrypt 1024 1 1]
      (fun rec' hd' hp' => by rw [hd] at hd'; cases hd'; rw [hp] at hp'; exact absurd hp' (by decide))
      (fun _ _ _ => rfl) F [] (Nat.le_refl _)).whole.2
    rwa [h] at this

/-- C80: the work of `intermediate_code`. -/
theorem C80_intermediate (pass : Str) (lot sequence : Option Int) (salt : Data) (u : Bytes) (F : Faults) (r : Py Str) (log : List Request)
    (h : intermediateCodeX P pass lot sequence salt u F [] = (r, log)) :
    work log <+: (if salt.truthy then [] else [.random 8]) ++ [.scrypt 16384 8 8] ∧
    (∀ code, r = .ok code → work log = (if salt.truthy then [] else [.random 8]) ++ [.scrypt 16384 8 8]) := by
  have := (follows_intermediate (P := P) (plain_id 0) pass lot sequence salt u F [] (Nat.le_refl _)).whole.2
  rwa [h] at this

/-- C80: the work of `create_new_encrypted_wif`; no passphrase is stretched. -/
theorem C80_create (o : BIP38) (code : Str) (wifType : String) (seed : Data) (net : Option String) (u : Bytes) (F : Faults)
    (r : Py Created) (log : List Request) (h : o.createX P code wifType seed net u F [] = (r, log)) :
    work log <+: (if seed.truthy then [] else [.random 24]) ++ [.scrypt 1024 1 1] ∧
    (∀ made, r = .ok made → work log = (if seed.truthy then [] else [.random 24]) ++ [.scrypt 1024 1 1]) := by
  have := (followsAt_create (P := P) F o code wifType seed net u).whole.2
  rwa [h] at this

/-- C80: the work of `confirm_code`. -/
theorem C80_confirm (o : BIP38) (pass code : Str) (net : Option String) (detail : Bool) (F : Faults)
    (r : Py ConfirmOut) (log : List Request) (h : o.confirmX P pass code net detail F [] = (r, log)) :
    work log <+: [.scrypt 16384 8 8, .scrypt 1024 1 1] ∧
    (∀ out, r = .ok out → work log = [.scrypt 16384 8 8, .scrypt 1024 1 1]) := by
  have := (followsAt_confirm (P := P) F o pass code net detail).whole.2
  rwa [h] at this

theorem silent_false {β : Type} {q : Prop} [Decidable q] {cls : ExcClass} {msg : String} {f : Unit → Ext β} (h : q) :
    Silent ((liftM (raiseIf q cls msg) : Ext Unit) >>= f) :=
  Silent.lift_bind fun _ hok => by rw [do_raise h] at hok; cases hok

/-- C80: with a network the object does not have no external function is called. -/
theorem C80_unknown_network (o : BIP38) (net : Option String) (hn : chosenNetwork o net ∉ o.networks) (F : Faults) :
    (∀ w pass, (o.encryptX P w pass net F []).2 = []) ∧
    (∀ e pass detail, (o.decryptX P e pass net detail F []).2 = []) ∧
    (∀ pass code detail, (o.confirmX P pass code net detail F []).2 = []) ∧
    (∀ code type seed u, (o.createX P code type seed net u F []).2 = []) := by
  rw [← chosen_eq] at hn
  exact ⟨fun w pass => silent_false hn F [], fun e pass detail => silent_false hn F [],
    fun pass code detail => silent_false hn F [], fun code type seed u => silent_false hn F []⟩

/-- C80: `encrypt` of a text that is no WIF of a private key calls no external function. -/
theorem C80_encrypt_bad (hs : Selects obj network c n v) (w pass : Str) (hbad : ∀ key type, WifLike w v key type → ¬ IsPrivateKey key)
    (F : Faults) : (obj.encryptX P w pass network F []).2 = [] := by
  have key : ∀ t, wifToPrivateKey w c n = .ok t → ∀ b, getBytes (.str t) = .ok b → ∀ sk, PrivateKey.fromBytes b ≠ .ok sk := by
    intro t ht b hb sk hsk
    unfold wifToPrivateKey at ht
    rw [lookupNet_ok hs.net, py_bind rfl] at ht
    obtain ⟨⟨key, type, chk⟩, hd, ht⟩ := of_ok_bind ht
    have ht' : hex key = t := Except.ok.inj ((bytesToString_bytes key).symm.trans ht)
    subst ht'
    rw [getBytes_hex] at hb
    have hb := Except.ok.inj hb
    subst hb
    refine hbad key type ((wifLike_iff v w key type).mpr ⟨chk, hd⟩) ((isPrivateKey_iff key).mpr ?_)
    have := (privFromBytes_iff key sk).mp hsk
    exact ⟨this.1, this.2.1, this.2.2.1⟩
  refine (show Silent (obj.encryptX P w pass network) from ?_) F []
  unfold BIP38.encryptX
  rw [hs.select, hs.coin]
  simp only
  refine Silent.lift_bind fun _ _ => Silent.lift_bind fun t _ => ?_
  by_cases ht : t = "wif"
  · rw [if_pos ht]
    exact Silent.lift_bind fun _ _ => Silent.lift_bind fun t h1 => Silent.lift_bind fun b h2 => Silent.lift_bind fun sk h3 =>
      absurd h3 (key t h1 b h2 sk)
  · rw [if_neg ht]
    exact Silent.lift_bind fun _ _ => Silent.lift_bind fun t h1 => Silent.lift_bind fun b h2 => Silent.lift_bind fun sk h3 =>
      absurd h3 (key t h1 b h2 sk)

/-- C80: `decrypt` of a text that is no encrypted key of a known form calls no external function. -/
theorem C80_decrypt_bad (o : BIP38) (net : Option String) (e pass : Str) (detail : Bool)
    (hbad : ∀ rec, b58decode e = .ok rec → ¬ KnownForm rec) (F : Faults) : (o.decryptX P e pass net detail F []).2 = [] := by
  refine (show Silent (o.decryptX P e pass net detail) from ?_) F []
  refine Silent.lift_bind fun _ _ => Silent.lift_bind fun rec hr => Silent.lift_bind fun _ hl =>
    Silent.lift_bind fun pN hN => Silent.lift_bind fun pE hE => ?_
  have hb := hbad rec hr
  rw [c_noEc] at hN
  rw [c_ec] at hE
  cases hN
  cases hE
  have hl : rec.length = 43 := not_not.mp (passed hl)
  by_cases h1 : rec.take 2 = [0x01, 0x42]
  · simp only [if_pos h1]
    refine Silent.lift_bind fun fU hU => Silent.lift_bind fun fC hC => ?_
    rw [c_flagU] at hU
    rw [c_flagC] at hC
    cases hU
    cases hC
    have third : slice 2 3 rec = [rec.getD 2 0] := by
      match rec, hl with
      | a :: b :: x :: r, _ => simp [slice]
    have g1 : slice 2 3 rec ≠ [0xc0] := fun h => hb ⟨hl, Or.inl ⟨h1, Or.inl (by rw [third] at h; simpa using h)⟩⟩
    have g2 : slice 2 3 rec ≠ [0xe0] := fun h => hb ⟨hl, Or.inl ⟨h1, Or.inr (by rw [third] at h; simpa using h)⟩⟩
    simp only [if_neg g1, if_neg g2]
    exact Silent.lift_bind fun _ h => by cases h
  · by_cases h2 : rec.take 2 = [0x01, 0x43]
    · exact absurd ⟨hl, Or.inr h2⟩ hb
    · simp only [if_neg h1, if_neg h2]
      exact Silent.lift

/-- C80: `confirm_code` of a text that is no confirmation code stretches nothing. -/
theorem C80_confirm_bad (hP : P.Lawful) (o : BIP38) (net : Option String) (pass code : Str) (detail : Bool)
    (hbad : ∀ raw, b58decode code = .ok (raw ++ checksum P raw) → ¬ (raw.length = 51 ∧ raw.take 5 = [0x64, 0x3b, 0xf6, 0xa8, 0x9a]))
    (F : Faults) : work (o.confirmX P pass code net detail F []).2 = [] := by
  refine List.prefix_nil.mp (FollowsAt.whole (s := caught 0 .error "Invalid confirmation code") (p := o.confirmCode P pass code net detail)
    (l := []) ?_).2.1
  unfold BIP38.confirmX BIP38.confirmCode
  refine FollowsAt.lift_bind fun _ _ => ?_
  refine FollowsAt.bind (l := []) (followsAt_try F [] code _ _).1 fun dec log' hrun hok => ?_
  have hb := hbad dec ((checkDecode_iff hP _ _ _).mp (of_checkDecodeOr hok))
  refine FollowsAt.lift_bind fun _ hl => FollowsAt.lift_bind fun pre hp => FollowsAt.lift_bind fun _ hq => ?_
  rw [c_conf] at hp
  cases hp
  exfalso
  exact hb ⟨not_not.mp (passed hl), (not_not.mp (passed hq)).symm⟩

/-- C80: `create_new_encrypted_wif` with a text that is no intermediate code, or with an unknown type, computes no `scrypt`. -/
theorem C80_create_bad (hP : P.Lawful) (o : BIP38) (net : Option String) (code : Str) (type : String) (seed : Data) (u : Bytes)
    (hbad : ∀ raw, b58decode code = .ok (raw ++ checksum P raw) → ¬ (raw.length = 49 ∧ IsWifType type ∧ ∃ lot, raw.take 8 = magicBytes lot))
    (F : Faults) : work (o.createX P code type seed net u F []).2 <+: (if seed.truthy then [] else [.random 24]) := by
  obtain ⟨k, hk⟩ : ∃ k, (if seed.truthy then 0 else 1) = k := ⟨_, rfl⟩
  refine (FollowsAt.whole (s := caught k .passphraseError "Invalid intermediate passphrase") (p := o.createNewEncryptedWif P code type seed net u)
    (l := if seed.truthy then [] else [.random 24]) ?_).2.1
  unfold BIP38.createX BIP38.createNewEncryptedWif
  refine FollowsAt.lift_bind fun _ _ => ?_
  rw [← List.append_nil (if seed.truthy then [] else [Work.random 24])]
  refine FollowsAt.bind (followsAt_seed F seed u k hk _ _).1 fun seedB log hrun0 _ => ?_
  have hlog := (followsAt_seed F seed u k hk .passphraseError "Invalid intermediate passphrase").2 seedB log hrun0
  subst hlog
  refine FollowsAt.bind (l := []) (followsAt_try F log code _ _).1 fun dec log' hrun hok => ?_
  have hb := hbad dec ((checkDecode_iff hP _ _ _).mp (of_checkDecodeOr hok))
  refine FollowsAt.lift_bind fun _ hl => FollowsAt.lift_bind fun pt ht => FollowsAt.lift_bind fun flag hf => ?_
  exfalso
  refine hb ⟨not_not.mp (passed hl), ?_, ?_⟩
  · unfold publicKeyTypeOf at ht
    split at ht
    · exact Or.inl ‹_›
    · split at ht
      · exact Or.inr ‹_›
      · cases ht
  · unfold newFlag at hf
    rw [py_bind c_magicLot, py_bind c_magicNo] at hf
    by_cases h1 : dec.take 8 = magicBytes true
    · exact ⟨_, h1⟩
    · by_cases h2 : dec.take 8 = magicBytes false
      · exact ⟨_, h2⟩
      · rw [if_neg h1, if_neg h2] at hf
        cases hf

/-- C80: `intermediate_code` with a salt of a wrong length calls no external function, and with numbers out of range computes no
`scrypt`. -/
theorem C80_intermediate_bad (pass : Str) (lot sequence : Option Int) (salt : Data) (u : Bytes) (F : Faults) :
    (salt.truthy → (∀ b, getBytes salt = .ok b → b.length ≠ 4 ∧ b.length ≠ 8) →
      (intermediateCodeX P pass lot sequence salt u F []).2 = []) ∧
    (∀ l q : Int, lot = some l → sequence = some q → l ≠ 0 → q ≠ 0 → ¬ (100000 ≤ l ∧ l ≤ 999999 ∧ 0 ≤ q ∧ q ≤ 4095) →
      work (intermediateCodeX P pass lot sequence salt u F []).2 <+: if salt.truthy then [] else [.random 8]) := by
  constructor
  · intro ht hbad
    refine (show Silent (intermediateCodeX P pass lot sequence salt u) from ?_) F []
    unfold intermediateCodeX bytesOrRandomX
    rw [if_pos ht]
    refine Silent.lift_bind fun b hb => Silent.lift_bind fun _ hl => ?_
    have := passed hl
    have h2 := hbad b hb
    simp [h2] at this
  · rintro l q rfl rfl hl hq hbad
    refine (FollowsAt.whole (s := fun _ e => e) (p := intermediateCode P pass (some l) (some q) salt u)
      (l := if salt.truthy then [] else [.random 8]) ?_).2.1
    refine (show Follows (fun _ e => e) 0 _ _ _ from ?_) F [] (Nat.le_refl _)
    unfold intermediateCodeX intermediateCode
    rw [← List.append_nil (if salt.truthy then [] else [Work.random 8])]
    refine Follows.bind (follows_random (plain_id 0) _ _ _) fun saltB _ => ?_
    refine Follows.lift fun _ _ => Follows.lift fun _ _ => Follows.lift fun _ _ => ?_
    have h : (truthyInt (some l) : Prop) ∧ (truthyInt (some q) : Prop) := by simp [truthyInt, hl, hq]
    simp only [if_pos h]
    refine Follows.bind0 ?_ ?_
    · refine Follows.lift fun _ h1 => Follows.lift fun _ h2 => ?_
      exact absurd ⟨(not_not.mp (passed h1)).1, (not_not.mp (passed h1)).2, not_not.mp (passed h2)⟩ hbad
    · rintro ⟨a, b, c⟩ h
      obtain ⟨_, h1, h⟩ := of_ok_bind h
      obtain ⟨_, h2, h⟩ := of_ok_bind h
      exact absurd ⟨(not_not.mp (passed h1)).1, (not_not.mp (passed h1)).2, not_not.mp (passed h2)⟩ hbad

/-- C80: a guess at the passphrase of an encrypted key without EC multiplication.  Whatever the passphrase and whatever the outcome, the
first two calls normalise this passphrase and stretch it with the address hash of the record, and that is all the work there is. -/
theorem C80_guess_noEc (hs : Selects obj network c n v) (e pass : Str) (detail : Bool) (rec : Bytes) (hd : b58decode e = .ok rec)
    (hk : KnownForm rec) (hp : rec.take 2 = [0x01, 0x42]) (F : Faults) (r : Py DecryptOut) (log : List Request)
    (h : obj.decryptX P e pass network detail F [] = (r, log)) (hq : Quiet F 0 log) :
    [Request.normalize pass, .scrypt (utf8 (P.nfc pass)) ((rec.drop 3).take 4) 16384 8 8 64] <+: log ∧ work log = [.scrypt 16384 8 8] := by
  have hpre : [Request.normalize pass, .scrypt (utf8 (P.nfc pass)) ((rec.drop 3).take 4) 16384 8 8 64] <+: log := by
    have third : slice 2 3 rec = [rec.getD 2 0] := by
      match rec, hk.1 with
      | a :: b :: x :: r, _ => simp [slice]
    have hflag : rec.getD 2 0 = 0xc0 ∨ rec.getD 2 0 = 0xe0 := by
      rcases hk.2 with h | h
      · exact h.2
      · rw [hp] at h
        exact absurd h (by decide)
    have hE : obj.decryptX P e pass network detail F [] = obj.decryptNoEcX P rec pass n detail F [] := by
      unfold BIP38.decryptX
      rw [hs.select]
      simp only
      rw [x_lift (not_raise (not_not.mpr hs.mem)), x_lift hd, x_lift (not_raise (not_not.mpr hk.1)), x_lift c_noEc, x_lift c_ec, if_pos hp]
    rw [hE] at h
    unfold BIP38.decryptNoEcX at h
    simp only at h
    rw [x_lift c_flagU, x_lift c_flagC, third] at h
    have hsl : slice 3 7 rec = (rec.drop 3).take 4 := by
      unfold slice
      simp [List.drop_take]
    rcases hflag with hf | hf
    · rw [hf, if_pos rfl, x_lift rfl, hsl] at h
      refine x_passphrase (f := _) pass _ 64 (fun a => ?_) F [] log (congrArg Prod.snd h) hq
      grows
    · rw [hf, if_neg (by decide), if_pos rfl, x_lift rfl, hsl] at h
      refine x_passphrase (f := _) pass _ 64 (fun a => ?_) F [] log (congrArg Prod.snd h) hq
      grows
  refine ⟨hpre, ?_⟩
  obtain ⟨more, rfl⟩ := hpre
  have := ((C80_decrypt obj e pass network detail F r _ h rec hd).1 hp).1
  rw [work_append] at this ⊢
  obtain ⟨k, hk⟩ := this
  have hk' : Work.scrypt 16384 8 8 :: (work more ++ k) = [.scrypt 16384 8 8] := hk
  rw [(List.append_eq_nil_iff.mp (List.cons.inj hk').2).1]
  rfl

/-- C80: a guess at the passphrase of an encrypted key with EC multiplication: the first two calls normalise this passphrase and stretch
it with the owner salt of the record. -/
theorem C80_guess_ec (hs : Selects obj network c n v) (e pass : Str) (detail : Bool) (rec : Bytes) (hd : b58decode e = .ok rec)
    (hl : rec.length = 43) (hp : rec.take 2 = [0x01, 0x43]) (F : Faults) (r : Py DecryptOut) (log : List Request)
    (h : obj.decryptX P e pass network detail F [] = (r, log)) (hq : Quiet F 0 log) :
    [Request.normalize pass, .scrypt (utf8 (P.nfc pass)) ((rec.drop 7).take (if hasLot (rec.getD 2 0) then 4 else 8)) 16384 8 8 32] <+: log := by
  have third : slice 2 3 rec = [rec.getD 2 0] := by
    match rec, hl with
    | a :: b :: x :: r, _ => simp [slice]
  have hsl : slice 7 15 rec = (rec.drop 7).take 8 := by
    unfold slice
    simp [List.drop_take]
  have hE : obj.decryptX P e pass network detail F [] = obj.decryptEcX P rec pass n detail F [] := by
    unfold BIP38.decryptX
    rw [hs.select]
    simp only
    rw [x_lift (not_raise (not_not.mpr hs.mem)), x_lift hd, x_lift (not_raise (not_not.mpr hl)), x_lift c_noEc, x_lift c_ec,
      if_neg (by rw [hp]; decide), if_pos hp]
  rw [hE] at h
  unfold BIP38.decryptEcX at h
  simp only [third, hsl, splitEntropy_eq] at h
  by_cases hf : hasLot (rec.getD 2 0)
  · simp only [if_pos hf] at h ⊢
    rw [List.take_take] at h
    refine x_passFactor pass _ _ _ (fun a => ?_) F [] log (congrArg Prod.snd h) hq
    grows
  · simp only [if_neg hf] at h ⊢
    refine x_passFactor pass _ _ _ (fun a => ?_) F [] log (congrArg Prod.snd h) hq
    grows

/-- C80: the same for a confirmation code, after the two hashes of its checksum. -/
theorem C80_guess_confirm (hP : P.Lawful) (hs : Selects obj network c n v) (pass code : Str) (detail : Bool) (raw : Bytes)
    (hd : b58decode code = .ok (raw ++ checksum P raw)) (hl : raw.length = 51) (hp : raw.take 5 = [0x64, 0x3b, 0xf6, 0xa8, 0x9a])
    (F : Faults) (r : Py ConfirmOut) (log : List Request) (h : obj.confirmX P pass code network detail F [] = (r, log)) (hq : Quiet F 0 log) :
    [Request.normalize pass, .scrypt (utf8 (P.nfc pass)) ((raw.drop 10).take (if hasLot (raw.getD 5 0) then 4 else 8)) 16384 8 8 32]
      <+: log.drop 2 := by
  have third : slice 5 6 raw = [raw.getD 5 0] := by
    match raw, hl with
    | _ :: _ :: _ :: _ :: _ :: x :: r, _ => simp [slice]
  have hsl : slice 10 18 raw = (raw.drop 10).take 8 := by
    unfold slice
    simp [List.drop_take]
  have hok := checkDecodeOr_ok code raw .error "Invalid confirmation code" ((checkDecode_iff hP _ _ _).mpr hd)
  unfold BIP38.confirmX at h
  rw [hs.select] at h
  simp only at h
  rw [x_lift (not_raise (not_not.mpr hs.mem))] at h
  have htry := followsAt_try (P := P) F [] code .error "Invalid confirmation code"
  obtain ⟨log', new, h1, rfl, h2⟩ := x_quiet htry.1 hok (fun a => by grows) h hq
  have hlen : log'.length = 2 := htry.2 raw log' h1
  rw [List.drop_left' hlen]
  have hq' : Quiet F log'.length new := by
    have := ((quiet_append _ _ _ _).mp hq).2
    rwa [Nat.zero_add] at this
  rw [x_lift (not_raise (not_not.mpr hl)), x_lift c_conf] at h2
  simp only [third, hsl, splitEntropy_eq] at h2
  rw [x_lift (not_raise (q := [0x64, 0x3b, 0xf6, 0xa8, 0x9a] ≠ raw.take ([0x64, 0x3b, 0xf6, 0xa8, 0x9a] : Bytes).length)
    (not_not.mpr hp.symm))] at h2
  by_cases hf : hasLot (raw.getD 5 0)
  · simp only [if_pos hf] at h2 ⊢
    rw [List.take_take] at h2
    refine x_passFactor pass _ _ _ (fun a => ?_) F log' new (congrArg Prod.snd h2) hq'
    grows
  · simp only [if_neg hf] at h2 ⊢
    refine x_passFactor pass _ _ _ (fun a => ?_) F log' new (congrArg Prod.snd h2) hq'
    grows

/-! ## Cases -/

/-- `scrypt` runs out of memory. -/
def outOfMemory : Faults := fun _ q =>
  match q with
  | .scrypt .. => some ⟨.other "MemoryError", ""⟩
  | _ => none

/-- OpenSSL 3: RIPEMD-160 is listed and refused. -/
def noRipemd : Faults := fun _ q =>
  match q with
  | .ripemd160 _ => some ⟨.valueError, "unsupported hash type ripemd160"⟩
  | _ => none

/-- SHA-256 raises `ValueError` at the first request. -/
def firstFails : Faults := fun i _ => if i = 0 then some ⟨.valueError, "unsupported hash type sha256"⟩ else none

/-- Cases of C79 and C80.  `encrypt` of a good WIF: `MemoryError` at the eighth request, which is `scrypt`; with a refused RIPEMD-160 the
`ValueError` at the second; with no fault a result and one `scrypt`. -/
example : WifLike (b58encode ([0x80] ++ List.replicate 32 1 ++ [0, 0, 0, 0])) ⟨0x80, 0⟩ (List.replicate 32 1) "wif" ∧ IsPrivateKey (List.replicate 32 1) ∧
    (let run := fun F => bitcoinObject.encryptX (toy 1 0xff) (b58encode ([0x80] ++ List.replicate 32 1 ++ [0, 0, 0, 0])) "x".toList none F []
     (run outOfMemory).1 = .error ⟨.other "MemoryError", ""⟩ ∧ (run outOfMemory).2.length = 8 ∧ work (run outOfMemory).2 = [.scrypt 16384 8 8] ∧
     (run noRipemd).1 = .error ⟨.valueError, "unsupported hash type ripemd160"⟩ ∧ (run noRipemd).2.length = 2 ∧
     (run fun _ _ => none).1.isOk ∧ work (run fun _ _ => none).2 = [.scrypt 16384 8 8]) := by
  refine ⟨⟨by simp, [0, 0, 0, 0], rfl, Or.inl ⟨rfl, by rw [prefixBytes_byte _ (by decide)]; exact C01_decode_encode_bitcoin _⟩⟩,
    ⟨by simp, by decide +kernel, by decide +kernel⟩, ?_⟩
  decide +kernel

/-- A `ValueError` of SHA-256 while the checksum of a good confirmation code is verified: the code is called invalid.  Without the fault
the same call gets to the passphrase, and its work is that of C80. -/
example : let code := checkEncode (toy 1 0xff).sha256 ([0x64, 0x3b, 0xf6, 0xa8, 0x9a] ++ List.replicate 46 1)
    let run := fun F => bitcoinObject.confirmX (toy 1 0xff) "x".toList code none false F []
    run firstFails = (.error ⟨.error, "Invalid confirmation code"⟩, [.sha256 ([0x64, 0x3b, 0xf6, 0xa8, 0x9a] ++ List.replicate 46 1)]) ∧
    (run fun _ _ => none).1 = .error ⟨.error, "Invalid EC encrypted WIF (Wallet Import Format)"⟩ ∧
    work (run fun _ _ => none).2 = [.scrypt 16384 8 8] := by
  decide +kernel

end Bip38.Props
