import Verif.Model.Bip38Any
import Verif.Props.AnyKind
import Verif.Props.Messages
/-!
# Property C73: the methods on arguments of any kind

`NotText d`: the argument `d` is no text (bytes, `None`, any other object).
-/
namespace Bip38.Props
open Bip38 Spec

variable {P : Prims} {obj : BIP38} {network : Option String} {c : Coin} {n : String} {v : Net}

/-- The argument is no text. -/
def NotText (d : Data) : Prop := ∀ s, d ≠ .str s

/-- C73: on texts the methods are the ones described by the other properties. -/
theorem C73_text (obj : BIP38) (w pass : Str) (type : String) (seed : Data) (u : Bytes) (lot sequence : Option Int) (detail : Bool) (prefix_ : Int) (alphabet : Str) :
    obj.encryptAny P (.str w) (.str pass) network = obj.encrypt P w pass network ∧
    obj.decryptAny P (.str w) (.str pass) network detail = obj.decrypt P w pass network detail ∧
    obj.confirmAny P (.str pass) (.str w) network detail = obj.confirmCode P pass w network detail ∧
    obj.createAny P (.str w) type seed network u = obj.createNewEncryptedWif P w type seed network u ∧
    intermediateCodeAny P (.str pass) lot sequence seed u = intermediateCode P pass lot sequence seed u ∧
    decodeWifAny (.str w) prefix_ = decodeWif w prefix_ ∧
    p2pkhDecodeAny P (.str w) prefix_ alphabet = p2pkhDecode P w prefix_ alphabet := ⟨rfl, rfl, rfl, rfl, rfl, rfl, rfl⟩

/-! ## What is no text cannot be encrypted, decrypted, confirmed, decoded -/

/-- C73: on a network of the object, an encrypted WIF, WIF or confirmation code that is no text raises `TypeError`, whatever the
passphrase is. -/
theorem C73_no_text (hs : Selects obj network c n v) (d pass : Data) (hd : NotText d) (detail : Bool) :
    (∃ x, obj.encryptAny P d pass network = .error x ∧ x.cls = .typeError) ∧
    (∃ x, obj.decryptAny P d pass network detail = .error x ∧ x.cls = .typeError) ∧
    (∃ x, obj.confirmAny P pass d network detail = .error x ∧ x.cls = .typeError) := by
  have h1 : ∃ x, b58decodeAny d = .error x ∧ x.cls = .typeError := by
    cases d with
    | str s => exact absurd rfl (hd s)
    | _ => exact ⟨_, rfl, rfl⟩
  have h2 : ∃ x, checkDecodeAny P.sha256 d = .error x ∧ x.cls = .typeError := by
    obtain ⟨x, hx, hc⟩ := h1
    exact ⟨x, by unfold checkDecodeAny; rw [py_bind_err hx], hc⟩
  obtain ⟨x, hx, hxc⟩ := h1
  obtain ⟨y, hy, hyc⟩ := h2
  refine ⟨⟨x, ?_, hxc⟩, ⟨x, ?_, hxc⟩, ⟨y, ?_, hyc⟩⟩
  · unfold BIP38.encryptAny
    split
    · exact absurd rfl (hd _)
    · exact absurd rfl (hd _)
    · rw [hs.select]
      simp only
      rw [hs.coin, py_bind (not_raise (not_not.mpr hs.mem)), py_bind (lookupNet_ok hs.net), py_bind_err hx]
  · unfold BIP38.decryptAny
    split
    · exact absurd rfl (hd _)
    · exact absurd rfl (hd _)
    · rw [hs.select]
      simp only
      rw [py_bind (not_raise (not_not.mpr hs.mem)), py_bind_err hx]
  · unfold BIP38.confirmAny
    split
    · exact absurd rfl (hd _)
    · exact absurd rfl (hd _)
    · rw [hs.select]
      simp only
      rw [py_bind (not_raise (not_not.mpr hs.mem)), hy]
      simp [hyc, ExcClass.isValueError]

/-- C73: an intermediate passphrase that is no text raises `TypeError` too, if the seed can be read; if not, the error is the one which
the seed causes for every text. -/
theorem C73_create (hs : Selects obj network c n v) (d : Data) (hd : NotText d) (type : String) (seed : Data) (u : Bytes) :
    ((∃ b, Supplies seed u b) → ∃ x, obj.createAny P d type seed network u = .error x ∧ x.cls = .typeError) ∧
    ((¬ ∃ b, Supplies seed u b) → ∃ x, ∀ it, obj.createAny P d type seed network u = .error x
      ∧ obj.createNewEncryptedWif P it type seed network u = .error x) := by
  have h1 : ∃ x, checkDecodeAny P.sha256 d = .error x ∧ x.cls = .typeError := by
    cases d with
    | str s => exact absurd rfl (hd s)
    | _ => exact ⟨_, rfl, rfl⟩
  obtain ⟨y, hy, hyc⟩ := h1
  constructor
  · rintro ⟨b, hb⟩
    refine ⟨y, ?_, hyc⟩
    unfold BIP38.createAny
    split
    · exact absurd rfl (hd _)
    · rw [hs.select]
      simp only
      rw [py_bind (not_raise (not_not.mpr hs.mem)), py_bind hb.ok, hy]
      simp [hyc, ExcClass.isValueError]
  · intro h
    obtain ⟨x, hx, _⟩ := unreadable seed u h
    refine ⟨x, fun it => ⟨?_, ?_⟩⟩
    · unfold BIP38.createAny
      split
      · exact absurd rfl (hd _)
      · rw [hs.select]
        simp only
        rw [py_bind (not_raise (not_not.mpr hs.mem)), py_bind_err hx]
    · unfold BIP38.createNewEncryptedWif
      rw [hs.select]
      simp only
      rw [py_bind (not_raise (not_not.mpr hs.mem)), py_bind_err hx]

/-- C73: `decode_wif` and `P2PKHAddress.decode` refuse what is no text with `TypeError`. -/
theorem C73_decode (d : Data) (hd : NotText d) (number : Nat) (alphabet : Str) :
    (∃ x, decodeWifAny d number = .error x ∧ x.cls = .typeError) ∧
    (∃ x, p2pkhDecodeAny P d number alphabet = .error x ∧ x.cls = .typeError) := by
  cases d with
  | str s => exact absurd rfl (hd s)
  | _ =>
    refine ⟨⟨_, rfl, rfl⟩, ?_⟩
    unfold p2pkhDecodeAny
    simp only
    rw [py_bind (integerToBytes_prefix number)]
    exact ⟨_, rfl, rfl⟩

/-! ## What is no text is no passphrase -/

/-- The statements of `encrypt` before the passphrase is used. -/
theorem encryptAny_eq (w : Str) (d : Data) (hd : NotText d) : obj.encryptAny P (.str w) d network = (do
    let network := obj.selectNetwork network
    raiseIf (network ∉ obj.networks) .networkError (wrongNetwork obj.networks)
    let wifType ← getWifType w obj.cryptocurrency network
    let privateKey ← PrivateKey.fromBytes (← getBytes (.str (← wifToPrivateKey w obj.cryptocurrency network)))
    let net ← lookupNet obj.cryptocurrency network
    let address ← p2pkhEncode P (.key privateKey.publicKey) net.addressPrefix (if wifType = "wif" then "uncompressed" else "compressed")
    let _ ← getChecksum P (.bytes (← getBytes (.str address) (unhexlify := false)))
    normalizeFails) := by
  cases d with
  | str s => exact absurd rfl (hd s)
  | _ => rfl

/-- C73: `encrypt` with a passphrase that is no text. For a WIF of the network holding a private key: `TypeError`; for every other text
the result is the one with any passphrase whatsoever. -/
theorem C73_encrypt_passphrase (hs : Selects obj network c n v) (w : Str) (d : Data) (hd : NotText d) :
    (∀ key type, WifLike w v key type → IsPrivateKey key → ∃ x, obj.encryptAny P (.str w) d network = .error x ∧ x.cls = .typeError) ∧
    ((∀ key type, WifLike w v key type → ¬ IsPrivateKey key) → ∀ pass, obj.encryptAny P (.str w) d network = obj.encrypt P w pass network) := by
  rw [encryptAny_eq w d hd]
  constructor
  · intro key type hw hk
    obtain ⟨hkw, ht, hty⟩ := wifLike_reads hs w key type hw
    obtain ⟨pk, hpk, hv, hpriv⟩ := priv_ok key hk
    have he : (if type = "wif" then "uncompressed" else "compressed") = pubType type := by
      rcases hty with rfl | rfl <;> rfl
    rw [hs.select]
    simp only
    rw [hs.coin, py_bind (not_raise (not_not.mpr hs.mem)), py_bind ht, py_bind hkw, py_bind (getBytes_hex key), py_bind hpriv,
      py_bind (lookupNet_ok hs.net), he, show PrivateKey.publicKey ⟨be key, pk⟩ = pk from rfl, p2pkh_text, py_bind rfl,
      py_bind (getBytes_text _), py_bind (getChecksum_bytes _)]
    exact ⟨_, rfl, rfl⟩
  · intro h pass
    cases hd : decodeWif w v.wifPrefix with
    | error x =>
      have ht : getWifType w c n = .error x := by
        unfold getWifType; rw [lookupNet_ok hs.net, py_bind rfl, py_bind_err hd]
      unfold BIP38.encrypt
      rw [hs.select]
      simp only
      rw [hs.coin, py_bind (not_raise (not_not.mpr hs.mem)), py_bind_err ht, py_bind (not_raise (not_not.mpr hs.mem)), py_bind_err ht]
    | ok r =>
      obtain ⟨key, type, chk⟩ := r
      have hw := (wifLike_iff v w key type).mpr ⟨chk, hd⟩
      have hnp := h key type hw
      obtain ⟨hk, ht, hty⟩ := wifLike_reads hs w key type hw
      rw [isPrivateKey_iff] at hnp
      have hpriv := privFromBytes_error key hnp
      unfold BIP38.encrypt
      rw [hs.select]
      simp only
      rw [hs.coin, py_bind (not_raise (not_not.mpr hs.mem)), py_bind ht, py_bind hk, py_bind (getBytes_hex key), py_bind_err hpriv,
        py_bind (not_raise (not_not.mpr hs.mem)), py_bind ht]
      rcases hty with rfl | rfl
      · rw [if_pos rfl, py_bind c_flagU, py_bind hk, py_bind (getBytes_hex key), py_bind_err hpriv]
      · rw [if_neg (by decide), py_bind c_flagC, py_bind hk, py_bind (getBytes_hex key), py_bind_err hpriv]

/-- The statements of `decrypt` before the passphrase is used. -/
theorem decryptAny_eq (e : Str) (d : Data) (hd : NotText d) (detail : Bool) : obj.decryptAny P (.str e) d network detail = (do
    let network := obj.selectNetwork network
    raiseIf (network ∉ obj.networks) .networkError (wrongNetwork obj.networks)
    let decoded ← b58decode e
    raiseIf (decoded.length ≠ 43) .wifError
      (errText "Invalid encrypted WIF length" (.one true "43".toList) (toString decoded.length))
    let pre := decoded.take 2
    let noEcPrefix ← integerToBytes NO_EC_MULTIPLIED_PRIVATE_KEY_PREFIX
    let ecPrefix ← integerToBytes EC_MULTIPLIED_PRIVATE_KEY_PREFIX
    if pre = noEcPrefix then do
      let flag := slice 2 3 decoded
      let flagU ← integerToBytes NO_EC_MULTIPLIED_WIF_FLAG
      let flagC ← integerToBytes NO_EC_MULTIPLIED_WIF_COMPRESSED_FLAG
      raiseIf (flag ≠ flagU ∧ flag ≠ flagC) .error
        (errText "Invalid flag" (.list [hexText flagU, hexText flagC]) (String.ofList (hexText flag)))
      normalizeFails
    else if pre = ecPrefix then normalizeFails
    else raise .error (errText "Invalid prefix" (.list [hexText noEcPrefix, hexText ecPrefix]) (String.ofList (hexText pre)))) := by
  cases d with
  | str s => exact absurd rfl (hd s)
  | _ => rfl

/-- A decoded encrypted key of a known form: 43 bytes that start with `01 42 c0`, `01 42 e0` or `01 43`. -/
def KnownForm (rec : Bytes) : Prop :=
  rec.length = 43 ∧ ((rec.take 2 = [0x01, 0x42] ∧ (rec.getD 2 0 = 0xc0 ∨ rec.getD 2 0 = 0xe0)) ∨ rec.take 2 = [0x01, 0x43])

/-- C73: `decrypt` with a passphrase that is no text. `TypeError` for text that decodes to a known form; for every other text the result is
the one with any passphrase whatsoever. -/
theorem C73_decrypt_passphrase (hs : Selects obj network c n v) (e : Str) (d : Data) (hd : NotText d) (detail : Bool) :
    (∀ rec, b58decode e = .ok rec → KnownForm rec → ∃ x, obj.decryptAny P (.str e) d network detail = .error x ∧ x.cls = .typeError) ∧
    ((∀ rec, b58decode e = .ok rec → ¬ KnownForm rec) → ∀ pass, obj.decryptAny P (.str e) d network detail = obj.decrypt P e pass network detail) := by
  have third : ∀ rec : Bytes, rec.length = 43 → slice 2 3 rec = [rec.getD 2 0] := by
    intro rec hl
    match rec, hl with
    | a :: b :: x :: r, _ => simp [slice]
  rw [decryptAny_eq e d hd detail]
  constructor
  · rintro rec he ⟨hl, hf⟩
    rw [hs.select]
    simp only
    rw [py_bind (not_raise (not_not.mpr hs.mem)), py_bind he, py_bind (not_raise (not_not.mpr hl)), py_bind c_noEc, py_bind c_ec]
    rcases hf with ⟨hp, hf⟩ | hp
    · rw [if_pos hp, third rec hl, py_bind c_flagU, py_bind c_flagC, py_bind (not_raise (by rcases hf with h | h <;> rw [h] <;> decide))]
      exact ⟨_, rfl, rfl⟩
    · rw [if_neg (by rw [hp]; decide), if_pos hp]
      exact ⟨_, rfl, rfl⟩
  · intro h pass
    unfold BIP38.decrypt
    rw [hs.select]
    simp only
    rw [py_bind (not_raise (not_not.mpr hs.mem)), py_bind (not_raise (not_not.mpr hs.mem))]
    cases he : b58decode e with
    | error x => rfl
    | ok rec =>
      rw [py_bind rfl, py_bind rfl]
      by_cases hl : rec.length ≠ 43
      · rw [py_bind_err (do_raise hl), py_bind_err (do_raise hl)]
      · rw [py_bind (not_raise hl), py_bind (not_raise hl), py_bind c_noEc, py_bind c_ec, py_bind c_noEc, py_bind c_ec]
        have hl := not_not.mp hl
        have hk := h rec he
        by_cases h1 : rec.take 2 = [0x01, 0x42]
        · have hf : ¬ (rec.getD 2 0 = 0xc0 ∨ rec.getD 2 0 = 0xe0) := fun hf => hk ⟨hl, Or.inl ⟨h1, hf⟩⟩
          push Not at hf
          rw [if_pos h1, if_pos h1]
          unfold BIP38.decryptNoEc
          simp only
          have n1 : ¬ ([rec.getD 2 0] = [0xc0]) := by simpa using hf.1
          have n2 : ¬ ([rec.getD 2 0] = [0xe0]) := by simpa using hf.2
          rw [third rec hl, py_bind c_flagU, py_bind c_flagC, py_bind_err (do_raise ⟨n1, n2⟩), py_bind c_flagU, py_bind c_flagC]
          simp only [n1, n2, if_false]
          rfl
        · have h2 : rec.take 2 ≠ [0x01, 0x43] := fun h2 => hk ⟨hl, Or.inr h2⟩
          rw [if_neg h1, if_neg h2, if_neg h1, if_neg h2]

/-- The statements of `confirm_code` before the passphrase is used. -/
theorem confirmAny_eq (code : Str) (d : Data) (hd : NotText d) (detail : Bool) : obj.confirmAny P d (.str code) network detail = (do
    let network := obj.selectNetwork network
    raiseIf (network ∉ obj.networks) .networkError (wrongNetwork obj.networks)
    let decoded ← checkDecodeOr P code .error "Invalid confirmation code"
    raiseIf (decoded.length ≠ 51) .error
      (errText "Invalid confirmation code length" (.one true "102".toList) (toString decoded.length))
    let confPrefix ← integerToBytes CONFIRMATION_CODE_PREFIX
    let prefixLength := confPrefix.length
    let prefixGot := decoded.take prefixLength
    raiseIf (confPrefix ≠ prefixGot) .error
      (errText "Invalid confirmation code prefix" (.one true (toString prefixLength).toList) (String.ofList (bytesRepr prefixGot)))
    normalizeFails) := by
  cases d with
  | str s => exact absurd rfl (hd s)
  | _ => rfl

/-- C73: `confirm_code` with a passphrase that is no text. `TypeError` for a code whose checksum, length and prefix are right; for every
other text the result is the one with any passphrase whatsoever. -/
theorem C73_confirm_passphrase (hP : P.Lawful) (hs : Selects obj network c n v) (code : Str) (d : Data) (hd : NotText d) (detail : Bool) :
    (∀ raw, b58decode code = .ok (raw ++ checksum P raw) → raw.length = 51 → raw.take 5 = [0x64, 0x3b, 0xf6, 0xa8, 0x9a] →
      ∃ x, obj.confirmAny P d (.str code) network detail = .error x ∧ x.cls = .typeError) ∧
    ((∀ raw, b58decode code = .ok (raw ++ checksum P raw) → raw.length = 51 → raw.take 5 ≠ [0x64, 0x3b, 0xf6, 0xa8, 0x9a]) →
      ∀ pass, obj.confirmAny P d (.str code) network detail = obj.confirmCode P pass code network detail) := by
  rw [confirmAny_eq code d hd detail]
  constructor
  · intro raw h hl hp
    have hd := (checkDecode_iff hP _ _ _).mpr h
    rw [hs.select]
    simp only
    rw [py_bind (not_raise (not_not.mpr hs.mem)), py_bind (checkDecodeOr_ok _ _ _ _ hd), py_bind (not_raise (not_not.mpr hl)),
      py_bind c_conf, py_bind (not_raise (not_not.mpr (by exact hp.symm)))]
    exact ⟨_, rfl, rfl⟩
  · intro h pass
    unfold BIP38.confirmCode
    rw [hs.select]
    simp only
    rw [py_bind (not_raise (not_not.mpr hs.mem)), py_bind (not_raise (not_not.mpr hs.mem))]
    cases hd : checkDecode P.sha256 code with
    | error x =>
      have hx := C03_check_decode_error P.sha256 _ bitcoinAlphabet_valid _ _ hd
      rw [py_bind_err (checkDecodeOr_error _ _ _ _ hd hx), py_bind_err (checkDecodeOr_error _ _ _ _ hd hx)]
    | ok raw =>
      rw [py_bind (checkDecodeOr_ok _ _ _ _ hd), py_bind (checkDecodeOr_ok _ _ _ _ hd)]
      by_cases hl : raw.length ≠ 51
      · rw [py_bind_err (do_raise hl), py_bind_err (do_raise hl)]
      · have hp := h raw ((checkDecode_iff hP _ _ _).mp hd) (not_not.mp hl)
        rw [py_bind (not_raise hl), py_bind (not_raise hl), py_bind c_conf, py_bind c_conf,
          py_bind_err (do_raise (by exact fun h => hp h.symm)), py_bind_err (do_raise (by exact fun h => hp h.symm))]

/-- C73: `intermediate_code` with a passphrase that is no text. `TypeError` for a readable salt and numbers that get through the
validation; otherwise the result is the one with any passphrase whatsoever. -/
theorem C73_intermediate_passphrase (d : Data) (hd : NotText d) (lot sequence : Option Int) (salt : Data) (u : Bytes) :
    (∀ b, Supplies salt u b → Accepted lot sequence b.length →
      ∃ x, intermediateCodeAny P d lot sequence salt u = .error x ∧ x.cls = .typeError) ∧
    ((∀ b, Supplies salt u b → ¬ Accepted lot sequence b.length) →
      ∀ pass, intermediateCodeAny P d lot sequence salt u = intermediateCode P pass lot sequence salt u) := by
  have hE : intermediateCodeAny P d lot sequence salt u = (do
      let ownerSalt ← bytesOrRandom salt u
      raiseIf (ownerSalt.length ∉ [4, 8]) .error
        (errText "Invalid owner salt length" (.list ["8".toList, "16".toList]) (toString (hexText ownerSalt).length))
      raiseIf (ownerSalt.length = 4 ∧ (lot = none ∨ sequence = none)) .error
        (errText "Invalid owner salt length for non lot/sequence" (.one true "16".toList) (toString (hexText ownerSalt).length))
      raiseIf ((truthyInt lot ∧ sequence = none) ∨ (lot = none ∧ truthyInt sequence)) .error
        (errText "Both lot & sequence are required" (detail := some ("got: (lot " ++ pyInt lot ++ ") & (sequence " ++ pyInt sequence ++ ")")))
      raiseIf ((truthyInt lot ∧ truthyInt sequence) ∧ ¬ (100000 ≤ lot.getD 0 ∧ lot.getD 0 ≤ 999999)) .error
        (errText "Invalid lot" (.one true "100000 <= lot <= 999999".toList) (toString (lot.getD 0)))
      raiseIf ((truthyInt lot ∧ truthyInt sequence) ∧ ¬ (0 ≤ sequence.getD 0 ∧ sequence.getD 0 ≤ 4095)) .error
        (errText "Invalid sequence" (.one true "0 <= sequence <= 4095".toList) (toString (sequence.getD 0)))
      normalizeFails) := by
    cases d with
    | str s => exact absurd rfl (hd s)
    | _ => rfl
  have t0 : ∀ l : Int, truthyInt (some l) = true ↔ l ≠ 0 := fun l => by simp [truthyInt]
  have tn : truthyInt none = false := rfl
  rw [hE]
  constructor
  · intro b hb ha
    have key : (b.length = 4 ∨ b.length = 8) ∧ ¬ (b.length = 4 ∧ (lot = none ∨ sequence = none)) ∧
        ¬ ((truthyInt lot = true ∧ sequence = none) ∨ (lot = none ∧ truthyInt sequence = true)) ∧
        ¬ ((truthyInt lot = true ∧ truthyInt sequence = true) ∧ ¬ (100000 ≤ lot.getD 0 ∧ lot.getD 0 ≤ 999999)) ∧
        ¬ ((truthyInt lot = true ∧ truthyInt sequence = true) ∧ ¬ (0 ≤ sequence.getD 0 ∧ sequence.getD 0 ≤ 4095)) := by
      rcases ha with ⟨h, hl, hq⟩ | ⟨h, l, q, rfl, rfl, hr⟩
      · rcases hl with rfl | rfl <;> rcases hq with rfl | rfl <;> simp [h, truthyInt]
      · simp only [t0, Option.getD_some]
        refine ⟨h, by simp, by simp, ?_, ?_⟩
        · rintro ⟨⟨a, b⟩, h'⟩
          rcases hr with hr | hr | hr
          · exact a hr
          · exact b hr
          · exact h' ⟨hr.1, hr.2.1⟩
        · rintro ⟨⟨a, b⟩, h'⟩
          rcases hr with hr | hr | hr
          · exact a hr
          · exact b hr
          · exact h' hr.2.2
    obtain ⟨k1, k2, k3, k4, k5⟩ := key
    rw [py_bind hb.ok, py_bind (not_raise (by rcases k1 with h | h <;> simp [h])), py_bind (not_raise k2), py_bind (not_raise k3),
      py_bind (not_raise k4), py_bind (not_raise k5)]
    exact ⟨_, rfl, rfl⟩
  · intro h pass
    unfold intermediateCode
    cases hs : bytesOrRandom salt u with
    | error x => rfl
    | ok b =>
      have hna := h b (supplies hs)
      rw [py_bind rfl, py_bind rfl]
      by_cases h1 : b.length ∉ [4, 8]
      · rw [py_bind_err (do_raise h1), py_bind_err (do_raise h1)]
      rw [py_bind (not_raise h1), py_bind (not_raise h1)]
      by_cases h2 : b.length = 4 ∧ (lot = none ∨ sequence = none)
      · rw [py_bind_err (do_raise h2), py_bind_err (do_raise h2)]
      rw [py_bind (not_raise h2), py_bind (not_raise h2)]
      by_cases h3 : (truthyInt lot = true ∧ sequence = none) ∨ (lot = none ∧ truthyInt sequence = true)
      · rw [py_bind_err (do_raise h3), py_bind_err (do_raise h3)]
      rw [py_bind (not_raise h3), py_bind (not_raise h3)]
      have h1' : b.length = 4 ∨ b.length = 8 := by simp at h1; omega
      rcases C69_complete lot sequence b.length with hc | hc | ⟨_, ⟨l, nl, rfl, rfl⟩ | ⟨s, ns, rfl, rfl⟩⟩ | ⟨_, l, s, rfl, rfl, nl, ns, hr⟩ | hc
      · omega
      · exact absurd hc h2
      · exact absurd (Or.inl ⟨(t0 l).mpr nl, rfl⟩) h3
      · exact absurd (Or.inr ⟨rfl, (t0 s).mpr ns⟩) h3
      · have tb : truthyInt (some l) = true ∧ truthyInt (some s) = true := ⟨(t0 l).mpr nl, (t0 s).mpr ns⟩
        rw [if_pos tb]
        simp only [Option.getD_some]
        unfold lotFactor
        rcases hr with hr | ⟨hr, hr'⟩
        · rw [py_bind_err (do_raise ⟨tb, hr⟩), py_bind_err (do_raise hr)]
          rfl
        · rw [py_bind (not_raise (by tauto)), py_bind_err (do_raise ⟨tb, hr'⟩), py_bind (not_raise (not_not.mpr hr)), py_bind_err (do_raise hr')]
          rfl
      · exact absurd hc hna

/-- C73: in particular none of the methods ever returns for a passphrase that is no text: a missing passphrase is not taken for the
empty one, and bytes are not taken for text. -/
theorem C73_never (hP : P.Lawful) (hs : Selects obj network c n v) (d : Data) (hd : NotText d) (w : Data) (detail : Bool)
    (lot sequence : Option Int) (salt : Data) (u : Bytes) :
    (∃ x, obj.encryptAny P w d network = .error x) ∧ (∃ x, obj.decryptAny P w d network detail = .error x) ∧
    (∃ x, obj.confirmAny P d w network detail = .error x) ∧ ∃ x, intermediateCodeAny P d lot sequence salt u = .error x := by
  have hint : ∃ x, intermediateCodeAny P d lot sequence salt u = .error x := by
    obtain ⟨h1, h2⟩ := C73_intermediate_passphrase (P := P) d hd lot sequence salt u
    by_cases hb : ∃ b, Supplies salt u b
    · obtain ⟨b, hb⟩ := hb
      by_cases ha : Accepted lot sequence b.length
      · obtain ⟨x, hx, _⟩ := h1 b hb ha
        exact ⟨x, hx⟩
      · obtain ⟨x, hx, _⟩ := (intermediate_eq (P := P) [] lot sequence salt u b hb _ rfl).1 ha
        refine ⟨x, (h2 ?_ []).trans hx⟩
        intro b' hb'
        have : b' = b := Except.ok.inj (hb'.ok.symm.trans hb.ok)
        rwa [this]
    · obtain ⟨x, hx, _⟩ := unreadable salt u hb
      refine ⟨x, (h2 (fun b h => absurd ⟨b, h⟩ hb) []).trans ?_⟩
      unfold intermediateCode
      rw [py_bind_err hx]
  by_cases hw : ∃ s, w = .str s
  · obtain ⟨w, rfl⟩ := hw
    refine ⟨?_, ?_, ?_, hint⟩
    · obtain ⟨h1, h2⟩ := C73_encrypt_passphrase (P := P) hs w d hd
      by_cases hg : ∀ key type, WifLike w v key type → ¬ IsPrivateKey key
      · obtain ⟨g1, g2, g3, _⟩ := C60_encrypt hP hs w []
        rw [h2 hg []]
        by_cases ha : ∃ ch ∈ w, 128 ≤ ch.toNat
        · obtain ⟨x, hx, _⟩ := g1 ha
          exact ⟨x, hx⟩
        · push Not at ha
          by_cases hl : ∀ key type, ¬ WifLike w v key type
          · exact ⟨_, g2 ha hl⟩
          · push Not at hl
            obtain ⟨key, type, hl⟩ := hl
            exact ⟨_, g3 key type hl (hg key type hl)⟩
      · push Not at hg
        obtain ⟨key, type, hl, hk⟩ := hg
        obtain ⟨x, hx, _⟩ := h1 key type hl hk
        exact ⟨x, hx⟩
    · obtain ⟨h1, h2⟩ := C73_decrypt_passphrase (P := P) hs w d hd detail
      by_cases hg : ∀ rec, b58decode w = .ok rec → ¬ KnownForm rec
      · obtain ⟨g1, g2⟩ := C66_malformed (P := P) hs w [] detail
        rw [h2 hg []]
        cases he : b58decode w with
        | error x =>
          have hx : ∃ ch ∈ w, 128 ≤ ch.toNat := by
            by_contra hn
            push Not at hn
            obtain ⟨_, _, hr, _⟩ := C04_decode_ascii bitcoinAlphabet bitcoinAlphabet_valid w hn
            rw [hr] at he
            simp at he
          obtain ⟨y, hy, _⟩ := g1 hx
          exact ⟨y, hy⟩
        | ok rec =>
          obtain ⟨k1, k2, k3⟩ := g2 rec he
          have hk := hg rec he
          by_cases hl : rec.length = 43
          · by_cases hp : rec.take 2 = [0x01, 0x42]
            · exact ⟨_, k3 hl hp (fun h => hk ⟨hl, Or.inl ⟨hp, Or.inl h⟩⟩) (fun h => hk ⟨hl, Or.inl ⟨hp, Or.inr h⟩⟩)⟩
            · exact ⟨_, k2 hl hp (fun h => hk ⟨hl, Or.inr h⟩)⟩
          · exact ⟨_, k1 hl⟩
      · push Not at hg
        obtain ⟨rec, he, hk⟩ := hg
        obtain ⟨x, hx, _⟩ := h1 rec he hk
        exact ⟨x, hx⟩
    · obtain ⟨h1, h2⟩ := C73_confirm_passphrase hP hs w d hd detail
      by_cases hg : ∀ raw, b58decode w = .ok (raw ++ checksum P raw) → raw.length = 51 → raw.take 5 ≠ [0x64, 0x3b, 0xf6, 0xa8, 0x9a]
      · obtain ⟨g1, g2⟩ := C67_malformed hP hs [] w detail
        rw [h2 hg []]
        by_cases hr : ∃ raw, b58decode w = .ok (raw ++ checksum P raw)
        · obtain ⟨raw, hr⟩ := hr
          by_cases hl : raw.length = 51
          · exact ⟨_, (g2 raw hr).2 hl (hg raw hr hl)⟩
          · exact ⟨_, (g2 raw hr).1 hl⟩
        · exact ⟨_, g1 hr⟩
      · push Not at hg
        obtain ⟨raw, hr, hl, hp⟩ := hg
        obtain ⟨x, hx, _⟩ := h1 raw hr hl hp
        exact ⟨x, hx⟩
  · obtain ⟨⟨x, hx, _⟩, ⟨y, hy, _⟩, ⟨z, hz, _⟩⟩ := C73_no_text (P := P) hs w d (fun s h => hw ⟨s, h⟩) detail
    exact ⟨⟨x, hx⟩, ⟨y, hy⟩, ⟨z, hz⟩, hint⟩

/-- Cases of C73: no passphrase with a WIF of a private key, with an encrypted key, with a confirmation code, with a documented salt; and
arguments that are refused before the passphrase matters. -/
example :
    NotText .none ∧ NotText (.bytes [0x31]) ∧ ¬ NotText (.str []) ∧
    (∃ w key, WifLike w ⟨0x80, 0⟩ key "wif" ∧ IsPrivateKey key) ∧ (∀ key type, ¬ WifLike [] ⟨0x80, 0⟩ key type) ∧
    KnownForm ([0x01, 0x43] ++ List.replicate 41 0) ∧ KnownForm ([0x01, 0x42, 0xe0] ++ List.replicate 40 0) ∧
    ¬ KnownForm ([0x01, 0x42, 0xe1] ++ List.replicate 40 0) ∧
    (∃ code raw, b58decode code = .ok (raw ++ checksum (toy 7 1) raw) ∧ raw.length = 51 ∧ raw.take 5 = [0x64, 0x3b, 0xf6, 0xa8, 0x9a]) ∧
    (Supplies (.bytes [1, 2, 3, 4]) [] [1, 2, 3, 4] ∧ Accepted (some 100000) (some 1) [1, 2, 3, 4].length ∧ ¬ Accepted none none [1, 2, 3, 4].length) := by
  refine ⟨fun s => by simp, fun s => by simp, fun h => h [] rfl, ?_, ?_, ?_, ?_, ?_, ?_, supplies rfl, ?_, ?_⟩
  · exact ⟨b58encode ([0x80] ++ List.replicate 32 1 ++ [0, 0, 0, 0]), List.replicate 32 1,
      ⟨by simp, [0, 0, 0, 0], rfl, Or.inl ⟨rfl, by rw [prefixBytes_byte _ (by decide)]; exact C01_decode_encode_bitcoin _⟩⟩,
      by simp, by decide +kernel, by decide +kernel⟩
  · rintro key type ⟨h1, chk, h2, ⟨_, h⟩ | ⟨_, m, h⟩⟩
    · have h := congrArg List.length (Except.ok.inj ((show b58decode [] = .ok [] by rfl).symm.trans h))
      simp [h1, h2] at h
    · have h := congrArg List.length (Except.ok.inj ((show b58decode [] = .ok [] by rfl).symm.trans h))
      simp [h1, h2] at h
  · exact ⟨rfl, Or.inr rfl⟩
  · exact ⟨rfl, Or.inl ⟨rfl, Or.inr rfl⟩⟩
  · rintro ⟨_, ⟨_, h | h⟩ | h⟩ <;> exact absurd h (by decide)
  · exact ⟨_, [0x64, 0x3b, 0xf6, 0xa8, 0x9a] ++ List.replicate 46 0, C01_decode_encode_bitcoin _, rfl, rfl⟩
  · exact Or.inr ⟨Or.inl rfl, _, _, rfl, rfl, by decide⟩
  · rintro (⟨h, _⟩ | ⟨_, l, s, h, _⟩)
    · simp at h
    · simp at h

/-- The outcome on Bitcoin: `encrypt(wif, None)` is refused although `encrypt(wif, "")` returns. -/
example : ∃ w, (∃ e, bitcoinObject.encrypt (toy 7 1) w [] none = .ok e) ∧
    ∃ x, bitcoinObject.encryptAny (toy 7 1) (.str w) .none none = .error x ∧ x.cls = .typeError := by
  have hk : IsPrivateKey (List.replicate 32 2) := ⟨by simp, by decide +kernel, by decide +kernel⟩
  have hw : WifLike (b58encode ([0x80] ++ List.replicate 32 2 ++ [0, 0, 0, 0])) ⟨0x80, 0⟩ (List.replicate 32 2) "wif" :=
    ⟨by simp, [0, 0, 0, 0], rfl, Or.inl ⟨rfl, by rw [prefixBytes_byte _ (by decide)]; exact C01_decode_encode_bitcoin _⟩⟩
  obtain ⟨pk, hpk, _⟩ := priv_ok _ hk
  refine ⟨_, ?_, (C73_encrypt_passphrase bitcoin_selects _ .none (fun s => by simp)).1 _ _ hw hk⟩
  have := (C60_encrypt (toy_lawful 7 1) bitcoin_selects _ []).2.2.2 _ _ pk _ hw hk hpk rfl
  refine this.2 ?_
  have : stretch (toy 7 1) [] (addressHash (toy 7 1) ⟨0x80, 0⟩ pk (pubType "wif")) 64 = List.replicate 64 1 := rfl
  rw [this]
  decide

end Bip38.Props
