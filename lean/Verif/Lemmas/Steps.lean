import Verif.Spec.Steps
import Verif.Lemmas.External
/-!
# Lemmas on the order of external calls
-/
namespace Bip38
open Spec

variable {P : Prims} {α β : Type}

/-- From every log the new requests follow the plan. -/
def Plan (l : List ExtStep) (m : Ext α) : Prop :=
  ∀ F log, ∃ new, (m F log).2 = log ++ new ∧ Keeps l (m F log).1 new

theorem Plan.whole {l : List ExtStep} {m : Ext α} (h : Plan l m) (F : Faults) : Keeps l (m F []).1 (m F []).2 := by
  obtain ⟨new, h1, h2⟩ := h F []
  rw [h1]
  exact h2

theorem Plan.bind {l l' : List ExtStep} {m : Ext α} {f : α → Ext β} (hm : Plan l m)
    (hf : ∀ a, (∃ F log log', m F log = (.ok a, log')) → Plan l' (f a)) : Plan (l ++ l') (m >>= f) := by
  intro F log
  have hE : (m >>= f) F log = (match m F log with
    | (.ok a, log') => f a F log'
    | (.error e, log') => (.error e, log')) := rfl
  obtain ⟨new, h1, h2, h3⟩ := hm F log
  rcases hr : m F log with ⟨r | a, lg⟩
  · rw [hr] at hE h1
    simp only at h1
    subst h1
    rw [hE]
    exact ⟨new, rfl, h2.trans (List.prefix_append _ _), fun a ha => nomatch ha⟩
  · rw [hr] at hE h1 h3
    simp only at h1
    subst h1
    obtain ⟨new', k1, k2, k3⟩ := hf a ⟨F, log, _, hr⟩ F (log ++ new)
    have hs := h3 a rfl
    have ha : steps (new ++ new') = l ++ steps new' := by simp only [steps, List.map_append] at hs ⊢; rw [hs]
    rw [hE]
    exact ⟨new ++ new', by rw [k1, List.append_assoc], by rw [ha]; exact (List.prefix_append_right_inj _).mpr k2, fun b hb => by rw [ha, k3 b hb]⟩

theorem Plan.lift {p : Py α} {l : List ExtStep} {f : α → Ext β} (hf : ∀ a, p = .ok a → Plan l (f a)) : Plan l ((liftM p : Ext α) >>= f) := by
  have h : Plan [] (liftM p : Ext α) := fun F log => ⟨[], (List.append_nil _).symm, List.prefix_refl _, fun _ _ => rfl⟩
  refine Plan.bind (l := []) h fun a ⟨F, log, log', ha⟩ => hf a ?_
  exact congrArg Prod.fst ha

theorem Plan.error {e : Exc} {l : List ExtStep} : Plan l (liftM (Except.error e : Py α) : Ext α) :=
  fun _ _ => ⟨[], (List.append_nil _).symm, List.nil_prefix, fun _ h => nomatch h⟩

theorem Plan.pure {a : α} : Plan [] (Pure.pure a : Ext α) := fun _ _ => ⟨[], (List.append_nil _).symm, List.prefix_refl _, fun _ _ => rfl⟩

theorem Plan.ask (q : Request) (a : α) : Plan [stepOf q] (Bip38.ask q a) := by
  intro F log
  unfold Bip38.ask
  cases F log.length q with
  | some e => exact ⟨[q], rfl, List.prefix_refl _, fun _ h => nomatch h⟩
  | none => exact ⟨[q], rfl, List.prefix_refl _, fun _ _ => rfl⟩

/-- The last part. -/
theorem Plan.last {l : List ExtStep} {m : Ext α} {f : α → β} (hm : Plan l m) : Plan l (m >>= fun a => Pure.pure (f a)) := by
  have := Plan.bind (l' := []) hm fun a _ => (Plan.pure : Plan [] (Pure.pure (f a) : Ext β))
  rwa [List.append_nil] at this

theorem plan_sha256 (b : Bytes) : Plan [.sha256] (sha256X P b) := Plan.ask _ _

theorem plan_double (b : Bytes) : Plan twice (doubleSha256X P b) := Plan.bind (l := [.sha256]) (plan_sha256 b) fun h _ => plan_sha256 h

theorem plan_checksum (b : Bytes) : Plan twice (getChecksumX P b) := (plan_double b).last

theorem plan_checkEncode (b : Bytes) (a : Str) : Plan twice (checkEncodeX P b a) :=
  Plan.bind (l := [.sha256]) (plan_sha256 b) fun h _ => (plan_sha256 h).last

theorem plan_p2pkh (k : PublicKey) (x : Int) (t : String) : Plan (addressSteps P) (p2pkhEncodeX P k x t) := by
  unfold p2pkhEncodeX addressSteps
  refine Plan.lift fun pre _ => Plan.bind ?_ fun _ _ => (plan_checkEncode _ _).last
  refine Plan.bind (plan_sha256 _) fun h _ => ?_
  unfold ripemd160X
  rcases P.hashlibRipemd160 with _ | f
  · exact Plan.pure
  · exact Plan.ask _ _

theorem plan_stretch (s : Str) (salt : Bytes) (n : Nat) : Plan (stretchSteps n) (scryptPassphraseX P s salt n) :=
  Plan.bind (l := [.normalize]) (Plan.ask _ _) fun _ _ => Plan.ask _ _

theorem plan_aesEncrypt (aes : AES) (b : Bytes) : Plan [.aesEncrypt] (aes.encryptX P b) := Plan.lift fun _ _ => Plan.ask _ _

theorem plan_aesDecrypt (aes : AES) (b : Bytes) : Plan [.aesDecrypt] (aes.decryptX P b) := Plan.lift fun _ _ => Plan.ask _ _

theorem plan_checkDecode (t : Str) (a : Str) : Plan twice (checkDecodeX P t a) := by
  unfold checkDecodeX
  refine Plan.lift fun dec _ => Plan.bind (l := [.sha256]) (plan_sha256 _) fun h _ => ?_
  rw [show ([.sha256] : List ExtStep) = [.sha256] ++ [] from rfl]
  refine Plan.bind (plan_sha256 _) fun h _ => ?_
  split
  · exact Plan.error
  · exact Plan.pure

theorem plan_checkDecodeOr (t : Str) (cls : ExcClass) (msg : String) : Plan twice (checkDecodeOrX P t cls msg) := by
  intro F log
  obtain ⟨new, h1, h2, h3⟩ := plan_checkDecode (P := P) t bitcoinAlphabet F log
  unfold checkDecodeOrX
  rcases hr : checkDecodeX P t bitcoinAlphabet F log with ⟨r | a, lg⟩
  · rw [hr] at h1
    refine ⟨new, h1, h2, fun a ha => ?_⟩
    simp only at ha
    split at ha <;> cases ha
  · rw [hr] at h1 h3
    exact ⟨new, h1, h2, h3⟩

theorem plan_wif (key : Bytes) (t : String) (c : Coin) (n : String) : Plan (twice ++ twice) (privateKeyToWifX P key t c n) := by
  unfold privateKeyToWifX
  refine Plan.lift fun _ _ => Plan.lift fun net _ => ?_
  rw [show twice ++ twice = (twice ++ twice) ++ [] from (List.append_nil _).symm]
  refine Plan.bind ?_ fun _ _ => Plan.pure
  unfold encodeWifX
  refine Plan.lift fun _ _ => Plan.lift fun _ _ => Plan.lift fun _ _ => ?_
  exact Plan.bind (plan_checksum _) fun _ _ => (plan_checksum _).last

theorem plan_random (x : Data) (u : Bytes) (k : Nat) : Plan (if x.truthy then [] else [.urandom k]) (bytesOrRandomX x u k) := by
  unfold bytesOrRandomX
  split
  · exact fun F log => ⟨[], (List.append_nil _).symm, List.prefix_refl _, fun _ _ => rfl⟩
  · exact Plan.ask _ _

theorem plan_encrypt (o : BIP38) (wif ph : Str) (net : Option String) : Plan (encryptSteps P) (o.encryptX P wif ph net) := by
  have rest : ∀ (flag : Bytes) (key : PrivateKey) (type : String), Plan (encryptSteps P) (do
      let net ← lookupNet o.cryptocurrency (o.selectNetwork net)
      let address ← p2pkhEncodeX P key.publicKey net.addressPrefix type
      let addressBytes ← getBytes (.str address) (unhexlify := false)
      let addressHash ← getChecksumX P addressBytes
      let k ← scryptPassphraseX P ph addressHash
      let aes ← AES.new (slice 32 64 k)
      let block1 ← xorBytes (slice 0 16 key.raw) (slice 0 16 (slice 0 32 k))
      let encryptedHalf1 ← aes.encryptX P block1
      let block2 ← xorBytes (slice 16 32 key.raw) (slice 16 32 (slice 0 32 k))
      let encryptedHalf2 ← aes.encryptX P block2
      let pre ← integerToBytes NO_EC_MULTIPLIED_PRIVATE_KEY_PREFIX
      let checksum ← getChecksumX P (pre ++ flag ++ addressHash ++ encryptedHalf1 ++ encryptedHalf2)
      return ensureString (b58encode (pre ++ flag ++ addressHash ++ encryptedHalf1 ++ encryptedHalf2 ++ checksum))) := by
    intro flag key type
    unfold encryptSteps
    simp only [List.append_assoc, List.cons_append, List.nil_append]
    refine Plan.lift fun _ _ => Plan.bind (plan_p2pkh _ _ _) fun address _ => ?_
    refine Plan.lift fun _ _ => Plan.bind (plan_checksum _) fun addressHash _ => ?_
    refine Plan.bind (plan_stretch _ _ _) fun k _ => ?_
    refine Plan.lift fun _ _ => Plan.lift fun _ _ => Plan.bind (l := [_]) (plan_aesEncrypt _ _) fun _ _ => ?_
    refine Plan.lift fun _ _ => Plan.bind (l := [_]) (plan_aesEncrypt _ _) fun _ _ => ?_
    exact Plan.lift fun _ _ => (plan_checksum _).last
  unfold BIP38.encryptX
  refine Plan.lift fun _ _ => Plan.lift fun t _ => ?_
  by_cases ht : t = "wif"
  · simp only [if_pos ht]
    refine Plan.lift fun _ _ => Plan.lift fun _ _ => Plan.lift fun _ _ => Plan.lift fun _ _ => Plan.lift ?_
    rintro ⟨flag, key, type⟩ _
    exact rest flag key type
  · simp only [if_neg ht]
    refine Plan.lift fun _ _ => Plan.lift fun _ _ => Plan.lift fun _ _ => Plan.lift fun _ _ => Plan.lift ?_
    rintro ⟨flag, key, type⟩ _
    exact rest flag key type

theorem plan_decryptNoEc (o : BIP38) (decoded : Bytes) (ph : Str) (net : String) (detail : Bool) :
    Plan (decryptSteps P) (o.decryptNoEcX P decoded ph net detail) := by
  unfold BIP38.decryptNoEcX decryptSteps
  simp only [List.append_assoc, List.cons_append, List.nil_append]
  refine Plan.lift fun flagU _ => Plan.lift fun flagC _ => ?_
  by_cases hU : slice 2 3 decoded = flagU
  on_goal 2 => by_cases hC : slice 2 3 decoded = flagC
  all_goals first | simp only [if_neg hU, if_neg hC] | simp only [if_neg hU, if_pos hC] | simp only [if_pos hU]
  all_goals
    refine Plan.lift ?_
    rintro ⟨wifType, type⟩ _
    refine Plan.bind (plan_stretch _ _ _) fun k _ => ?_
    refine Plan.lift fun _ _ => Plan.bind (l := [_]) (plan_aesDecrypt _ _) fun _ _ => Plan.bind (l := [_]) (plan_aesDecrypt _ _) fun _ _ => ?_
    refine Plan.lift fun _ _ => Plan.lift fun _ _ => Plan.lift fun _ _ => Plan.lift fun _ _ => ?_
    refine Plan.bind (plan_p2pkh _ _ _) fun address _ => ?_
    refine Plan.lift fun _ _ => Plan.bind (plan_checksum _) fun addressHash _ => ?_
    refine Plan.lift fun _ _ => ?_
    rw [show twice ++ twice = (twice ++ twice) ++ [] from (List.append_nil _).symm]
    refine Plan.bind (plan_wif _ _ _ _) fun wif _ => ?_
    cases detail
    · exact Plan.pure
    · exact Plan.lift fun _ _ => Plan.lift fun _ _ => Plan.pure

theorem plan_factor (ph : Str) (flag : UInt8) (ent : Bytes) (he : ent.length = 8) :
    Plan (factorSteps (hasLot flag)) (passFactorOfX P ph (splitEntropy [flag] ent).1 (splitEntropy [flag] ent).2 ent) := by
  unfold passFactorOfX factorSteps splitEntropy
  by_cases hf : hasLot flag
  · have hf' : b2i [flag] ∈ FLAGS_lot_and_sequence := by
      rw [b2i_singleton]
      exact (lot_iff flag).mpr hf
    simp only [if_pos hf', decide_eq_true hf, if_true]
    refine Plan.bind (plan_stretch _ _ _) fun k _ => ?_
    cases hd : ent.drop 4 with
    | nil =>
      have := congrArg List.length hd
      simp [he] at this
    | cons a as => exact plan_double _
  · have hf' : ¬ b2i [flag] ∈ FLAGS_lot_and_sequence := by
      rw [b2i_singleton]
      exact fun h => hf ((lot_iff flag).mp h)
    simp only [if_neg hf', decide_eq_false hf]
    exact Plan.bind (plan_stretch _ _ _) fun k _ => Plan.pure

theorem plan_decryptEc (o : BIP38) (decoded : Bytes) (flag : UInt8) (hflag : slice 2 3 decoded = [flag]) (hl : decoded.length = 43) (ph : Str) (net : String)
    (detail : Bool) : Plan (decryptEcSteps P flag) (o.decryptEcX P decoded ph net detail) := by
  unfold BIP38.decryptEcX decryptEcSteps
  simp only [hflag, List.append_assoc, List.cons_append, List.nil_append]
  refine Plan.bind (plan_factor ph flag _ (by simp [slice, hl])) fun factor _ => ?_
  refine Plan.lift fun _ _ => Plan.lift fun _ _ => Plan.bind (l := [_]) (Plan.ask _ _) fun k _ => ?_
  refine Plan.lift fun _ _ => Plan.bind (l := [_]) (plan_aesDecrypt _ _) fun _ _ => Plan.lift fun _ _ => Plan.bind (l := [_]) (plan_aesDecrypt _ _) fun _ _ => ?_
  refine Plan.lift fun _ _ => Plan.bind (plan_double _) fun _ _ => ?_
  refine Plan.lift fun _ _ => Plan.lift fun _ _ => Plan.lift fun _ _ => Plan.lift fun _ _ => ?_
  refine Plan.bind (plan_p2pkh _ _ _) fun address _ => ?_
  refine Plan.lift fun _ _ => Plan.bind (plan_checksum _) fun addressHash _ => ?_
  split
  · rw [show twice ++ twice = (twice ++ twice) ++ [] from (List.append_nil _).symm]
    refine Plan.bind (plan_wif _ _ _ _) fun wif _ => ?_
    cases detail
    · exact Plan.pure
    · exact Plan.lift fun _ _ => Plan.lift fun _ _ => Plan.lift fun _ _ => Plan.pure
  · exact Plan.error

theorem plan_decrypt (o : BIP38) (e ph : Str) (net : Option String) (detail : Bool) (l : List ExtStep)
    (hN : ∀ rec, b58decode e = .ok rec → rec.take 2 = [0x01, 0x42] → l = decryptSteps P)
    (hE : ∀ rec flag, b58decode e = .ok rec → rec.take 2 = [0x01, 0x43] → rec[2]? = some flag → l = decryptEcSteps P flag) :
    Plan l (o.decryptX P e ph net detail) := by
  unfold BIP38.decryptX
  refine Plan.lift fun _ _ => Plan.lift fun rec hr => Plan.lift fun _ hl => Plan.lift fun pN hpN => Plan.lift fun pE hpE => ?_
  have hl : rec.length = 43 := not_not.mp (passed hl)
  rw [c_noEc] at hpN
  rw [c_ec] at hpE
  cases hpN
  cases hpE
  split
  · rename_i h
    rw [hN rec hr h]
    exact plan_decryptNoEc o rec ph _ detail
  · split
    · rename_i h
      have hf : rec[2]? = some rec[2] := List.getElem?_eq_getElem (by omega)
      rw [hE rec rec[2] hr h hf]
      refine plan_decryptEc o rec _ ?_ hl ph _ detail
      simp only [slice]
      refine List.ext_getElem? fun i => ?_
      match i with
      | 0 => simp [hl]
      | i + 1 => simp [hl]
    · exact Plan.error

theorem of_checkDecodeX {t : Str} {cls : ExcClass} {msg : String} {F : Faults} {log log' : List Request} {raw : Bytes}
    (h : checkDecodeOrX P t cls msg F log = (.ok raw, log')) : ∃ dec, b58decode t = .ok dec ∧ raw = dropLastN 4 dec := by
  unfold checkDecodeOrX at h
  rcases hr : checkDecodeX P t bitcoinAlphabet F log with ⟨r | a, lg⟩
  · rw [hr] at h
    have := congrArg Prod.fst h
    simp only at this
    split at this <;> cases this
  · rw [hr] at h
    cases h
    have step : ∀ {α β : Type} {m : Ext α} {f : α → Ext β} {log : List Request} {b : β} {l : List Request}, (m >>= f) F log = (.ok b, l) →
        ∃ a l', m F log = (.ok a, l') ∧ f a F l' = (.ok b, l) := by
      intro α β m f log b l h
      change (match m F log with
        | (.ok a, log') => f a F log'
        | (.error e, log') => (.error e, log')) = _ at h
      rcases hm : m F log with ⟨r | a, lg⟩
      · rw [hm] at h
        cases h
      · rw [hm] at h
        exact ⟨a, lg, rfl, h⟩
    obtain ⟨dec, l1, h1, hr⟩ := step hr
    obtain ⟨x, l2, _, hr⟩ := step hr
    obtain ⟨y, l3, _, hr⟩ := step hr
    refine ⟨dec, congrArg Prod.fst h1, ?_⟩
    split at hr
    · cases hr
    · cases hr
      rfl

theorem plan_confirm (o : BIP38) (ph code : Str) (net : Option String) (detail : Bool) (l : List ExtStep)
    (hl : ∀ dec flag, b58decode code = .ok dec → dec[5]? = some flag → twice ++ l = confirmSteps P flag) :
    Plan (twice ++ l) (o.confirmX P ph code net detail) := by
  unfold BIP38.confirmX
  refine Plan.lift fun _ _ => Plan.bind (plan_checkDecodeOr _ _ _) fun raw ⟨F, log, log', hraw⟩ => ?_
  obtain ⟨dec, hdec, rfl⟩ := of_checkDecodeX hraw
  refine Plan.lift fun _ h51 => Plan.lift fun pre _ => Plan.lift fun _ _ => ?_
  have h51 : (dropLastN 4 dec).length = 51 := not_not.mp (passed h51)
  have hlen : dec.length = 55 := by
    simp only [dropLastN, List.length_take] at h51
    omega
  have hf : dec[5]? = some dec[5] := List.getElem?_eq_getElem (by omega)
  have hle := hl dec dec[5] hdec hf
  have hflag : slice 5 6 (dropLastN 4 dec) = [dec[5]] := by
    refine List.ext_getElem? fun i => ?_
    match i with
    | 0 => simp [slice, dropLastN, hlen]
    | i + 1 => simp [slice, dropLastN, hlen]
  have hent : (slice 10 18 (dropLastN 4 dec)).length = 8 := by simp [slice, dropLastN, hlen]
  generalize dropLastN 4 dec = raw at *
  unfold confirmSteps at hle
  simp only [List.append_assoc, List.append_cancel_left_eq] at hle
  subst hle
  simp only [hflag, List.append_assoc, List.cons_append, List.nil_append]
  refine Plan.bind (plan_factor ph _ _ hent) fun factor _ => ?_
  refine Plan.lift fun _ _ => Plan.lift fun _ _ => Plan.bind (l := [_]) (Plan.ask _ _) fun k _ => ?_
  refine Plan.lift fun _ _ => Plan.bind (l := [_]) (plan_aesDecrypt _ _) fun _ _ => Plan.lift fun _ _ => Plan.bind (l := [_]) (plan_aesDecrypt _ _) fun _ _ => ?_
  refine Plan.lift fun _ _ => Plan.lift fun _ _ => Plan.lift ?_
  rintro ⟨pk, type⟩ _
  refine Plan.lift fun _ _ => Plan.bind (plan_p2pkh _ _ _) fun address _ => Plan.lift fun _ _ => ?_
  rw [show twice = twice ++ [] from (List.append_nil _).symm]
  refine Plan.bind (plan_checksum _) fun addressHash _ => ?_
  split
  · cases detail
    · exact Plan.pure
    · exact Plan.lift fun _ _ => Plan.pure
  · exact Plan.error

theorem plan_create (o : BIP38) (code : Str) (type : String) (seed : Data) (net : Option String) (u : Bytes) :
    Plan (createSteps P seed.truthy) (o.createX P code type seed net u) := by
  unfold BIP38.createX createSteps
  simp only [List.append_assoc, List.cons_append, List.nil_append]
  refine Plan.lift fun _ _ => Plan.bind (plan_random _ _ _) fun seedB _ => Plan.bind (plan_checkDecodeOr _ _ _) fun raw _ => ?_
  refine Plan.lift fun _ _ => Plan.lift fun _ _ => Plan.lift fun _ _ => Plan.bind (plan_double _) fun factor _ => ?_
  refine Plan.lift fun _ _ => Plan.lift fun _ _ => Plan.lift fun _ _ => Plan.lift fun _ _ => Plan.bind (plan_p2pkh _ _ _) fun address _ => ?_
  refine Plan.lift fun _ _ => Plan.bind (plan_checksum _) fun addressHash _ => Plan.bind (l := [_]) (Plan.ask _ _) fun k _ => ?_
  refine Plan.lift fun _ _ => Plan.lift fun _ _ => Plan.bind (l := [_]) (plan_aesEncrypt _ _) fun _ _ => ?_
  refine Plan.lift fun _ _ => Plan.bind (l := [_]) (plan_aesEncrypt _ _) fun _ _ => ?_
  refine Plan.lift fun _ _ => Plan.bind (plan_checkEncode _ _) fun _ _ => ?_
  refine Plan.lift fun _ _ => Plan.lift fun _ _ => Plan.lift fun _ _ => Plan.bind (l := [_]) (plan_aesEncrypt _ _) fun _ _ => ?_
  refine Plan.lift fun _ _ => Plan.bind (l := [_]) (plan_aesEncrypt _ _) fun _ _ => Plan.lift fun _ _ => ?_
  change Plan (twice ++ []) _
  refine Plan.bind (plan_checkEncode _ _) fun _ _ => ?_
  exact Plan.lift fun _ _ => Plan.lift fun _ _ => Plan.pure

theorem plan_intermediate (ph : Str) (lot sequence : Option Int) (salt : Data) (u : Bytes) :
    Plan (intermediateSteps salt.truthy (usesLot lot sequence)) (intermediateCodeX P ph lot sequence salt u) := by
  unfold intermediateCodeX intermediateSteps
  have hu : usesLot lot sequence = true ↔ (truthyInt lot ∧ truthyInt sequence) := by
    unfold usesLot truthyInt
    cases lot <;> cases sequence <;> simp
  simp only [List.append_assoc]
  refine Plan.bind (plan_random _ _ _) fun salt _ => Plan.lift fun _ _ => Plan.lift fun _ _ => Plan.lift fun _ _ => ?_
  have rest : ∀ x : Bytes × Bytes × Bytes, Plan twice (do
      let privateKey ← PrivateKey.fromBytes x.1
      let text ← checkEncodeX P (x.2.1 ++ (x.2.2 ++ privateKey.publicKey.rawCompressed))
      return ensureString text) := fun x => Plan.lift fun _ _ => (plan_checkEncode _ _).last
  by_cases h : usesLot lot sequence = true
  · rw [if_pos (hu.mp h), h]
    refine Plan.bind ?_ fun x _ => rest x
    unfold lotFactorX factorSteps
    refine Plan.lift fun _ _ => Plan.lift fun _ _ => Plan.bind (plan_stretch _ _ _) fun _ _ => Plan.lift fun _ _ => ?_
    rw [if_pos rfl, show twice = twice ++ [] from (List.append_nil _).symm]
    exact Plan.bind (plan_double _) fun _ _ => Plan.lift fun _ _ => Plan.pure
  · rw [if_neg (fun hh => h (hu.mpr hh)), Bool.eq_false_of_not_eq_true h]
    refine Plan.bind ?_ fun x _ => rest x
    unfold noLotFactorX factorSteps
    exact Plan.bind (plan_stretch _ _ _) fun _ _ => Plan.lift fun _ _ => Plan.pure

end Bip38
