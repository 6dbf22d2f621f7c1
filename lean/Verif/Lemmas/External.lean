import Verif.Spec.External
import Verif.Lemmas.Bip38
import Verif.Lemmas.Create
/-!
# Lemmas about runs with external calls
-/
namespace Bip38
open Spec

variable {P : Prims} {α β : Type}

theorem quiet_append (F : Faults) (k : Nat) (a b : List Request) : Quiet F k (a ++ b) ↔ Quiet F k a ∧ Quiet F (k + a.length) b := by
  constructor
  · intro h
    refine ⟨fun i q hi => h i q ?_, fun i q hi => ?_⟩
    · have := (List.getElem?_eq_some_iff.mp hi).1
      rw [List.getElem?_append_left this, hi]
    · rw [Nat.add_assoc]
      refine h _ q ?_
      rw [List.getElem?_append_right (by omega)]
      simpa using hi
  · rintro ⟨h1, h2⟩ i q hi
    by_cases hl : i < a.length
    · rw [List.getElem?_append_left hl] at hi
      exact h1 i q hi
    · rw [List.getElem?_append_right (by omega)] at hi
      have := h2 _ q hi
      rwa [show k + a.length + (i - a.length) = k + i by omega] at this

theorem quiet_nil (F : Faults) (k : Nat) : Quiet F k [] := fun i q h => by simp at h

theorem quiet_one {F : Faults} {k : Nat} {q : Request} (h : F k q = none) : Quiet F k [q] := by
  intro i q' hi
  match i, hi with
  | 0, hi => simp at hi; subst hi; exact h

theorem work_append (a b : List Request) : work (a ++ b) = work a ++ work b := by simp [work]

/-- The run of `m` from the requests `log` has the outcome `p`, or ends at the first request that raises, with that exception translated
by `s`; its work is an initial part of `l`, and all of `l` if it returns. -/
def FollowsAt (s : Nat → Exc → Exc) (F : Faults) (log : List Request) (m : Ext α) (p : Py α) (l : List Work) : Prop :=
  ∃ new, (m F log).2 = log ++ new ∧ work new <+: l ∧
    ((Quiet F log.length new ∧ (m F log).1 = p ∧ ((∃ a, p = .ok a) → work new = l)) ∨
      ∃ init q e, new = init ++ [q] ∧ Quiet F log.length init ∧ F (log.length + init.length) q = some e ∧
        (m F log).1 = .error (s (log.length + init.length) e))

/-- The same from every log of at least `n` requests. -/
def Follows (s : Nat → Exc → Exc) (n : Nat) (m : Ext α) (p : Py α) (l : List Work) : Prop :=
  ∀ F log, n ≤ log.length → FollowsAt s F log m p l

/-- `s` translates nothing from position `n` on. -/
def Plain (s : Nat → Exc → Exc) (n : Nat) : Prop := ∀ i, n ≤ i → ∀ e, s i e = e

theorem FollowsAt.bind {s : Nat → Exc → Exc} {F : Faults} {log : List Request} {m : Ext α} {p : Py α} {l l' : List Work} {f : α → Ext β}
    {g : α → Py β} (hm : FollowsAt s F log m p l)
    (hf : ∀ a log', (m F log) = (.ok a, log') → p = .ok a → FollowsAt s F log' (f a) (g a) l') :
    FollowsAt s F log (m >>= f) (p >>= g) (l ++ l') := by
  have hE : (m >>= f) F log = (match m F log with
    | (.ok a, log') => f a F log'
    | (.error e, log') => (.error e, log')) := rfl
  obtain ⟨new, h1, h2, h⟩ := hm
  have ext : ∀ x : Exc, (m F log).1 = .error x → (m >>= f) F log = (.error x, log ++ new) := by
    intro x hx
    rw [hE]
    rcases hr : m F log with ⟨r, lg⟩
    rw [hr] at hx h1
    simp only at hx h1
    subst hx h1
    rfl
  rcases h with ⟨q1, q2, q3⟩ | ⟨init, q, e, n1, n2, n3, n4⟩
  · cases p with
    | error x =>
      have := ext x q2
      refine ⟨new, by rw [this], h2.trans (List.prefix_append _ _), Or.inl ⟨q1, by rw [this]; rfl, ?_⟩⟩
      rintro ⟨a, ha⟩
      exact absurd ha (by rintro ⟨⟩)
    | ok a =>
      have hr : m F log = (.ok a, log ++ new) := Prod.ext q2 h1
      obtain ⟨new', k1, k2, k⟩ := hf a _ hr rfl
      have hE' : (m >>= f) F log = f a F (log ++ new) := by rw [hE, hr]
      have hw := q3 ⟨a, rfl⟩
      have hg : (Except.ok a >>= g : Py β) = g a := rfl
      rw [FollowsAt, hE', hg]
      refine ⟨new ++ new', by rw [k1, List.append_assoc], by rw [work_append, hw]; exact (List.prefix_append_right_inj _).mpr k2, ?_⟩
      rw [List.length_append] at k
      rcases k with ⟨k3, k4, k5⟩ | ⟨init, q, e, n1, n2, n3, n4⟩
      · refine Or.inl ⟨(quiet_append _ _ _ _).mpr ⟨q1, k3⟩, k4, fun h => ?_⟩
        rw [work_append, hw, k5 h]
      · refine Or.inr ⟨new ++ init, q, e, by rw [n1, List.append_assoc], (quiet_append _ _ _ _).mpr ⟨q1, n2⟩, ?_, ?_⟩
        · rw [List.length_append, ← Nat.add_assoc]; exact n3
        · rw [List.length_append, ← Nat.add_assoc]; exact n4
  · have := ext _ n4
    refine ⟨new, by rw [this], h2.trans (List.prefix_append _ _), Or.inr ⟨init, q, e, n1, n2, n3, by rw [this]⟩⟩

theorem Follows.bind {s : Nat → Exc → Exc} {n : Nat} {m : Ext α} {p : Py α} {l l' : List Work} {f : α → Ext β}
    {g : α → Py β} (hm : Follows s n m p l) (hf : ∀ a, p = .ok a → Follows s n (f a) (g a) l') :
    Follows s n (m >>= f) (p >>= g) (l ++ l') := by
  intro F log hl
  have h := hm F log hl
  refine h.bind fun a log' hr ha => hf a ha F log' ?_
  obtain ⟨new, h1, _⟩ := h
  rw [hr] at h1
  simp only at h1
  rw [h1, List.length_append]
  omega

theorem FollowsAt.lift {s : Nat → Exc → Exc} {F : Faults} {log : List Request} (p : Py α) : FollowsAt s F log (liftM p : Ext α) p [] :=
  ⟨[], by simp [liftM, monadLift, MonadLift.monadLift], by simp [work], Or.inl ⟨quiet_nil _ _, rfl, fun _ => rfl⟩⟩

/-- Statements without external calls. -/
theorem Follows.lift {s : Nat → Exc → Exc} {n : Nat} {p : Py α} {l : List Work} {f : α → Ext β} {g : α → Py β}
    (hf : ∀ a, p = .ok a → Follows s n (f a) (g a) l) : Follows s n ((liftM p : Ext α) >>= f) (p >>= g) l :=
  Follows.bind (l := []) (fun _ _ _ => FollowsAt.lift p) hf

theorem FollowsAt.lift_bind {s : Nat → Exc → Exc} {F : Faults} {log : List Request} {p : Py α} {l : List Work} {f : α → Ext β} {g : α → Py β}
    (hf : ∀ a, p = .ok a → FollowsAt s F log (f a) (g a) l) : FollowsAt s F log ((liftM p : Ext α) >>= f) (p >>= g) l := by
  refine FollowsAt.bind (l := []) (FollowsAt.lift p) fun a log' hr ha => ?_
  have : log' = log := (congrArg Prod.snd hr).symm
  rw [this]
  exact hf a ha

theorem Follows.lift_end {s : Nat → Exc → Exc} {n : Nat} {x : Exc} {l : List Work} : Follows s n (liftM (Except.error x : Py α) : Ext α) (.error x) l :=
  fun F log _ => ⟨[], by simp [liftM, monadLift, MonadLift.monadLift], by simp [work], Or.inl ⟨quiet_nil _ _, rfl, by rintro ⟨a, ⟨⟩⟩⟩⟩

theorem Follows.pure {s : Nat → Exc → Exc} {n : Nat} {a : α} : Follows s n (Pure.pure a : Ext α) (.ok a) [] :=
  fun _ log _ => ⟨[], by simp [Pure.pure], by simp [work], Or.inl ⟨quiet_nil _ _, rfl, fun _ => rfl⟩⟩

theorem Follows.ask {s : Nat → Exc → Exc} {n : Nat} (hs : Plain s n) (q : Request) (a : α) :
    Follows s n (Bip38.ask q a) (.ok a) (work [q]) := by
  intro F log hl
  cases h : F log.length q with
  | none =>
    refine ⟨[q], by simp [Bip38.ask, h], List.prefix_refl _, Or.inl ⟨quiet_one h, by simp [Bip38.ask, h], fun _ => rfl⟩⟩
  | some e =>
    refine ⟨[q], by simp [Bip38.ask, h], List.prefix_refl _, Or.inr ⟨[], q, e, rfl, quiet_nil _ _, h, ?_⟩⟩
    simp [Bip38.ask, h, hs _ hl]

/-- A sub-computation that never fails in the model. -/
theorem Follows.ok_bind {s : Nat → Exc → Exc} {n : Nat} {m : Ext α} {a : α} {l l' : List Work} {f : α → Ext β} {p : Py β}
    (hm : Follows s n m (.ok a) l) (hf : Follows s n (f a) p l') : Follows s n (m >>= f) p (l ++ l') := by
  have := Follows.bind (g := fun _ => p) hm (fun b hb => by rw [Except.ok.inj hb] at hf; exact hf)
  exact this

theorem Follows.ask_bind {s : Nat → Exc → Exc} {n : Nat} (hs : Plain s n) {q : Request} {a : α} {l : List Work} {f : α → Ext β} {p : Py β}
    (hf : Follows s n (f a) p l) : Follows s n (Bip38.ask q a >>= f) p (work [q] ++ l) := Follows.ok_bind (Follows.ask hs q a) hf

/-- A step without work in the list. -/
theorem Follows.bind0 {s : Nat → Exc → Exc} {n : Nat} {m : Ext α} {p : Py α} {l : List Work} {f : α → Ext β}
    {g : α → Py β} (hm : Follows s n m p []) (hf : ∀ a, p = .ok a → Follows s n (f a) (g a) l) :
    Follows s n (m >>= f) (p >>= g) l := Follows.bind hm hf

theorem Follows.raise_end {s : Nat → Exc → Exc} {n : Nat} {p : Py α} {l : List Work} (h : ∃ x, p = .error x) :
    Follows s n (liftM p : Ext α) p l := by
  obtain ⟨x, rfl⟩ := h
  exact Follows.lift_end

section
variable {s : Nat → Exc → Exc} {n : Nat} (hs : Plain s n)
include hs

theorem follows_sha256 (b : Bytes) : Follows s n (sha256X P b) (.ok (P.sha256 b)) [] := Follows.ask hs _ _

theorem follows_double (b : Bytes) : Follows s n (doubleSha256X P b) (doubleSha256 P (.bytes b)) [] := by
  rw [doubleSha256_bytes]
  exact Follows.ok_bind (l := []) (follows_sha256 hs b) (follows_sha256 hs _)

theorem follows_checksum (b : Bytes) : Follows s n (getChecksumX P b) (getChecksum P (.bytes b)) [] :=
  Follows.bind0 (follows_double hs b) fun _ _ => Follows.pure

theorem follows_hash160 (b : Bytes) : Follows s n (hash160X P b) (hash160 P (.bytes b)) [] := by
  rw [hash160_bytes]
  unfold hash160X ripemd160X h160
  refine Follows.ok_bind (l := []) (follows_sha256 hs b) ?_
  unfold rip
  cases P.hashlibRipemd160 with
  | none => exact Follows.pure
  | some f => exact Follows.ask hs _ _

theorem follows_scrypt (pw salt : Bytes) (N r p len : Nat) :
    Follows s n (scryptX P pw salt N r p len) (.ok (P.scrypt pw salt N r p len)) [.scrypt N r p] := Follows.ask hs _ _

theorem follows_passphrase (ph : Str) (salt : Bytes) (len : Nat) :
    Follows s n (scryptPassphraseX P ph salt len) (.ok (scryptPassphrase P ph salt len)) [.scrypt 16384 8 8] :=
  Follows.ok_bind (l := []) (Follows.ask hs _ _) (follows_scrypt hs _ _ _ _ _ _)

theorem follows_aesEncrypt (aes : AES) (b : Bytes) : Follows s n (aes.encryptX P b) (aes.encrypt P b) [] :=
  Follows.lift fun _ _ => Follows.ask hs _ _

theorem follows_aesDecrypt (aes : AES) (b : Bytes) : Follows s n (aes.decryptX P b) (aes.decrypt P b) [] :=
  Follows.lift fun _ _ => Follows.ask hs _ _

theorem follows_checkEncode (raw : Bytes) (a : Str) : Follows s n (checkEncodeX P raw a) (.ok (checkEncode P.sha256 raw a)) [] :=
  Follows.ok_bind (l := []) (follows_sha256 hs _) (Follows.ok_bind (l := []) (follows_sha256 hs _) Follows.pure)

theorem follows_p2pkh (k : PublicKey) (pre : Int) (t : String) :
    Follows s n (p2pkhEncodeX P k pre t) (p2pkhEncode P (.key k) pre t) [] :=
  Follows.lift fun _ _ => Follows.bind0 (follows_hash160 hs _) fun _ _ =>
    Follows.ok_bind (l := []) (follows_checkEncode hs _ _) Follows.pure

theorem follows_encodeWif (key : Bytes) (pre : Int) : Follows s n (encodeWifX P key pre) (encodeWif P (.bytes key) pre) [] := by
  unfold encodeWif encodeWifX
  rw [py_bind (getBytes_bytes key _)]
  rw [py_bind (show (raiseIf (key.length ≠ 32 ∧ (Data.bytes key) = .none) .typeError "object of type 'NoneType' has no len()") = .ok ()
    from by simp [raiseIf])]
  exact Follows.lift fun _ _ => Follows.lift fun _ _ => Follows.lift fun _ _ =>
    Follows.bind0 (follows_checksum hs _) fun _ _ => Follows.bind0 (follows_checksum hs _) fun _ _ => Follows.pure

theorem follows_toWif (key : Bytes) (t : String) (c : Coin) (net : String) :
    Follows s n (privateKeyToWifX P key t c net) (privateKeyToWif P (.bytes key) t c net) [] :=
  Follows.lift fun _ _ => Follows.lift fun _ _ => Follows.bind0 (follows_encodeWif hs _ _) fun _ _ => Follows.pure

theorem follows_random (x : Data) (u : Bytes) (k : Nat) :
    Follows s n (bytesOrRandomX x u k) (bytesOrRandom x u) (if x.truthy then [] else [.random k]) := by
  unfold bytesOrRandomX bytesOrRandom
  by_cases h : x.truthy
  · rw [if_pos h, if_pos h, if_pos h]
    exact fun F log _ => FollowsAt.lift _
  · rw [if_neg h, if_neg h, if_neg h]
    exact Follows.ask hs _ _

theorem follows_lotFactor (ph : Str) (lot sequence : Int) (salt : Bytes) :
    Follows s n (lotFactorX P ph lot sequence salt) (lotFactor P ph lot sequence salt) [.scrypt 16384 8 8] :=
  Follows.lift fun _ _ => Follows.lift fun _ _ => Follows.ok_bind (l' := []) (follows_passphrase hs _ _ _) <| Follows.lift fun _ _ =>
    Follows.bind0 (follows_double hs _) fun _ _ => Follows.lift fun _ _ => Follows.pure

theorem follows_noLotFactor (ph : Str) (salt : Bytes) :
    Follows s n (noLotFactorX P ph salt) (noLotFactor P ph salt) [.scrypt 16384 8 8] :=
  Follows.ok_bind (l' := []) (follows_passphrase hs _ _ _) <| Follows.lift fun _ _ => Follows.pure

theorem follows_passFactor (ph : Str) (salt : Bytes) (ls : Option Bytes) (entropy : Bytes) :
    Follows s n (passFactorOfX P ph salt ls entropy) (passFactorOf P ph salt ls entropy) [.scrypt 16384 8 8] := by
  refine Follows.ok_bind (l' := []) (follows_passphrase hs _ _ _) ?_
  match ls with
  | none => exact Follows.pure
  | some [] => exact Follows.pure
  | some (_ :: _) => exact follows_double hs _

theorem follows_intermediate (ph : Str) (lot sequence : Option Int) (salt : Data) (u : Bytes) :
    Follows s n (intermediateCodeX P ph lot sequence salt u) (intermediateCode P ph lot sequence salt u)
      ((if salt.truthy then [] else [.random 8]) ++ [.scrypt 16384 8 8]) := by
  refine Follows.bind (follows_random hs _ _ _) fun saltB _ => ?_
  refine Follows.lift fun _ _ => Follows.lift fun _ _ => Follows.lift fun _ _ => ?_
  by_cases h : (truthyInt lot : Prop) ∧ (truthyInt sequence : Prop)
  · simp only [if_pos h]
    refine Follows.bind (l := [.scrypt 16384 8 8]) (l' := []) (follows_lotFactor hs _ _ _ _) ?_
    rintro ⟨a, b, c⟩ _
    exact Follows.lift fun _ _ => Follows.ok_bind (l := []) (follows_checkEncode hs _ _) Follows.pure
  · simp only [if_neg h]
    refine Follows.bind (l := [.scrypt 16384 8 8]) (l' := []) (follows_noLotFactor hs _ _) ?_
    rintro ⟨a, b, c⟩ _
    exact Follows.lift fun _ _ => Follows.ok_bind (l := []) (follows_checkEncode hs _ _) Follows.pure

theorem follows_encrypt (o : BIP38) (wif ph : Str) (net : Option String) :
    Follows s n (o.encryptX P wif ph net) (o.encrypt P wif ph net) [.scrypt 16384 8 8] := by
  unfold BIP38.encryptX BIP38.encrypt
  refine Follows.lift fun _ _ => Follows.lift fun t _ => ?_
  by_cases ht : t = "wif"
  · simp only [if_pos ht]
    refine Follows.lift fun _ _ => Follows.lift fun _ _ => Follows.lift fun _ _ => Follows.lift fun _ _ => Follows.lift ?_
    rintro ⟨flag, key, type⟩ _
    refine Follows.lift fun _ _ => ?_
    refine Follows.bind0 (follows_p2pkh hs _ _ _) fun address _ => ?_
    refine Follows.lift fun _ _ => ?_
    refine Follows.bind0 (follows_checksum hs _) fun addressHash _ => ?_
    refine Follows.ok_bind (l' := []) (follows_passphrase hs _ _ _) ?_
    refine Follows.lift fun _ _ => Follows.lift fun _ _ => ?_
    refine Follows.bind0 (follows_aesEncrypt hs _ _) fun _ _ => ?_
    refine Follows.lift fun _ _ => ?_
    refine Follows.bind0 (follows_aesEncrypt hs _ _) fun _ _ => ?_
    refine Follows.lift fun _ _ => ?_
    exact Follows.bind0 (follows_checksum hs _) fun _ _ => Follows.pure
  · simp only [if_neg ht]
    refine Follows.lift fun _ _ => Follows.lift fun _ _ => Follows.lift fun _ _ => Follows.lift fun _ _ => Follows.lift ?_
    rintro ⟨flag, key, type⟩ _
    refine Follows.lift fun _ _ => ?_
    refine Follows.bind0 (follows_p2pkh hs _ _ _) fun address _ => ?_
    refine Follows.lift fun _ _ => ?_
    refine Follows.bind0 (follows_checksum hs _) fun addressHash _ => ?_
    refine Follows.ok_bind (l' := []) (follows_passphrase hs _ _ _) ?_
    refine Follows.lift fun _ _ => Follows.lift fun _ _ => ?_
    refine Follows.bind0 (follows_aesEncrypt hs _ _) fun _ _ => ?_
    refine Follows.lift fun _ _ => ?_
    refine Follows.bind0 (follows_aesEncrypt hs _ _) fun _ _ => ?_
    refine Follows.lift fun _ _ => ?_
    exact Follows.bind0 (follows_checksum hs _) fun _ _ => Follows.pure

theorem follows_decryptNoEc (o : BIP38) (decoded : Bytes) (ph : Str) (net : String) (detail : Bool) :
    Follows s n (o.decryptNoEcX P decoded ph net detail) (o.decryptNoEc P decoded ph net detail) [.scrypt 16384 8 8] := by
  unfold BIP38.decryptNoEcX BIP38.decryptNoEc
  refine Follows.lift fun flagU _ => Follows.lift fun flagC _ => ?_
  by_cases hU : slice 2 3 decoded = flagU
  on_goal 2 => by_cases hC : slice 2 3 decoded = flagC
  all_goals first | simp only [if_neg hU, if_neg hC] | simp only [if_neg hU, if_pos hC] | simp only [if_pos hU]
  all_goals
    refine Follows.lift ?_
    rintro ⟨wifType, type⟩ _
    refine Follows.ok_bind (l' := []) (follows_passphrase hs _ _ _) ?_
    refine Follows.lift fun _ _ => ?_
    refine Follows.bind0 (follows_aesDecrypt hs _ _) fun _ _ => ?_
    refine Follows.bind0 (follows_aesDecrypt hs _ _) fun _ _ => ?_
    refine Follows.lift fun _ _ => Follows.lift fun _ _ => Follows.lift fun _ _ => Follows.lift fun _ _ => ?_
    refine Follows.bind0 (follows_p2pkh hs _ _ _) fun _ _ => ?_
    refine Follows.lift fun _ _ => ?_
    refine Follows.bind0 (follows_checksum hs _) fun _ _ => ?_
    refine Follows.lift fun _ _ => ?_
    refine Follows.bind0 (follows_toWif hs _ _ _ _) fun _ _ => ?_
    cases detail with
    | false => exact Follows.pure
    | true => exact Follows.lift fun _ _ => Follows.lift fun _ _ => Follows.pure

theorem follows_decryptEc (o : BIP38) (decoded : Bytes) (ph : Str) (net : String) (detail : Bool) :
    Follows s n (o.decryptEcX P decoded ph net detail) (o.decryptEc P decoded ph net detail) [.scrypt 16384 8 8, .scrypt 1024 1 1] := by
  unfold BIP38.decryptEcX BIP38.decryptEc
  rcases hsp : splitEntropy (slice 2 3 decoded) (slice 7 15 decoded) with ⟨salt, ls⟩
  simp only [hsp]
  refine Follows.bind (l := [.scrypt 16384 8 8]) (l' := [.scrypt 1024 1 1]) (follows_passFactor hs _ _ _ _) fun _ _ => ?_
  refine Follows.lift fun _ _ => Follows.lift fun _ _ => ?_
  refine Follows.ok_bind (l' := []) (follows_scrypt hs _ _ _ _ _ _) ?_
  refine Follows.lift fun _ _ => ?_
  refine Follows.bind0 (follows_aesDecrypt hs _ _) fun _ _ => ?_
  refine Follows.lift fun _ _ => ?_
  refine Follows.bind0 (follows_aesDecrypt hs _ _) fun _ _ => ?_
  refine Follows.lift fun _ _ => ?_
  refine Follows.bind0 (follows_double hs _) fun _ _ => ?_
  refine Follows.lift fun _ _ => Follows.lift fun _ _ => Follows.lift fun _ _ => Follows.lift fun _ _ => ?_
  refine Follows.bind0 (follows_p2pkh hs _ _ _) fun _ _ => ?_
  refine Follows.lift fun _ _ => ?_
  refine Follows.bind0 (follows_checksum hs _) fun chk _ => ?_
  by_cases h : chk = slice 3 7 decoded
  · simp only [if_pos h]
    refine Follows.bind0 (follows_toWif hs _ _ _ _) fun _ _ => ?_
    cases detail with
    | false => exact Follows.pure
    | true => exact Follows.lift fun _ _ => Follows.lift fun _ _ => Follows.lift fun _ _ => Follows.pure
  · simp only [if_neg h]
    exact Follows.lift_end

theorem follows_decrypt (o : BIP38) (enc ph : Str) (net : Option String) (detail : Bool) (l : List Work)
    (hN : ∀ rec, b58decode enc = .ok rec → rec.take 2 = [0x01, 0x42] → l = [.scrypt 16384 8 8])
    (hE : ∀ rec, b58decode enc = .ok rec → rec.take 2 = [0x01, 0x43] → l = [.scrypt 16384 8 8, .scrypt 1024 1 1]) :
    Follows s n (o.decryptX P enc ph net detail) (o.decrypt P enc ph net detail) l := by
  unfold BIP38.decryptX BIP38.decrypt
  refine Follows.lift fun _ _ => Follows.lift fun rec hr => Follows.lift fun _ _ => Follows.lift fun pN hN' => Follows.lift fun pE hE' => ?_
  rw [c_noEc] at hN'
  rw [c_ec] at hE'
  cases hN'
  cases hE'
  by_cases h1 : rec.take 2 = [0x01, 0x42]
  · simp only [if_pos h1]
    rw [hN rec hr h1]
    exact follows_decryptNoEc hs _ _ _ _ _
  · by_cases h2 : rec.take 2 = [0x01, 0x43]
    · simp only [if_neg h1, if_pos h2]
      rw [hE rec hr h2]
      exact follows_decryptEc hs _ _ _ _ _
    · simp only [if_neg h1, if_neg h2]
      exact Follows.lift_end

end

/-- The `try` around `check_decode`. -/
theorem followsAt_try (F : Faults) (log : List Request) (text : Str) (cls : ExcClass) (msg : String) :
    FollowsAt (caught log.length cls msg) F log (checkDecodeOrX P text cls msg) (checkDecodeOr P text cls msg) [] ∧
      ∀ b log', checkDecodeOrX P text cls msg F log = (.ok b, log') → log'.length = log.length + 2 := by
  cases hd : b58decode text with
  | error e =>
    have h1 : checkDecodeX P text bitcoinAlphabet F log = (.error e, log) := by
      unfold checkDecodeX
      rw [hd]
      rfl
    have h2 : checkDecode P.sha256 text = .error e := by
      unfold checkDecode
      rw [hd]
      rfl
    have h3 : checkDecodeOrX P text cls msg F log = (checkDecodeOr P text cls msg, log) := by
      unfold checkDecodeOrX checkDecodeOr
      rw [h1, h2]
    have h4 : ∃ x, checkDecodeOr P text cls msg = .error x := by
      unfold checkDecodeOr
      rw [h2]
      by_cases hv : e.cls.isValueError
      · exact ⟨_, if_pos hv⟩
      · exact ⟨_, if_neg hv⟩
    obtain ⟨x, hx⟩ := h4
    refine ⟨⟨[], by rw [h3]; simp, by simp [work], Or.inl ⟨quiet_nil _ _, by rw [h3], by rw [hx]; rintro ⟨a, ⟨⟩⟩⟩⟩, ?_⟩
    intro b log' h
    rw [h3, hx] at h
    cases h
  | ok dec =>
    have hX : checkDecodeX P text bitcoinAlphabet F log = ((do
        let h ← sha256X P (dropLastN 4 dec)
        let sum ← sha256X P h
        if lastN 4 dec ≠ sum.take 4 then raise .valueError "base58 decoding checksum error" else pure (dropLastN 4 dec)) : Ext Bytes) F log := by
      unfold checkDecodeX
      rw [hd]
      rfl
    have hC : checkDecode P.sha256 text = if lastN 4 dec ≠ (P.sha256 (P.sha256 (dropLastN 4 dec))).take 4 then
        raise .valueError "base58 decoding checksum error" else .ok (dropLastN 4 dec) := by
      unfold checkDecode
      rw [hd]
      rfl
    cases h1 : F log.length (.sha256 (dropLastN 4 dec)) with
    | some e =>
      have hX' : checkDecodeX P text bitcoinAlphabet F log = (.error e, log ++ [.sha256 (dropLastN 4 dec)]) := by
        rw [hX]
        simp [bind, sha256X, ask, h1]
      have h3 : checkDecodeOrX P text cls msg F log =
          (.error (caught log.length cls msg log.length e), log ++ [.sha256 (dropLastN 4 dec)]) := by
        unfold checkDecodeOrX
        rw [hX']
        by_cases hv : e.cls.isValueError <;> simp [caught, hv, raise]
      refine ⟨⟨[_], by rw [h3], by simp [work, workOf], Or.inr ⟨[], _, e, rfl, quiet_nil _ _, h1, by rw [h3]; rfl⟩⟩, ?_⟩
      intro b log' h
      rw [h3] at h
      cases h
    | none =>
      cases h2 : F (log.length + 1) (.sha256 (P.sha256 (dropLastN 4 dec))) with
      | some e =>
        have hX' : checkDecodeX P text bitcoinAlphabet F log =
            (.error e, log ++ [.sha256 (dropLastN 4 dec)] ++ [.sha256 (P.sha256 (dropLastN 4 dec))]) := by
          rw [hX]
          simp [bind, sha256X, ask, h1, h2]
        have h3 : checkDecodeOrX P text cls msg F log = (.error (caught log.length cls msg (log.length + 1) e),
            log ++ ([.sha256 (dropLastN 4 dec)] ++ [.sha256 (P.sha256 (dropLastN 4 dec))])) := by
          unfold checkDecodeOrX
          rw [hX']
          by_cases hv : e.cls.isValueError <;> simp [caught, hv, raise]
        refine ⟨⟨_, by rw [h3], by simp [work, workOf], Or.inr ⟨[_], _, e, rfl, quiet_one h1, h2, by rw [h3]; rfl⟩⟩, ?_⟩
        intro b log' h
        rw [h3] at h
        cases h
      | none =>
        have hX' : checkDecodeX P text bitcoinAlphabet F log = (checkDecode P.sha256 text,
            log ++ [.sha256 (dropLastN 4 dec)] ++ [.sha256 (P.sha256 (dropLastN 4 dec))]) := by
          rw [hX, hC]
          by_cases hc : lastN 4 dec ≠ (P.sha256 (P.sha256 (dropLastN 4 dec))).take 4
          · simp only [bind, sha256X, ask, h1, h2, List.length_append, List.length_singleton, if_pos hc]
            rfl
          · simp only [bind, sha256X, ask, h1, h2, List.length_append, List.length_singleton, if_neg hc]
            rfl
        have h3 : checkDecodeOrX P text cls msg F log = (checkDecodeOr P text cls msg,
            log ++ ([.sha256 (dropLastN 4 dec)] ++ [.sha256 (P.sha256 (dropLastN 4 dec))])) := by
          unfold checkDecodeOrX checkDecodeOr
          rw [hX', List.append_assoc]
          cases checkDecode P.sha256 text <;> rfl
        refine ⟨⟨_, by rw [h3], by simp [work, workOf], Or.inl ⟨?_, by rw [h3], fun _ => by simp [work, workOf]⟩⟩, ?_⟩
        · rw [quiet_append]
          exact ⟨quiet_one h1, quiet_one h2⟩
        · intro b log' h
          rw [h3] at h
          rw [← (Prod.mk.inj h).2]
          simp

theorem plain_caught (k : Nat) (cls : ExcClass) (msg : String) : Plain (caught k cls msg) (k + 2) := by
  intro i hi e
  rw [caught, if_neg (by omega)]

theorem followsAt_confirm (F : Faults) (o : BIP38) (ph code : Str) (net : Option String) (detail : Bool) :
    FollowsAt (caught 0 .error "Invalid confirmation code") F [] (o.confirmX P ph code net detail) (o.confirmCode P ph code net detail)
      [.scrypt 16384 8 8, .scrypt 1024 1 1] := by
  have hs := plain_caught 0 .error "Invalid confirmation code"
  unfold BIP38.confirmX BIP38.confirmCode
  refine FollowsAt.lift_bind fun _ _ => ?_
  refine FollowsAt.bind (l := []) (followsAt_try F [] code _ _).1 fun dec log' hrun _ => ?_
  have hlen := (followsAt_try F [] code _ _).2 dec log' hrun
  refine (show Follows (caught 0 .error "Invalid confirmation code") 2 _ _ _ from ?_) F log' (by simp at hlen; omega)
  refine Follows.lift fun _ _ => Follows.lift fun _ _ => Follows.lift fun _ _ => ?_
  rcases hsp : splitEntropy (slice 5 6 dec) (slice 10 18 dec) with ⟨salt, ls⟩
  simp only [hsp]
  refine Follows.bind (l := [.scrypt 16384 8 8]) (l' := [.scrypt 1024 1 1]) (follows_passFactor hs _ _ _ _) fun _ _ => ?_
  refine Follows.lift fun _ _ => Follows.lift fun _ _ => ?_
  refine Follows.ok_bind (l' := []) (follows_scrypt hs _ _ _ _ _ _) ?_
  refine Follows.lift fun _ _ => ?_
  refine Follows.bind0 (follows_aesDecrypt hs _ _) fun _ _ => ?_
  refine Follows.lift fun _ _ => ?_
  refine Follows.bind0 (follows_aesDecrypt hs _ _) fun _ _ => ?_
  refine Follows.lift fun _ _ => Follows.lift fun _ _ => ?_
  refine Follows.lift ?_
  rintro ⟨key, type⟩ _
  refine Follows.lift fun _ _ => ?_
  refine Follows.bind0 (follows_p2pkh hs _ _ _) fun _ _ => ?_
  refine Follows.lift fun _ _ => ?_
  refine Follows.bind0 (follows_checksum hs _) fun chk _ => ?_
  by_cases h : chk = slice 6 10 dec
  · simp only [if_pos h]
    cases detail with
    | false => exact Follows.pure
    | true => exact Follows.lift fun _ _ => Follows.pure
  · simp only [if_neg h]
    exact Follows.lift_end

/-- The seed of `create_new_encrypted_wif`: given, or asked for at position 0. -/
theorem followsAt_seed (F : Faults) (seed : Data) (u : Bytes) (k : Nat) (hk : (if seed.truthy then 0 else 1) = k) (cls : ExcClass) (msg : String) :
    FollowsAt (caught k cls msg) F [] (bytesOrRandomX seed u 24) (bytesOrRandom seed u) (if seed.truthy then [] else [.random 24]) ∧
      ∀ a log', bytesOrRandomX seed u 24 F [] = (.ok a, log') → log'.length = k := by
  unfold bytesOrRandomX bytesOrRandom
  by_cases h : seed.truthy
  · simp only [if_pos h] at hk ⊢
    refine ⟨FollowsAt.lift _, fun a log' hr => ?_⟩
    rw [← (Prod.mk.inj hr).2, ← hk]
    rfl
  · simp only [if_neg h] at hk ⊢
    subst hk
    cases hF : F 0 (.urandom 24) with
    | none =>
      have hr : (Bip38.ask (.urandom 24) u : Ext Bytes) F [] = (.ok u, [.urandom 24]) := by simp [Bip38.ask, hF]
      refine ⟨⟨[_], by rw [hr]; rfl, List.prefix_refl _, Or.inl ⟨quiet_one hF, by rw [hr], fun _ => rfl⟩⟩, fun a log' h => ?_⟩
      rw [hr] at h
      rw [← (Prod.mk.inj h).2]
      rfl
    | some e =>
      have hr : (Bip38.ask (.urandom 24) u : Ext Bytes) F [] = (.error e, [.urandom 24]) := by simp [Bip38.ask, hF]
      refine ⟨⟨[_], by rw [hr]; rfl, List.prefix_refl _, Or.inr ⟨[], _, e, rfl, quiet_nil _ _, hF, ?_⟩⟩, fun a log' h => ?_⟩
      · rw [hr, caught, if_neg (by simp)]
      · rw [hr] at h
        cases h

theorem followsAt_create (F : Faults) (o : BIP38) (code : Str) (wifType : String) (seed : Data) (net : Option String) (u : Bytes) :
    FollowsAt (caught (if seed.truthy then 0 else 1) .passphraseError "Invalid intermediate passphrase") F []
      (o.createX P code wifType seed net u) (o.createNewEncryptedWif P code wifType seed net u)
      ((if seed.truthy then [] else [.random 24]) ++ [.scrypt 1024 1 1]) := by
  generalize hk : (if seed.truthy then 0 else 1) = k
  have hs := plain_caught k .passphraseError "Invalid intermediate passphrase"
  unfold BIP38.createX BIP38.createNewEncryptedWif
  refine FollowsAt.lift_bind fun _ _ => ?_
  have first := followsAt_seed F seed u k hk .passphraseError "Invalid intermediate passphrase"
  refine FollowsAt.bind first.1 fun seedB log hrun0 _ => ?_
  have hlog := first.2 seedB log hrun0
  subst hlog
  refine FollowsAt.bind (l := []) (followsAt_try F log code _ _).1 fun dec log' hrun _ => ?_
  have hlen := (followsAt_try F log code _ _).2 dec log' hrun
  refine (show Follows (caught log.length .passphraseError "Invalid intermediate passphrase") (log.length + 2) _ _ _ from ?_) F log' (by omega)
  refine Follows.lift fun _ _ => Follows.lift fun _ _ => Follows.lift fun _ _ => ?_
  refine Follows.bind0 (follows_double hs _) fun _ _ => ?_
  refine Follows.lift fun _ _ => Follows.lift fun _ _ => Follows.lift fun _ _ => Follows.lift fun _ _ => ?_
  refine Follows.bind0 (follows_p2pkh hs _ _ _) fun _ _ => ?_
  refine Follows.lift fun _ _ => ?_
  refine Follows.bind0 (follows_checksum hs _) fun _ _ => ?_
  refine Follows.ok_bind (l' := []) (follows_scrypt hs _ _ _ _ _ _) ?_
  refine Follows.lift fun _ _ => Follows.lift fun _ _ => ?_
  refine Follows.bind0 (follows_aesEncrypt hs _ _) fun _ _ => ?_
  refine Follows.lift fun _ _ => ?_
  refine Follows.bind0 (follows_aesEncrypt hs _ _) fun _ _ => ?_
  refine Follows.lift fun _ _ => ?_
  refine Follows.ok_bind (l := []) (follows_checkEncode hs _ _) ?_
  refine Follows.lift fun _ _ => Follows.lift fun _ _ => Follows.lift fun _ _ => ?_
  refine Follows.bind0 (follows_aesEncrypt hs _ _) fun _ _ => ?_
  refine Follows.lift fun _ _ => ?_
  refine Follows.bind0 (follows_aesEncrypt hs _ _) fun _ _ => ?_
  refine Follows.lift fun _ _ => ?_
  refine Follows.ok_bind (l := []) (follows_checkEncode hs _ _) ?_
  exact Follows.lift fun _ _ => Follows.lift fun _ _ => Follows.pure

theorem of_ok_bind {m : Py α} {f : α → Py β} {r : β} (h : (m >>= f) = .ok r) : ∃ x, m = .ok x ∧ f x = .ok r := by
  cases m with
  | error e => cases h
  | ok x => exact ⟨x, rfl, h⟩

theorem of_checkDecodeOr {t : Str} {b : Bytes} {cls : ExcClass} {msg : String} (h : checkDecodeOr P t cls msg = .ok b) :
    checkDecode P.sha256 t = .ok b := by
  unfold checkDecodeOr at h
  cases hd : checkDecode P.sha256 t with
  | ok x => rw [hd] at h; exact h
  | error e =>
    rw [hd] at h
    simp only at h
    split at h <;> cases h

/-- A check that was passed. -/
theorem passed {q : Prop} [Decidable q] {cls : ExcClass} {msg : String} {x : Unit} (h : raiseIf q cls msg = .ok x) : ¬ q := by
  intro hq
  rw [do_raise hq] at h
  cases h

/-- A whole call. -/
theorem FollowsAt.whole {s : Nat → Exc → Exc} {F : Faults} {m : Ext α} {p : Py α} {l : List Work} (h : FollowsAt s F [] m p l) :
    Ends F (m F []).2 (m F []).1 p s ∧ work (m F []).2 <+: l ∧ (∀ a, (m F []).1 = .ok a → work (m F []).2 = l) := by
  obtain ⟨new, h1, h2, h3⟩ := h
  rw [List.nil_append] at h1
  rw [h1]
  refine ⟨?_, h2, ?_⟩
  · rcases h3 with ⟨q, r, _⟩ | ⟨init, q, e, n1, n2, n3, n4⟩
    · exact Or.inl ⟨q, r⟩
    · refine Or.inr ⟨init, q, e, n1, n2, ?_, ?_⟩
      · simpa using n3
      · simpa using n4
  · intro a ha
    rcases h3 with ⟨q, r, w⟩ | ⟨init, q, e, n1, n2, n3, n4⟩
    · exact w ⟨a, r ▸ ha⟩
    · rw [n4] at ha
      cases ha

theorem plain_id (n : Nat) : Plain (fun _ e => e) n := fun _ _ _ => rfl

/-- No external call. -/
def Silent (m : Ext α) : Prop := ∀ F log, (m F log).2 = log

theorem Silent.lift {p : Py α} : Silent (liftM p : Ext α) := fun _ _ => rfl

theorem Silent.lift_bind {p : Py α} {f : α → Ext β} (h : ∀ a, p = .ok a → Silent (f a)) : Silent ((liftM p : Ext α) >>= f) := by
  intro F log
  cases hp : p with
  | error e => rfl
  | ok a => exact h a hp F log

/-- The requests made so far stay. -/
def Grows (m : Ext α) : Prop := ∀ F log, ∃ new, (m F log).2 = log ++ new

theorem Grows.lift {p : Py α} : Grows (liftM p : Ext α) := fun _ log => ⟨[], by simp [liftM, monadLift, MonadLift.monadLift]⟩

theorem Grows.pure {a : α} : Grows (Pure.pure a : Ext α) := fun _ log => ⟨[], by simp [Pure.pure]⟩

theorem Follows.grows {s : Nat → Exc → Exc} {m : Ext α} {p : Py α} {l : List Work} (h : Follows s 0 m p l) : Grows m := by
  intro F log
  obtain ⟨new, h1, _⟩ := h F log (Nat.zero_le _)
  exact ⟨new, h1⟩

theorem Grows.bind {m : Ext α} {f : α → Ext β} (hm : Grows m) (hf : ∀ a, Grows (f a)) : Grows (m >>= f) := by
  intro F log
  have hE : (m >>= f) F log = (match m F log with
    | (.ok a, log') => f a F log'
    | (.error e, log') => (.error e, log')) := rfl
  rw [hE]
  obtain ⟨new, h1⟩ := hm F log
  rcases hr : m F log with ⟨r, log'⟩
  rw [hr] at h1
  simp only at h1
  subst h1
  cases r with
  | error e => exact ⟨new, rfl⟩
  | ok a =>
    obtain ⟨new', h2⟩ := hf a F (log ++ new)
    exact ⟨new ++ new', by rw [← List.append_assoc]; exact h2⟩

theorem grows_checkDecodeOr (text : Str) (cls : ExcClass) (msg : String) : Grows (checkDecodeOrX P text cls msg) := by
  intro F log
  obtain ⟨new, h, _⟩ := (followsAt_try (P := P) F log text cls msg).1
  exact ⟨new, h⟩

theorem x_bind (m : Ext α) (f : α → Ext β) (F : Faults) (log : List Request) : (m >>= f) F log = (match m F log with
    | (.ok a, log') => f a F log'
    | (.error e, log') => (.error e, log')) := rfl

theorem x_lift {p : Py α} {a : α} (h : p = .ok a) (f : α → Ext β) (F : Faults) (log : List Request) :
    ((liftM p : Ext α) >>= f) F log = f a F log := by
  subst h
  rfl

theorem quiet_prefix {F : Faults} {k : Nat} {a b : List Request} (h : Quiet F k (a ++ b)) : Quiet F k a := ((quiet_append _ _ _ _).mp h).1

/-- The first two requests of a quiet run that starts with stretching the passphrase. -/
theorem x_passphrase {f : Bytes → Ext β} (ph : Str) (salt : Bytes) (len : Nat) (hf : ∀ a, Grows (f a)) (F : Faults) (log new : List Request)
    (h : ((scryptPassphraseX P ph salt len >>= f) F log).2 = log ++ new) (hq : Quiet F log.length new) :
    [Request.normalize ph, .scrypt (utf8 (P.nfc ph)) salt 16384 8 8 len] <+: new := by
  have hE := x_bind (scryptPassphraseX P ph salt len) f F log
  cases h1 : F log.length (.normalize ph) with
  | some e =>
    have hr : scryptPassphraseX P ph salt len F log = (.error e, log ++ [.normalize ph]) := by
      simp [scryptPassphraseX, bind, ask, h1]
    rw [hE, hr] at h
    simp only [List.append_cancel_left_eq] at h
    subst h
    have := hq 0 _ rfl
    rw [Nat.add_zero, h1] at this
    cases this
  | none =>
    cases h2 : F (log.length + 1) (.scrypt (utf8 (P.nfc ph)) salt 16384 8 8 len) with
    | some e =>
      have hr : scryptPassphraseX P ph salt len F log =
          (.error e, log ++ ([.normalize ph] ++ [.scrypt (utf8 (P.nfc ph)) salt 16384 8 8 len])) := by
        simp [scryptPassphraseX, scryptX, bind, ask, h1, h2]
      rw [hE, hr] at h
      simp only [List.append_cancel_left_eq] at h
      subst h
      have := hq 1 _ rfl
      rw [h2] at this
      cases this
    | none =>
      have hr : scryptPassphraseX P ph salt len F log = (.ok (P.scrypt (utf8 (P.nfc ph)) salt 16384 8 8 len),
          log ++ ([.normalize ph] ++ [.scrypt (utf8 (P.nfc ph)) salt 16384 8 8 len])) := by
        simp [scryptPassphraseX, scryptX, bind, ask, h1, h2]
      rw [hE, hr] at h
      simp only at h
      obtain ⟨more, hm⟩ := hf (P.scrypt (utf8 (P.nfc ph)) salt 16384 8 8 len) F
        (log ++ ([.normalize ph] ++ [.scrypt (utf8 (P.nfc ph)) salt 16384 8 8 len]))
      rw [h, List.append_assoc, List.append_cancel_left_eq] at hm
      exact ⟨more, hm.symm⟩

/-- Everything the methods are made of grows. -/
macro "grows" : tactic => `(tactic| repeat' first
  | with_reducible exact Grows.lift
  | with_reducible exact Grows.pure
  | with_reducible exact (follows_aesEncrypt (plain_id 0) _ _).grows
  | with_reducible exact (follows_aesDecrypt (plain_id 0) _ _).grows
  | with_reducible exact (follows_p2pkh (plain_id 0) _ _ _).grows
  | with_reducible exact (follows_checksum (plain_id 0) _).grows
  | with_reducible exact (follows_double (plain_id 0) _).grows
  | with_reducible exact (follows_checkEncode (plain_id 0) _ _).grows
  | with_reducible exact (follows_toWif (plain_id 0) _ _ _ _).grows
  | with_reducible exact (follows_scrypt (plain_id 0) _ _ _ _ _ _).grows
  | with_reducible exact (follows_passFactor (plain_id 0) _ _ _ _).grows
  | with_reducible refine Grows.bind ?_ fun _ => ?_
  | split)

theorem x_assoc {γ : Type} (m : Ext α) (f : α → Ext β) (g : β → Ext γ) (F : Faults) (log : List Request) :
    ((m >>= f) >>= g) F log = (m >>= fun a => f a >>= g) F log := by
  rw [x_bind, x_bind, x_bind]
  rcases m F log with ⟨r, log'⟩
  cases r <;> rfl

/-- The same for the pass factor. -/
theorem x_passFactor {f : Bytes → Ext β} (ph : Str) (salt : Bytes) (ls : Option Bytes) (entropy : Bytes) (hf : ∀ a, Grows (f a)) (F : Faults)
    (log new : List Request) (h : ((passFactorOfX P ph salt ls entropy >>= f) F log).2 = log ++ new) (hq : Quiet F log.length new) :
    [Request.normalize ph, .scrypt (utf8 (P.nfc ph)) salt 16384 8 8 32] <+: new := by
  unfold passFactorOfX at h
  rw [x_assoc] at h
  refine x_passphrase ph salt 32 (fun a => ?_) F log new h hq
  refine Grows.bind ?_ hf
  match ls with
  | none => exact Grows.pure
  | some [] => exact Grows.pure
  | some (_ :: _) => exact (follows_double (plain_id 0) _).grows

/-- A quiet run whose first part is expected to return. -/
theorem x_quiet {s : Nat → Exc → Exc} {m : Ext α} {p : Py α} {a : α} {l : List Work} {f : α → Ext β} {F : Faults} {r : Py β} {log : List Request}
    (hm : FollowsAt s F [] m p l) (hp : p = .ok a) (hf : ∀ a, Grows (f a)) (h : (m >>= f) F [] = (r, log)) (hq : Quiet F 0 log) :
    ∃ log' new, m F [] = (.ok a, log') ∧ log = log' ++ new ∧ f a F log' = (r, log) := by
  obtain ⟨log', h1, h2, h3⟩ := hm
  rw [List.nil_append] at h1
  rw [x_bind] at h
  rcases hr : m F [] with ⟨r1, log1⟩
  rw [hr] at h h1 h3
  simp only at h1
  subst h1
  have hgrow : ∃ new, log = log1 ++ new := by
    cases r1 with
    | error x =>
      simp only at h
      exact ⟨[], by rw [List.append_nil, ← (Prod.mk.inj h).2]⟩
    | ok b =>
      simp only at h
      obtain ⟨new, hn⟩ := hf b F log1
      exact ⟨new, by rw [← hn, h]⟩
  obtain ⟨new, rfl⟩ := hgrow
  rcases h3 with ⟨_, g2, _⟩ | ⟨init, q, e, g1, g2, g3, g4⟩
  · simp only at g2
    rw [hp] at g2
    subst g2
    exact ⟨log1, new, rfl, rfl, h⟩
  · exfalso
    subst g1
    have := hq init.length q (by simp)
    rw [List.length_nil] at g3
    rw [this] at g3
    cases g3

end Bip38
