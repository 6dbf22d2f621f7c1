import Verif.SrcX.SameText
import Verif.Props.SourceWork
/-!
# Property C99 on the text: which external functions a call uses, in which order

The plans are those of `Spec/Steps.lean`, which C99 gives for the model of `Model/External.lean`.
-/
set_option linter.style.longLine false
namespace Bip38.Props
open Bip38 Spec Src SrcX

variable (H : Host)

private theorem address_plan {r : Bool} (hr : H.P.hashlibRipemd160.isSome = r) : addressSteps H.P = [.sha256] ++ rip r ++ twice := by
  subst hr
  unfold addressSteps
  cases H.P.hashlibRipemd160 <;> rfl

private theorem plans {a : Seqs} {l : List (List ExtStep)} {x : SrcX.Fn} (h : SqF a x)
    (hl : (a.ok.all l.elem && (a.ok ++ a.bad).all fun t => l.any t.isPrefixOf) = true) : Plans l x := by
  intro args kw F log r log' hx
  obtain ⟨done, hd, h1, h2⟩ := h args kw F log r log' hx
  obtain ⟨g1, g2⟩ := Bool.and_eq_true_iff.mp hl
  have key : ∀ t ∈ a.ok ++ a.bad, ∃ p ∈ l, t <+: p := fun t ht => by
    obtain ⟨p, hp, hq⟩ := List.any_eq_true.mp (List.all_eq_true.mp g2 t ht)
    exact ⟨p, hp, List.isPrefixOf_iff_prefix.mp hq⟩
  refine ⟨done, hd, fun v hv => List.elem_iff.mp (List.all_eq_true.mp g1 _ (h1 v hv)), ?_⟩
  cases r with
  | ok v => exact key _ (List.mem_append_left _ (h1 v rfl))
  | error e =>
    obtain ⟨u, hu, hp⟩ := h2 e rfl
    obtain ⟨p, hp', hq⟩ := key u (List.mem_append_right _ hu)
    exact ⟨p, hp', hp.trans hq⟩

/-- C99 on the text: `encrypt`, with arguments of any number and kind, and whichever external calls raise. -/
theorem C99_text_encrypt : Plans [encryptSteps H.P] (SrcX.BIP38_encrypt H) := by
  rcases hr : H.P.hashlibRipemd160.isSome
  all_goals
    rw [encryptSteps, address_plan H hr]
    exact plans (sq_BIP38_encrypt H hr) (by decide +kernel)

/-- C99 on the text: `decrypt`: one plan without, and two with EC multiplication (without and with lot and sequence). -/
theorem C99_text_decrypt : Plans [decryptSteps H.P, decryptEcSteps H.P 0x00, decryptEcSteps H.P 0x04] (SrcX.BIP38_decrypt H) := by
  rcases hr : H.P.hashlibRipemd160.isSome
  all_goals
    rw [decryptSteps, decryptEcSteps, decryptEcSteps, address_plan H hr]
    exact plans (sq_BIP38_decrypt H hr) (by decide +kernel)

/-- C99 on the text: `confirm_code`, without and with lot and sequence. -/
theorem C99_text_confirm : Plans [confirmSteps H.P 0x00, confirmSteps H.P 0x04] (SrcX.BIP38_confirm_code H) := by
  rcases hr : H.P.hashlibRipemd160.isSome
  all_goals
    rw [confirmSteps, confirmSteps, address_plan H hr]
    exact plans (sq_BIP38_confirm_code H hr) (by decide +kernel)

/-- C99 on the text: `create_new_encrypted_wif`, with and without a given seed. -/
theorem C99_text_create : Plans [createSteps H.P true, createSteps H.P false] (SrcX.BIP38_create_new_encrypted_wif H) := by
  rcases hr : H.P.hashlibRipemd160.isSome
  all_goals
    rw [createSteps, createSteps, address_plan H hr]
    exact plans (sq_BIP38_create_new_encrypted_wif H hr) (by decide +kernel)

/-- C99 on the text: `intermediate_code`, with and without a given salt, lot and sequence. -/
theorem C99_text_intermediate :
    Plans [intermediateSteps true true, intermediateSteps true false, intermediateSteps false true, intermediateSteps false false]
      (SrcX.BIP38_intermediate_code H) :=
  plans (sq_BIP38_intermediate_code H rfl) (by decide +kernel)

/-- C99 on the text: the functions on hashes, Base58Check texts, WIFs and addresses. -/
theorem C99_text_parts :
    Plans [[]] (SrcX.BIP38_init H) ∧ Plans [twice] (SrcX.crypto_double_sha256 H) ∧ Plans [twice] (SrcX.crypto_get_checksum H) ∧
    Plans [twice] (SrcX.base58_check_encode H) ∧ Plans [twice] (SrcX.base58_check_decode H) ∧
    Plans [twice ++ twice] (SrcX.wif_encode_wif H) ∧ Plans [twice ++ twice] (SrcX.wif_private_key_to_wif H) ∧
    Plans [[]] (SrcX.wif_decode_wif H) ∧ Plans [[]] (SrcX.wif_wif_to_private_key H) ∧ Plans [[]] (SrcX.wif_get_wif_type H) ∧
    Plans [[]] (SrcX.wif_get_wif_checksum H) ∧ Plans [addressSteps H.P] (SrcX.P2PKHAddress_encode H) ∧ Plans [twice] (SrcX.P2PKHAddress_decode H) := by
  rcases hr : H.P.hashlibRipemd160.isSome
  all_goals
    rw [address_plan H hr]
    exact ⟨plans (sq_BIP38_init H hr) (by decide +kernel), plans (sq_crypto_double_sha256 H hr) (by decide +kernel),
      plans (sq_crypto_get_checksum H hr) (by decide +kernel), plans (sq_base58_check_encode H hr) (by decide +kernel),
      plans (sq_base58_check_decode H hr) (by decide +kernel), plans (sq_wif_encode_wif H hr) (by decide +kernel),
      plans (sq_wif_private_key_to_wif H hr) (by decide +kernel), plans (sq_wif_decode_wif H hr) (by decide +kernel),
      plans (sq_wif_wif_to_private_key H hr) (by decide +kernel), plans (sq_wif_get_wif_type H hr) (by decide +kernel),
      plans (sq_wif_get_wif_checksum H hr) (by decide +kernel), plans (sq_P2PKHAddress_encode H hr) (by decide +kernel),
      plans (sq_P2PKHAddress_decode H hr) (by decide +kernel)⟩

/-- C99 on the text: for any two calls of `encrypt`, whatever the arguments (`SeenAlike` and `Alike` of `Spec/Order.lean`: what is seen of one is an
initial part of what is seen of the other, a call that raises stops somewhere on the way of one that returns, and they are equal if both return), also
if `os.urandom` gives other bytes in the second. -/
theorem C99_text_encrypt_secret (u : Nat → Bytes) : SeenAlike (fun _ _ _ _ => True) (SrcX.BIP38_encrypt H) (SrcX.BIP38_encrypt (redraw H u)) := by
  rcases hr : H.P.hashlibRipemd160.isSome
  all_goals
    intro args kw args' kw' _ F F' r r' done done' h h'
    obtain ⟨d, d', hd, hd', hs, _⟩ := same_any (sq_BIP38_encrypt H hr args kw) (sq_BIP38_encrypt (redraw H u) hr args' kw') (by decide +kernel) _ _ _ _ _ _ _ _ h h'
    rw [List.nil_append] at hd hd'
    subst hd hd'
    exact hs

/-- C99 on the text: two calls of `decrypt` with the same encrypted text are seen alike, whatever the passphrases, the objects, the networks and the other
arguments, of any kind, and the random bytes. -/
theorem C99_text_decrypt_secret (u : Nat → Bytes) :
    SeenAlike (fun args kw args' kw' => given 1 v!"encrypted_wif" args kw = given 1 v!"encrypted_wif" args' kw') (SrcX.BIP38_decrypt H)
      (SrcX.BIP38_decrypt (redraw H u)) :=
  seen_decrypt H u rfl rfl

/-- C99 on the text: two calls of `confirm_code` with the same confirmation code. -/
theorem C99_text_confirm_secret (u : Nat → Bytes) :
    SeenAlike (fun args kw args' kw' => given 2 v!"confirmation_code" args kw = given 2 v!"confirmation_code" args' kw') (SrcX.BIP38_confirm_code H)
      (SrcX.BIP38_confirm_code (redraw H u)) :=
  seen_confirm H u rfl rfl

/-- C99 on the text: two calls of `intermediate_code` (without `self`), of each of which a lot, a sequence and a salt is given, or not given, alike. -/
theorem C99_text_intermediate_secret (u : Nat → Bytes) :
    SeenAlike (fun args kw args' kw' => told 1 v!"lot" args kw = told 1 v!"lot" args' kw' ∧ told 2 v!"sequence" args kw = told 2 v!"sequence" args' kw' ∧
      told 3 v!"owner_salt" args kw = told 3 v!"owner_salt" args' kw') (SrcX.BIP38_intermediate_code H)
      (SrcX.BIP38_intermediate_code (redraw H u)) :=
  seen_intermediate H u rfl rfl

/-- C99 on the text: two calls of `create_new_encrypted_wif`, both with or both without a seed. -/
theorem C99_text_create_secret (u : Nat → Bytes) :
    SeenAlike (fun args kw args' kw' => told 3 v!"seed" args kw = told 3 v!"seed" args' kw') (SrcX.BIP38_create_new_encrypted_wif H)
      (SrcX.BIP38_create_new_encrypted_wif (redraw H u)) :=
  seen_create H u rfl rfl

private theorem alike_eq {v v' : Val} {d d' : List SrcX.Call} (h : Alike (.ok v) d (.ok v') d') : trace d = trace d' :=
  (h.2.2 v' rfl).eq_of_length_le (h.2.1 v rfl).length_le

private theorem ends {α : Type} {caught : SrcX.Call → Exc → Prop} {x : SrcX.Fn} {y : Src.Fn} (h : PassesOn caught x y) {args : List Val} {m : Py α} {value : α → Val}
    (hm : EndsAs (y args []) m value) : ∃ r done, x args [] (fun _ _ => none) [] = some (r, done) ∧ ∀ a, m = .ok a → r = .ok (value a) := by
  obtain ⟨d, hx⟩ := C92_no_fault h args []
  cases m with
  | ok a =>
    rw [hm.1 a rfl] at hx
    exact ⟨_, d, hx, fun b hb => by cases hb; rfl⟩
  | error e =>
    rw [hm.2 e rfl] at hx
    exact ⟨_, d, hx, fun b hb => by cases hb⟩

/-- A case: a text that `encrypt` made, decrypted with the right passphrase, and tried with any other one: that is seen to do the same, at most less. -/
example (guess : Str) (u : Nat → Bytes) : ∃ (H : Host) (e : Str) (v : Val) (r' : Py Val) (done done' : List SrcX.Call),
    SrcX.BIP38_decrypt H [bipVal bitcoinObject, .str e, .str [], optNet none, .bool false] [] (fun _ _ => none) [] = some (.ok v, done) ∧
    SrcX.BIP38_decrypt (redraw H u) [bipVal bitcoinObject, .str e, .str guess, optNet none, .bool false] [] (fun _ _ => none) [] = some (r', done') ∧
    trace done' <+: trace done ∧ trace done ≠ [] := by
  let H : Host := ⟨toy 1 0xff, fun n => List.replicate n 5, fun _ => .ok 0, false⟩
  have hk : IsPrivateKey (List.replicate 32 1) := by decide +kernel
  obtain ⟨w, hw, _⟩ := C07_wif_roundtrip (toy 1 0xff) (toy_lawful _ _) _ _ _ bitcoin_selects.net _ hk.1 "wif" (Or.inl rfl)
  obtain ⟨e, he⟩ := toy_encrypts _ hk (by decide) (by decide) w hw
  have hd := (C17_roundtrip_iff (toy_lawful _ _) bitcoin_selects _ hk _ (Or.inl rfl) w [] e hw he).1.mpr (by decide +kernel)
  obtain ⟨r, d, h, hv⟩ := ends (C92_bip38 H).2.2.2.2.2 (C86_decrypt H (toy_lawful _ _) bitcoinObject e [] none false)
  obtain ⟨r', d', h', _⟩ := ends (C92_bip38 (redraw H u)).2.2.2.2.2 (C86_decrypt (redraw H u) (toy_lawful _ _) bitcoinObject e guess none false)
  obtain rfl := hv _ hd
  refine ⟨H, e, _, r', d, d', h, h', (C99_text_decrypt_secret H u _ _ _ _ (by rfl) _ _ _ _ _ _ h h').2.1 _ rfl, ?_⟩
  obtain ⟨d0, hd0, h1, _⟩ := C99_text_decrypt H _ _ _ _ _ _ h
  rw [List.nil_append] at hd0
  subst hd0
  intro hn
  have := h1 _ rfl
  rw [hn] at this
  revert this
  decide +kernel

/-- A case: any two passphrases, with salts. -/
example (p p' : Str) (u : Nat → Bytes) : ∃ (r r' : Py Val) (done done' : List SrcX.Call),
    SrcX.BIP38_intermediate_code H [.str p, .none, .none, .bytes [1, 2, 3, 4, 5, 6, 7, 8]] [] (fun _ _ => none) [] = some (r, done) ∧
    SrcX.BIP38_intermediate_code (redraw H u) [.str p', .none, .none, .str "0102030405060708".toList] [] (fun _ _ => none) [] = some (r', done') ∧
    Alike r done r' done' := by
  have key := C99_text_intermediate_secret H u [.str p, .none, .none, .bytes [1, 2, 3, 4, 5, 6, 7, 8]] [] [.str p', .none, .none, .str "0102030405060708".toList] []
    ⟨rfl, rfl, rfl⟩
  obtain ⟨r, d, h, _⟩ := ends (C92_bip38 H).2.1 (C86_intermediate_code H p none none (.bytes [1, 2, 3, 4, 5, 6, 7, 8]))
  obtain ⟨r', d', h', _⟩ := ends (C92_bip38 (redraw H u)).2.1 (C86_intermediate_code (redraw H u) p' none none (.str "0102030405060708".toList))
  exact ⟨r, r', d, d', h, h', key _ _ _ _ _ _ h h'⟩

/-- A case: `encrypt` of two keys by the text of the repository. -/
example : ∃ (H : Host) (args args' : List Val) (v v' : Val) (done done' : List SrcX.Call), args ≠ args' ∧
    SrcX.BIP38_encrypt H args [] (fun _ _ => none) [] = some (.ok v, done) ∧
    SrcX.BIP38_encrypt H args' [] (fun _ _ => none) [] = some (.ok v', done') ∧ trace done = trace done' ∧ trace done = encryptSteps H.P := by
  let H : Host := ⟨toy 1 0xff, fun n => List.replicate n 5, fun _ => .ok 0, false⟩
  have run : ∀ key, IsPrivateKey key → key.getD 0 0 ≠ 0xff → key.getD 16 0 ≠ 0xff → ∃ w v done,
      SrcX.BIP38_encrypt H [bipVal bitcoinObject, .str w, .str [], optNet none] [] (fun _ _ => none) [] = some (.ok v, done) ∧
      wifToPrivateKey w Coins.Bitcoin "mainnet" = .ok (hex key) := by
    intro key hk h0 h16
    obtain ⟨w, hw, hkey, _⟩ := C07_wif_roundtrip (toy 1 0xff) (toy_lawful _ _) _ _ _ bitcoin_selects.net _ hk.1 "wif" (Or.inl rfl)
    obtain ⟨e, he⟩ := toy_encrypts _ hk h0 h16 w hw
    have h1 := (C86_encrypt H (toy_lawful _ _) bitcoinObject w [] none).1 e he
    obtain ⟨d, hx⟩ := C92_no_fault (C92_bip38 H).2.2.1 _ _
    rw [h1] at hx
    exact ⟨w, _, d, hx, hkey⟩
  obtain ⟨w, v, d, h, hk⟩ := run (List.replicate 32 1) (by decide +kernel) (by decide) (by decide)
  obtain ⟨w', v', d', h', hk'⟩ := run (List.replicate 32 2) (by decide +kernel) (by decide) (by decide)
  refine ⟨H, _, _, v, v', d, d', ?_, h, h', alike_eq (C99_text_encrypt_secret H H.urandom _ _ _ _ trivial _ _ _ _ _ _ h h'), ?_⟩
  · intro heq
    have : w = w' := by
      injection heq with _ heq
      injection heq with heq
      injection heq
    subst this
    rw [hk] at hk'
    exact absurd (Except.ok.inj hk') (by decide +kernel)
  · obtain ⟨d0, hd, h1, _⟩ := C99_text_encrypt H _ _ _ _ _ _ h
    rw [List.nil_append] at hd
    subst hd
    exact List.mem_singleton.mp (h1 v rfl)

end Bip38.Props
