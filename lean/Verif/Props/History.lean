import Verif.Spec.History
import Verif.Props.Outcome
/-!
# Property C71: a private key survives every history
-/
namespace Bip38.Props
open Bip38 Spec

variable {P : Prims}

/-- What a returning `decrypt` says at one place holds of every place (used below). -/
theorem worth_of_decrypt (hP : P.Lawful) (pl : Place) (e pass : Str) (d : DecryptDetail)
    (h : pl.obj.decrypt P e pass pl.network true = .ok (.detail d)) (key : Bytes) (type : String)
    (hk : d.privateKey = hex key) (ht : d.wifType = type) : Worth P key type (.encrypted e pass) := by
  intro pl'
  obtain ⟨key', type', pk, hdes, hpk, hsame, hdiff⟩ := C61_decrypt_elsewhere hP pl.selects pl'.selects e pass d h
  have e1 : key' = key := hex_inj (hdes.private_key.symm.trans hk)
  have e2 : type' = type := hdes.wif_type.1.symm.trans ht
  subst e1 e2
  by_cases hc : checksum P (utf8 (addressText P pl'.net pk d.publicKeyType)) = checksum P (utf8 d.address)
  · obtain ⟨d', h1, h2, hd', _⟩ := hsame hc
    have hr : wifToPrivateKey d'.wif pl'.coin pl'.name = .ok (hex key') ∧ getWifType d'.wif pl'.coin pl'.name = .ok type' := by
      have := hd'.reads
      rw [hd'.private_key, hd'.wif_type.1] at this
      exact this
    refine ⟨fun w hw => ?_, fun d2 hd2 => ?_⟩
    · have := Except.ok.inj (hw.symm.trans h2)
      simp only [DecryptOut.wif.injEq] at this
      subst this
      exact hr
    · have := Except.ok.inj (hd2.symm.trans h1)
      simp only [DecryptOut.detail.injEq] at this
      subst this
      exact ⟨hd'.private_key, hd'.wif_type.1, hr⟩
  · refine ⟨fun w hw => ?_, fun d2 hd2 => ?_⟩
    · obtain ⟨x, hx, _⟩ := hdiff hc false
      rw [hx] at hw; simp at hw
    · obtain ⟨x, hx, _⟩ := hdiff hc true
      rw [hx] at hd2; simp at hd2

theorem worth_of_encrypt (hP : P.Lawful) (pl : Place) (w pass e : Str) (h : pl.obj.encrypt P w pass pl.network = .ok e)
    (key : Bytes) (type : String) (hr : Worth P key type (.wif pl w)) : Worth P key type (.encrypted e pass) := by
  obtain ⟨key', type', hw, ht, hk, hty⟩ := encrypt_reads pl.selects w pass e h
  have e1 : key' = key := hex_inj (Except.ok.inj (hw.symm.trans hr.1))
  have e2 : type' = type := Except.ok.inj (ht.symm.trans hr.2)
  subst e1 e2
  obtain ⟨pk, hpk, _, _⟩ := priv_ok key' hk
  have he := encrypt_record hP pl.selects w pass e key' type' hw ht hk hty pk hpk h
  intro pl'
  have hd := fun detail => decrypt_record hP pl'.selects e pass detail type' hty key' _ _ hk (addressHash_length hP _ _ _) (checksum_length hP _) pk hpk he
  have hdes := describes_keyDetail hP pl'.selects key' hk pk hpk type' hty none none
  have hrd := hdes.reads
  rw [hdes.private_key, hdes.wif_type.1] at hrd
  refine ⟨fun w2 h2 => ?_, fun d2 h2 => ?_⟩
  · rw [hd] at h2
    split at h2
    · simp at h2
    split at h2
    · simp only [present, Except.ok.injEq, Bool.false_eq_true, if_false, DecryptOut.wif.injEq] at h2
      subst h2
      exact hrd
    · simp at h2
  · rw [hd] at h2
    split at h2
    · simp at h2
    split at h2
    · simp only [present, Except.ok.injEq, if_true, DecryptOut.detail.injEq] at h2
      subst h2
      exact ⟨hdes.private_key, hdes.wif_type.1, hrd⟩
    · simp at h2

theorem worth_of_move (hP : P.Lawful) (pl pl' : Place) (w k w' : Str) (type' : String) (hk : wifToPrivateKey w pl.coin pl.name = .ok k)
    (ht : getWifType w pl.coin pl.name = .ok type') (hw : privateKeyToWif P (.str k) type' pl'.coin pl'.name = .ok w')
    (key : Bytes) (type : String) (hkl : key.length = 32) (hty : IsWifType type) (hr : Worth P key type (.wif pl w)) :
    Worth P key type (.wif pl' w') ∧ privateKeyToWif P (.bytes key) type pl'.coin pl'.name = .ok w' := by
  have e1 : k = hex key := Except.ok.inj (hk.symm.trans hr.1)
  have e2 : type' = type := Except.ok.inj (ht.symm.trans hr.2)
  subst e1 e2
  rw [C07_hex_key P key hkl] at hw
  obtain ⟨w2, h1, h2, h3, _⟩ := C07_wif_roundtrip P hP pl'.coin pl'.name pl'.net pl'.selects.net key hkl type' hty
  have := Except.ok.inj (h1.symm.trans hw)
  subst this
  exact ⟨⟨h2, h3⟩, h1⟩

/-- One step keeps the worth. -/
theorem C71_step (hP : P.Lawful) (s t : Holding) (key : Bytes) (type : String) (hkl : key.length = 32) (hty : IsWifType type)
    (hs : Worth P key type s) (h : Step P s t) : Worth P key type t := by
  cases h with
  | encrypt pl w pass e h => exact worth_of_encrypt hP pl w pass e h key type hs
  | decrypt pl e pass w h => exact (hs pl).1 w h
  | decryptDetail pl e pass d h => exact ((hs pl).2 d h).2.2
  | move pl pl' w k w' type' hk ht hw => exact (worth_of_move hP pl pl' w k w' type' hk ht hw key type hkl hty hs).1

/-- C71: whatever the user does, in any order and any number of times — encrypt with any passphrases, decrypt on any networks
of any coins, rewrite WIFs for other networks — what is held at the end is the private key and the type of the beginning. -/
theorem C71_history (hP : P.Lawful) (s t : Holding) (key : Bytes) (type : String) (hkl : key.length = 32) (hty : IsWifType type)
    (hs : Worth P key type s) (h : Steps P s t) : Worth P key type t := by
  induction h with
  | none => exact hs
  | more _ h ih => exact C71_step hP _ _ key type hkl hty ih h

/-- A WIF that is read has a key of 32 bytes and one of the two types. -/
theorem read_wif (pl : Place) (w k : Str) (type : String) (hk : wifToPrivateKey w pl.coin pl.name = .ok k)
    (ht : getWifType w pl.coin pl.name = .ok type) : ∃ key : Bytes, k = hex key ∧ key.length = 32 ∧ IsWifType type := by
  unfold getWifType at ht
  unfold wifToPrivateKey at hk
  rw [lookupNet_ok pl.selects.net, py_bind rfl] at ht hk
  cases hd : decodeWif w pl.net.wifPrefix with
  | error x => rw [py_bind_err hd] at ht; simp at ht
  | ok r =>
    obtain ⟨key, type', chk⟩ := r
    rw [py_bind hd] at ht hk
    have hiff := (C09_decode_wif_iff w pl.net.wifPrefix key chk type').mp hd
    have e2 : type' = type := Except.ok.inj ht
    subst e2
    refine ⟨key, Except.ok.inj (hk.symm.trans (bytesToString_bytes key)), hiff.1, ?_⟩
    rcases hiff.2.2 with h | h <;> [exact Or.inl h.1; exact Or.inr h.1]

/-- C71, from a WIF to a WIF. -/
theorem C71_wif (hP : P.Lawful) (pl pl' : Place) (w w' k : Str) (type : String) (hk : wifToPrivateKey w pl.coin pl.name = .ok k)
    (ht : getWifType w pl.coin pl.name = .ok type) (h : Steps P (.wif pl w) (.wif pl' w')) :
    wifToPrivateKey w' pl'.coin pl'.name = .ok k ∧ getWifType w' pl'.coin pl'.name = .ok type := by
  obtain ⟨key, rfl, hl, hty⟩ := read_wif pl w k type hk ht
  exact C71_history hP (.wif pl w) (.wif pl' w') key type hl hty ⟨hk, ht⟩ h

/-- C71, from an encrypted text (for instance one of `create_new_encrypted_wif`) that decrypts anywhere: all later WIFs and
encrypted texts hold the key of that decryption. -/
theorem C71_encrypted (hP : P.Lawful) (pl : Place) (e pass : Str) (d : DecryptDetail)
    (hd : pl.obj.decrypt P e pass pl.network true = .ok (.detail d)) (pl' : Place) (w' : Str)
    (h : Steps P (.encrypted e pass) (.wif pl' w')) :
    wifToPrivateKey w' pl'.coin pl'.name = .ok d.privateKey ∧ getWifType w' pl'.coin pl'.name = .ok d.wifType := by
  obtain ⟨rec, key, type, d0, _, _, _, hdes, _, hdd, _⟩ := C20_C21_returned_key hP pl.selects e pass true _ hd
  have := Except.ok.inj (hdd.symm.trans hd)
  simp only [DecryptOut.detail.injEq] at this
  subst this
  have := C71_history hP _ _ key type hdes.priv.1 hdes.wif_type.2
    (worth_of_decrypt hP pl e pass d0 hd key type hdes.private_key hdes.wif_type.1) h
  rw [hdes.private_key, hdes.wif_type.1]
  exact this

/-- The WIF that ends a history is the one the library writes for the key, unless no step was taken. -/
theorem C71_canonical (hP : P.Lawful) (s : Holding) (pl' : Place) (w' : Str) (key : Bytes) (type : String) (hkl : key.length = 32)
    (hty : IsWifType type) (hs : Worth P key type s) (h : Steps P s (.wif pl' w')) :
    s = .wif pl' w' ∨ privateKeyToWif P (.bytes key) type pl'.coin pl'.name = .ok w' := by
  cases h with
  | none => exact Or.inl rfl
  | more h1 h2 =>
    rename_i t
    right
    have ht := C71_history hP _ _ key type hkl hty hs h1
    have hcan : ∀ e pass, Worth P key type (.encrypted e pass) → ∀ d : DecryptDetail,
        pl'.obj.decrypt P e pass pl'.network true = .ok (.detail d) → privateKeyToWif P (.bytes key) type pl'.coin pl'.name = .ok d.wif := by
      intro e pass hw d hd
      obtain ⟨rec, key', type', d0, _, _, _, hdes, _, hdd, _⟩ := C20_C21_returned_key hP pl'.selects e pass true _ hd
      have := Except.ok.inj (hdd.symm.trans hd)
      simp only [DecryptOut.detail.injEq] at this
      subst this
      obtain ⟨w1, w2, _⟩ := (hw pl').2 d0 hd
      have e1 : key' = key := hex_inj (hdes.private_key.symm.trans w1)
      have e2 : type' = type := hdes.wif_type.1.symm.trans w2
      rw [← e1, ← e2]; exact hdes.wif
    cases h2 with
    | decrypt _ e pass _ h =>
      obtain ⟨rec, key', type', d0, _, _, _, hdes, _, hdd, hdw⟩ := C20_C21_returned_key hP pl'.selects e pass false _ h
      have := Except.ok.inj (hdw.symm.trans h)
      simp only [DecryptOut.wif.injEq] at this
      rw [← this]
      exact hcan e pass ht d0 hdd
    | decryptDetail _ e pass d h => exact hcan e pass ht d h
    | move pl _ w k _ type' hk ht' hw => exact (worth_of_move hP pl pl' w k w' type' hk ht' hw key type hkl hty ht).2

/-- C71, the way does not matter: two histories of one holding that end on the same network end with WIFs that `encrypt` cannot
tell apart, whatever the passphrase; and if each took at least one step, with the same WIF. -/
theorem C71_path_independent (hP : P.Lawful) (s : Holding) (key : Bytes) (type : String) (hkl : key.length = 32)
    (hty : IsWifType type) (hs : Worth P key type s) (pl : Place) (w w' : Str) (h : Steps P s (.wif pl w)) (h' : Steps P s (.wif pl w')) :
    (∀ pass e, pl.obj.encrypt P w pass pl.network = .ok e ↔ pl.obj.encrypt P w' pass pl.network = .ok e) ∧
    (s ≠ .wif pl w → s ≠ .wif pl w' → w = w') := by
  refine ⟨?_, fun n n' => ?_⟩
  · have one : ∀ w w' : Str, Steps P s (.wif pl w) → Steps P s (.wif pl w') → ∀ pass e, pl.obj.encrypt P w pass pl.network = .ok e →
        pl.obj.encrypt P w' pass pl.network = .ok e := by
      intro w w' h h' pass e he
      have hw := C71_history hP _ _ key type hkl hty hs h
      have hw' := C71_history hP _ _ key type hkl hty hs h'
      obtain ⟨key2, type2, g1, g2, hk, _⟩ := encrypt_reads pl.selects w pass e he
      have e1 : key2 = key := hex_inj (Except.ok.inj (g1.symm.trans hw.1))
      subst e1
      obtain ⟨pk, hpk, _, _⟩ := priv_ok key2 hk
      rw [encrypt_eq hP pl.selects w' pass key2 type hw'.1 hw'.2 hk hty pk hpk,
        ← encrypt_eq hP pl.selects w pass key2 type hw.1 hw.2 hk hty pk hpk]
      exact he
    exact fun pass e => ⟨one w w' h h' pass e, one w' w h' h pass e⟩
  · have a := (C71_canonical hP s pl w key type hkl hty hs h).resolve_left n
    have b := (C71_canonical hP s pl w' key type hkl hty hs h').resolve_left n'
    exact Except.ok.inj (a.symm.trans b)

/-- `decrypt` returns no key that starts with a zero byte (a consequence of finding C18/C60). -/
theorem C71_returned_large (hP : P.Lawful) (pl : Place) (e pass w k : Str)
    (h : pl.obj.decrypt P e pass pl.network = .ok (.wif w)) (hk : wifToPrivateKey w pl.coin pl.name = .ok k) :
    ∃ key : Bytes, k = hex key ∧ key.length = 32 ∧ 2 ^ 248 ≤ be key := by
  have hs := pl.selects
  obtain ⟨rec, key, type, d, hdec, hl, hform, hdes, _, hdd, hdw⟩ := C20_C21_returned_key hP hs e pass false _ h
  have hwd := Except.ok.inj (hdw.symm.trans h)
  simp only [DecryptOut.wif.injEq] at hwd
  subst hwd
  have hkk := hdes.reads.1
  rw [hdes.private_key] at hkk
  have e1 : k = hex key := Except.ok.inj (hk.symm.trans hkk)
  refine ⟨key, e1, hdes.priv.1, ?_⟩
  have hh := head_iff_ge key 31 hdes.priv.1
  rw [show (256 : Nat) ^ 31 = 2 ^ 248 by norm_num] at hh
  refine hh.mp ?_
  obtain ⟨p, r, rfl, hp, hr⟩ := split_at' rec 3 40 (by omega)
  obtain ⟨a, b, f, rfl⟩ : ∃ a b f, p = [a, b, f] := by
    match p, hp with
    | [a, b, f], _ => exact ⟨a, b, f, rfl⟩
  have hfin : ∀ d' : DecryptDetail, ∀ key' : Bytes, d'.privateKey = hex key' → key'.head? ≠ some 0 →
      pl.obj.decrypt P e pass pl.network true = .ok (present true d') → key.head? ≠ some 0 := by
    intro d' key' h1 h2 h3
    have := Except.ok.inj (hdd.symm.trans h3)
    simp only [present, if_true, DecryptOut.detail.injEq] at this
    subst this
    rw [hex_inj (hdes.private_key.symm.trans h1)]
    exact h2
  rcases hform with ⟨hpre, _⟩ | ⟨hpre, _⟩
  · have hab : a = 0x01 ∧ b = 0x42 := by simpa using hpre
    obtain ⟨rfl, rfl⟩ := hab
    obtain ⟨hash, c1, c2, chk, rfl, g1, g2, g3, g4⟩ := split_noEc r hr
    obtain ⟨_, key', pk, _, _, _, _, h0, _, _, hall⟩ := noEc_returns hP hs e pass true _ f hash c1 c2 chk g1 g2 g3 g4 hdec hdd
    exact hfin _ key' rfl h0 (hall true)
  · have hab : a = 0x01 ∧ b = 0x43 := by simpa using hpre
    obtain ⟨rfl, rfl⟩ := hab
    obtain ⟨hash, ent, h11, e2, chk, rfl, g1, g2, g3, g4, g5⟩ := split_ec r hr
    obtain ⟨_, _, _, key', pk, _, _, _, _, _, _, _, _, _, h0, _, _, hall⟩ :=
      ec_returns hP hs e pass true _ f hash ent h11 e2 chk g1 g2 g3 g4 g5 hdec hdd
    exact hfin _ key' rfl h0 (hall true)

/-- C71: a WIF that came from `decrypt`, encrypted with another passphrase, always decrypts to itself. -/
theorem C71_reencrypt (hP : P.Lawful) (pl : Place) (e pass w e2 pass2 : Str)
    (h : pl.obj.decrypt P e pass pl.network = .ok (.wif w)) (h2 : pl.obj.encrypt P w pass2 pl.network = .ok e2) :
    pl.obj.decrypt P e2 pass2 pl.network = .ok (.wif w) := by
  obtain ⟨rec, key, type, d, _, _, _, hdes, _, _, hdw⟩ := C20_C21_returned_key hP pl.selects e pass false _ h
  have hwd := Except.ok.inj (hdw.symm.trans h)
  simp only [DecryptOut.wif.injEq] at hwd
  subst hwd
  have hkk := hdes.reads.1
  rw [hdes.private_key] at hkk
  obtain ⟨key', e1, _, hge⟩ := C71_returned_large hP pl e pass d.wif _ h hkk
  have := hex_inj e1
  subst this
  exact (C17_roundtrip_iff hP pl.selects key hdes.priv type hdes.wif_type.2 d.wif pass2 e2 hdes.wif h2).1.mpr hge

/-- C71: after any number of passphrase changes the last encrypted text decrypts, with the last passphrase, to the WIF of the
beginning. -/
theorem C71_rekeyed (hP : P.Lawful) (pl : Place) (e pass w : Str) (h : pl.obj.decrypt P e pass pl.network = .ok (.wif w))
    (e' pass' : Str) (hr : Rekeyed P pl e pass e' pass') : pl.obj.decrypt P e' pass' pl.network = .ok (.wif w) := by
  induction hr with
  | none => exact h
  | more w1 e2 pass2 _ h1 h2 ih =>
    have := Except.ok.inj (h1.symm.trans ih)
    simp only [DecryptOut.wif.injEq] at this
    subst this
    exact C71_reencrypt hP pl _ _ w1 e2 pass2 h1 h2

/-- Concrete case: the WIF of the key `01…01` is encrypted, decrypted and rewritten for the test network. -/
example : ∃ (pl pl' : Place) (w w' k : Str), pl.name = "mainnet" ∧ pl'.name = "testnet" ∧
    wifToPrivateKey w pl.coin pl.name = .ok k ∧ getWifType w pl.coin pl.name = .ok "wif" ∧
    (∃ e, pl.obj.encrypt (toy 1 0xff) w [] pl.network = .ok e) ∧
    Steps (toy 1 0xff) (.wif pl w) (.wif pl' w') := by
  have hk : IsPrivateKey (List.replicate 32 1) := by decide +kernel
  have hP := toy_lawful 1 0xff
  obtain ⟨w, hw, hr, ht, _⟩ := C07_wif_roundtrip (toy 1 0xff) hP _ _ _ bitcoin_selects.net _ hk.1 "wif" (Or.inl rfl)
  obtain ⟨w', hw', _⟩ := C07_wif_roundtrip (toy 1 0xff) hP _ _ _ bitcoin_selects_testnet.net _ hk.1 "wif" (Or.inl rfl)
  obtain ⟨e, he⟩ := toy_encrypts _ hk (by decide) (by decide) w hw
  have hd := (C17_roundtrip_iff hP bitcoin_selects _ hk _ (Or.inl rfl) w [] e hw he).1.mpr (by decide +kernel)
  have hw2 := (C07_hex_key (toy 1 0xff) (List.replicate 32 1) hk.1 "wif" Coins.Bitcoin "testnet").trans hw'
  refine ⟨⟨_, _, _, _, _, bitcoin_selects⟩, ⟨_, _, _, _, _, bitcoin_selects_testnet⟩, w, w', _, rfl, rfl, hr, ht, ⟨e, he⟩, ?_⟩
  exact .more (.more (.more (.none _) (.encrypt _ w [] e he)) (.decrypt ⟨_, _, _, _, _, bitcoin_selects⟩ e [] w hd))
    (.move _ _ w _ w' "wif" hr ht hw2)

/-- Concrete case of a passphrase change. -/
example : ∃ (pl : Place) (e w e2 : Str), pl.obj.decrypt (toy 1 0xff) e [] pl.network = .ok (.wif w) ∧
    Rekeyed (toy 1 0xff) pl e [] e2 [] ∧ pl.obj.encrypt (toy 1 0xff) w [] pl.network = .ok e2 := by
  have hk : IsPrivateKey (List.replicate 32 1) := by decide +kernel
  have hP := toy_lawful 1 0xff
  obtain ⟨w, hw, hr, ht, _⟩ := C07_wif_roundtrip (toy 1 0xff) hP _ _ _ bitcoin_selects.net _ hk.1 "wif" (Or.inl rfl)
  obtain ⟨e, he⟩ := toy_encrypts _ hk (by decide) (by decide) w hw
  have hd := (C17_roundtrip_iff hP bitcoin_selects _ hk _ (Or.inl rfl) w [] e hw he).1.mpr (by decide +kernel)
  exact ⟨⟨_, _, _, _, _, bitcoin_selects⟩, e, w, e, hd, .more w e [] .none hd he, he⟩

end Bip38.Props
