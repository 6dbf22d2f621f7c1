import Verif.SrcX.LowText
import Verif.Props.SourceFaults
import Verif.Props.SourceBip38
/-!
# Property C95: the external calls that are made before a value is returned, on the text of the repository
-/
set_option linter.style.longLine false
namespace Bip38.Props
open Bip38 Spec Src SrcX

variable (H : Host)

theorem atLeast {l : List (Work × Nat)} {x : SrcX.Fn} (h : LowF (works l) x) (hl : (l.map Prod.fst).Nodup := by decide) : AtLeast l x := by
  intro args kw F log v log' hx
  obtain ⟨done, hd, hr⟩ := h args kw F log _ log' hx
  refine ⟨done, hd, fun p hp => ?_⟩
  have := hr v rfl p.1
  have hk : l.lookup p.1 = some p.2 := by
    clear this hr hd hx h
    induction l with
    | nil => cases hp
    | cons q l ih =>
      rw [List.map_cons, List.nodup_cons] at hl
      rcases List.mem_cons.mp hp with rfl | hp
      · simp [List.lookup]
      · have hne : p.1 ≠ q.1 := fun h => hl.1 (h ▸ List.mem_map_of_mem hp)
        rw [List.lookup_cons, beq_false_of_ne hne]
        exact ih hl.2 hp
  simpa [works, hk, reach] using this

/-- C95: the functions of `libs/base58.py`. -/
theorem C95_base58 :
    AtLeast [(.of .sha256, 2), (.of .digest, 2)] (SrcX.base58_check_encode H) ∧
    AtLeast [(.of .sha256, 2), (.of .digest, 2)] (SrcX.base58_check_decode H) :=
  ⟨atLeast (low_base58_check_encode _), atLeast (low_base58_check_decode _)⟩

/-- C95: the functions of `crypto.py`. -/
theorem C95_crypto :
    AtLeast [(.of .sha256, 1), (.of .digest, 1)] (SrcX.crypto_sha256 H) ∧
    AtLeast [(.of .sha256, 2), (.of .digest, 2)] (SrcX.crypto_double_sha256 H) ∧
    AtLeast [(.of .sha256, 2), (.of .digest, 2)] (SrcX.crypto_get_checksum H) ∧
    AtLeast [(.of .sha256, 1), (.of .digest, 1)] (SrcX.crypto_hash160 H) :=
  ⟨atLeast (low_crypto_sha256 _), atLeast (low_crypto_double_sha256 _), atLeast (low_crypto_get_checksum _), atLeast (low_crypto_hash160 _)⟩

/-- C95: points and keys. -/
theorem C95_keys :
    AtLeast [(.of .ecdsa, 2)] (SrcX.Point_from_coordinates H) ∧
    AtLeast [(.of .ecdsa, 1)] (SrcX.Point_from_bytes H) ∧
    AtLeast [(.of .ecdsa, 1)] (SrcX.Point_x H) ∧
    AtLeast [(.of .ecdsa, 1)] (SrcX.Point_y H) ∧
    AtLeast [(.of .ecdsa, 1)] (SrcX.PublicKey_from_bytes H) ∧
    AtLeast [(.of .ecdsa, 4)] (SrcX.PublicKey_from_point H) ∧
    AtLeast [(.of .ecdsa, 1)] (SrcX.PublicKey_raw_compressed H) ∧
    AtLeast [(.of .ecdsa, 1)] (SrcX.PublicKey_raw_uncompressed H) ∧
    AtLeast [(.of .ecdsa, 1)] (SrcX.PublicKey_raw H) ∧
    AtLeast [(.of .ecdsa, 1)] (SrcX.PrivateKey_from_bytes H) ∧
    AtLeast [(.of .ecdsa, 1)] (SrcX.PrivateKey_raw H) ∧
    AtLeast [(.of .ecdsa, 1)] (SrcX.PrivateKey_public_key H) :=
  ⟨atLeast (low_Point_from_coordinates _), atLeast (low_Point_from_bytes _), atLeast (low_Point_x _), atLeast (low_Point_y _), atLeast (low_PublicKey_from_bytes _), atLeast (low_PublicKey_from_point _), atLeast (low_PublicKey_raw_compressed _), atLeast (low_PublicKey_raw_uncompressed _), atLeast (low_PublicKey_raw _), atLeast (low_PrivateKey_from_bytes _), atLeast (low_PrivateKey_raw _), atLeast (low_PrivateKey_public_key _)⟩

/-- C95: WIFs and addresses. -/
theorem C95_wif :
    AtLeast [(.of .sha256, 4), (.of .digest, 4)] (SrcX.wif_encode_wif H) ∧
    AtLeast [(.of .sha256, 4), (.of .digest, 4)] (SrcX.wif_private_key_to_wif H) ∧
    AtLeast [(.of .sha256, 3), (.of .digest, 3)] (SrcX.P2PKHAddress_encode H) ∧
    AtLeast [(.of .sha256, 2), (.of .digest, 2)] (SrcX.P2PKHAddress_decode H) :=
  ⟨atLeast (low_wif_encode_wif _), atLeast (low_wif_private_key_to_wif _), atLeast (low_P2PKHAddress_encode _), atLeast (low_P2PKHAddress_decode _)⟩

/-- C95: the class `BIP38`. -/
theorem C95_bip38 :
    AtLeast [(.of .sha256, 2), (.of .digest, 2), (.of .normalize, 1), (.of .scrypt, 1), (.of .ecdsa, 1), (.slow, 1)] (SrcX.BIP38_intermediate_code H) ∧
    AtLeast [(.of .sha256, 7), (.of .digest, 7), (.of .normalize, 1), (.of .scrypt, 1), (.of .aes, 1), (.of .aesEncrypt, 2), (.of .ecdsa, 1), (.slow, 1)] (SrcX.BIP38_encrypt H) ∧
    AtLeast [(.of .sha256, 13), (.of .digest, 13), (.of .scrypt, 1), (.of .aes, 1), (.of .aesEncrypt, 4), (.of .ecdsa, 6), (.fast, 1)] (SrcX.BIP38_create_new_encrypted_wif H) ∧
    AtLeast [(.of .sha256, 7), (.of .digest, 7), (.of .normalize, 1), (.of .scrypt, 2), (.of .aes, 1), (.of .aesDecrypt, 2), (.of .ecdsa, 6), (.slow, 1), (.fast, 1)] (SrcX.BIP38_confirm_code H) ∧
    AtLeast [(.of .sha256, 9), (.of .digest, 9), (.of .normalize, 1), (.of .scrypt, 1), (.of .aes, 1), (.of .aesDecrypt, 2), (.of .ecdsa, 1), (.slow, 1)] (SrcX.BIP38_decrypt H) :=
  ⟨atLeast (low_BIP38_intermediate_code _), atLeast (low_BIP38_encrypt _), atLeast (low_BIP38_create_new_encrypted_wif _), atLeast (low_BIP38_confirm_code _), atLeast (low_BIP38_decrypt _)⟩

/-- Calls that did not raise are calls. -/
theorem answered_le (k : Kind) (F : Faults) (s : Nat) (done : List Call) : answered (.of k) F s done ≤ done.countP fun c => c.kind = k := by
  induction done generalizing s with
  | nil => exact Nat.le_refl _
  | cons c l ih =>
    have ih := ih (s + 1)
    unfold answered at ih ⊢
    rw [List.zipIdx_cons, List.countP_cons, List.countP_cons]
    refine Nat.add_le_add ih ?_
    by_cases hk : c.kind = k
    · simp only [hk, decide_true, if_true]
      split <;> omega
    · have : ¬ (Work.of k).Fits c := hk
      simp [hk, this]

/-- C95: where the bounds meet, a call that returns a value has made exactly that many calls of the external function, and none of them raised. -/
theorem C95_exactly {x : SrcX.Fn} {l : List (Kind × Nat)} {l' : List (Work × Nat)} (hu : AtMost l x) (hl : AtLeast l' x) {k : Kind} {n : Nat}
    (h : l.lookup k = some n) (h' : (.of k, n) ∈ l') {args : List Val} {kw : List (Name × Val)} {F : Faults} {v : Val} {done : List Call}
    (hx : x args kw F [] = some (.ok v, done)) : (done.countP fun c => c.kind = k) = n ∧ answered (.of k) F 0 done = n := by
  obtain ⟨d, hd, hb⟩ := hu args kw F [] _ done hx
  obtain ⟨d', hd', hb'⟩ := hl args kw F [] v done hx
  rw [List.nil_append] at hd hd'
  subst hd hd'
  have h1 := hb k
  have h2 := hb' _ h'
  have h3 := answered_le k F 0 done
  have : calls l k = n := by simp [calls, h]
  simp only [List.length_nil] at h2
  omega

/-- C95: no method returns a value for a passphrase that was not stretched with N = 16384, r = 8, p = 8 (64 or 32 bytes), nor an encrypted key of an
intermediate code without the scrypt call for its point. -/
theorem C95_stretched (args : List Val) (kw : List (Name × Val)) (F : Faults) (v : Val) (done : List Call) :
    (SrcX.BIP38_intermediate_code H args kw F [] = some (.ok v, done) ∨ SrcX.BIP38_encrypt H args kw F [] = some (.ok v, done) ∨
      SrcX.BIP38_confirm_code H args kw F [] = some (.ok v, done) ∨ SrcX.BIP38_decrypt H args kw F [] = some (.ok v, done) →
      ∃ i c, done[i]? = some c ∧ F i c = none ∧ Work.slow.Fits c) ∧
    (SrcX.BIP38_create_new_encrypted_wif H args kw F [] = some (.ok v, done) ∨ SrcX.BIP38_confirm_code H args kw F [] = some (.ok v, done) →
      ∃ i c, done[i]? = some c ∧ F i c = none ∧ Work.fast.Fits c) := by
  have key : ∀ {l : List (Work × Nat)} {x : SrcX.Fn} {w : Work}, AtLeast l x → (w, 1) ∈ l → x args kw F [] = some (.ok v, done) →
      ∃ i c, done[i]? = some c ∧ F i c = none ∧ w.Fits c := by
    intro l x w h hw hx
    obtain ⟨d, hd, hb⟩ := h args kw F [] v done hx
    rw [List.nil_append] at hd
    subst hd
    have h1 : 0 < answered w F 0 done := hb _ hw
    unfold answered at h1
    obtain ⟨p, hp, hq⟩ := List.countP_pos_iff.mp h1
    have hq : w.Fits p.1 ∧ F p.2 p.1 = none := by simpa using hq
    exact ⟨p.2, p.1, (List.mem_zipIdx_iff_getElem?).mp hp, hq.2, hq.1⟩
  obtain ⟨h1, h2, h3, h4, h5⟩ := C95_bip38 H
  refine ⟨?_, ?_⟩
  · rintro (h | h | h | h)
    · exact key h1 (by decide) h
    · exact key h2 (by decide) h
    · exact key h4 (by decide) h
    · exact key h5 (by decide) h
  · rintro (h | h)
    · exact key h3 (by decide) h
    · exact key h4 (by decide) h

/-- C95: the external calls of `encrypt` and of `create_new_encrypted_wif`, exactly. -/
theorem C95_encrypt (args : List Val) (kw : List (Name × Val)) (F : Faults) (v : Val) (done : List Call)
    (hx : SrcX.BIP38_encrypt H args kw F [] = some (.ok v, done)) :
    (done.countP fun c => c.kind = .normalize) = 1 ∧ (done.countP fun c => c.kind = .scrypt) = 1 ∧ (done.countP fun c => c.kind = .aes) = 1 ∧
      (done.countP fun c => c.kind = .aesEncrypt) = 2 ∧ (done.countP fun c => c.kind = .sha256) = 7 :=
  have hu := (C93_bip38 H).2.2.1
  have hl := (C95_bip38 H).2.1
  ⟨(C95_exactly hu hl rfl (by decide) hx).1, (C95_exactly hu hl rfl (by decide) hx).1, (C95_exactly hu hl rfl (by decide) hx).1,
    (C95_exactly hu hl rfl (by decide) hx).1, (C95_exactly hu hl rfl (by decide) hx).1⟩

/-- Such runs exist: without faults, `encrypt` returns a value, and so does `decrypt` of it. -/
example : ∃ (H : Host) (args args' : List Val) (v v' : Val) (done done' : List Call),
    SrcX.BIP38_encrypt H args [] (fun _ _ => none) [] = some (.ok v, done) ∧
    SrcX.BIP38_decrypt H args' [] (fun _ _ => none) [] = some (.ok v', done') := by
  let H : Host := ⟨toy 1 0xff, fun n => List.replicate n 5, fun _ => .ok 0, false⟩
  have hk : IsPrivateKey (List.replicate 32 1) := by decide +kernel
  obtain ⟨w, hw, _⟩ := C07_wif_roundtrip (toy 1 0xff) (toy_lawful _ _) _ _ _ bitcoin_selects.net _ hk.1 "wif" (Or.inl rfl)
  obtain ⟨e, he⟩ := toy_encrypts _ hk (by decide) (by decide) w hw
  have hd := (C17_roundtrip_iff (toy_lawful _ _) bitcoin_selects _ hk _ (Or.inl rfl) w [] e hw he).1.mpr (by decide +kernel)
  have h1 := (C86_encrypt H (toy_lawful _ _) bitcoinObject w [] none).1 e he
  have h2 := (C86_decrypt H (toy_lawful _ _) bitcoinObject e [] none false).1 _ hd
  obtain ⟨d1, hx1⟩ := C92_no_fault (C92_bip38 H).2.2.1 _ _
  obtain ⟨d2, hx2⟩ := C92_no_fault (C92_bip38 H).2.2.2.2.2 _ _
  rw [h1] at hx1
  rw [h2] at hx2
  exact ⟨H, _, _, _, _, d1, d2, hx1, hx2⟩

end Bip38.Props
