import Verif.Lemmas.Confirm
/-! # `intermediate_code` -/
namespace Bip38
open Spec Props

variable {P : Prims}

theorem int4 (lot seq : Nat) (hl : lot ≤ 999999) (hs : seq ≤ 4095) :
    integerToBytes ((lot : Int) * 4096 + (seq : Int)) (some 4) = .ok (toBE 4 (lot * 4096 + seq)) := by
  unfold integerToBytes intToBytes
  have h1 : ¬ ((lot : Int) * 4096 + seq < 0) := by omega
  have h2 : (lot : Int) * 4096 + seq < 2 ^ (8 * 4) := by norm_num; omega
  simp only [show ¬ ((4 : Int) < 0) by decide, show ¬ ((4 : Int) = 0) by decide, if_false, h1, show (4 : Int).toNat = 4 from rfl, h2,
    Bool.false_eq_true, if_true]
  congr 2

/-- What follows the choice of the pass factor. -/
theorem intermediate_tail (pf : Bytes) (lot : Bool) (ent : Bytes) :
    (∀ pp, IsPrivateKey pf → IsPublicKeyOf pp pf →
      (do let privateKey ← PrivateKey.fromBytes pf
          let passPoint := privateKey.publicKey
          .ok (ensureString (checkEncode P.sha256 (magicBytes lot ++ ent ++ passPoint.rawCompressed))) : Py Str)
        = .ok (checkText P (intermediateRecord lot ent pp))) ∧
    (¬ IsPrivateKey pf →
      (do let privateKey ← PrivateKey.fromBytes pf
          let passPoint := privateKey.publicKey
          .ok (ensureString (checkEncode P.sha256 (magicBytes lot ++ ent ++ passPoint.rawCompressed))) : Py Str)
        = .error ⟨.secp256k1Error, "Invalid private key bytes"⟩) := by
  constructor
  · intro pp hk hpp
    obtain ⟨pp', hpp', _, hok⟩ := priv_ok pf hk
    rw [py_bind hok, isPublicKeyOf_unique hpp hpp']
    simp only [PrivateKey.publicKey]
    rw [show pp'.rawCompressed = pp'.raw "compressed" from rfl, raw_eq_sec1]
    rfl
  · intro hk
    rw [isPrivateKey_iff] at hk
    exact py_bind_err (privFromBytes_error _ hk) _

/-- The pass factor for a lot and a sequence number in range. -/
theorem lotFactor_ok (pass : Str) (lot seq : Nat) (hl1 : 100000 ≤ lot) (hl2 : lot ≤ 999999) (hs2 : seq ≤ 4095) (salt : Bytes)
    (hlen : salt.length = 4 ∨ salt.length = 8) (pf : Bytes) (hpf : pf = passFactor P true pass (lotEntropy salt lot seq)) :
    lotFactor P pass lot seq salt = .ok (pf, magicBytes true, lotEntropy salt lot seq) := by
  unfold lotFactor
  rw [py_bind (not_raise (by omega)), py_bind (not_raise (by omega)), py_bind (int4 lot seq hl2 hs2)]
  simp only
  rw [py_bind (doubleSha256_bytes _), py_bind c_magicLot, hpf]
  unfold passFactor lotEntropy
  rw [if_pos rfl, List.take_left' (by rcases hlen with h | h <;> simp [h])]
  rfl

/-- `intermediate_code` with a lot and a sequence number, none of them 0. -/
theorem intermediate_lot (pass : Str) (lot seq : Nat) (hl1 : 100000 ≤ lot) (hl2 : lot ≤ 999999)
    (hs1 : 1 ≤ seq) (hs2 : seq ≤ 4095) (d : Data) (u salt : Bytes) (hd : bytesOrRandom d u = .ok salt)
    (hlen : salt.length = 4 ∨ salt.length = 8) (pf : Bytes) (hpf : pf = passFactor P true pass (lotEntropy salt lot seq)) :
    (∀ pp, IsPrivateKey pf → IsPublicKeyOf pp pf → intermediateCode P pass (some lot) (some seq) d u
        = .ok (checkText P (intermediateRecord true (lotEntropy salt lot seq) pp))) ∧
    (¬ IsPrivateKey pf → intermediateCode P pass (some lot) (some seq) d u
        = .error ⟨.secp256k1Error, "Invalid private key bytes"⟩) := by
  have hlf := lotFactor_ok (P := P) pass lot seq hl1 hl2 hs2 salt hlen pf hpf
  have hcall : intermediateCode P pass (some lot) (some seq) d u
      = (do let privateKey ← PrivateKey.fromBytes pf
            let passPoint := privateKey.publicKey
            .ok (ensureString (checkEncode P.sha256 (magicBytes true ++ lotEntropy salt lot seq ++ passPoint.rawCompressed)))) := by
    unfold intermediateCode
    have t1 : truthyInt (some (lot : Int)) = true := by simp [truthyInt]; omega
    have t2 : truthyInt (some (seq : Int)) = true := by simp [truthyInt]; omega
    rw [py_bind hd, py_bind (not_raise (by rcases hlen with h | h <;> simp [h])), py_bind (not_raise (by simp)),
      py_bind (not_raise (by simp)), if_pos ⟨t1, t2⟩]
    simp only [Option.getD_some]
    rw [py_bind hlf]
  rw [hcall]
  exact intermediate_tail pf true _

/-- `intermediate_code` when lot or sequence is missing or 0. -/
theorem intermediate_noLot (pass : Str) (lot seq : Option Int)
    (hls : (lot = none ∧ seq = none) ∨ (lot = some 0 ∧ seq = none) ∨ (lot = none ∧ seq = some 0) ∨
      (lot = some 0 ∧ seq ≠ none) ∨ (lot ≠ none ∧ seq = some 0))
    (d : Data) (u salt : Bytes) (hd : bytesOrRandom d u = .ok salt)
    (hlen : salt.length = 8 ∨ (salt.length = 4 ∧ lot ≠ none ∧ seq ≠ none)) (pf : Bytes) (hpf : pf = passFactor P false pass salt) :
    (∀ pp, IsPrivateKey pf → IsPublicKeyOf pp pf → intermediateCode P pass lot seq d u
        = .ok (checkText P (intermediateRecord false salt pp))) ∧
    (¬ IsPrivateKey pf → intermediateCode P pass lot seq d u = .error ⟨.secp256k1Error, "Invalid private key bytes"⟩) := by
  have hcall : intermediateCode P pass lot seq d u
      = (do let privateKey ← PrivateKey.fromBytes pf
            let passPoint := privateKey.publicKey
            .ok (ensureString (checkEncode P.sha256 (magicBytes false ++ salt ++ passPoint.rawCompressed)))) := by
    unfold intermediateCode
    have h0 : truthyInt (some 0) = false := rfl
    have hn : truthyInt none = false := rfl
    have hnt : ¬ (truthyInt lot = true ∧ truthyInt seq = true) := by
      rcases hls with ⟨rfl, rfl⟩ | ⟨rfl, rfl⟩ | ⟨rfl, rfl⟩ | ⟨rfl, _⟩ | ⟨_, rfl⟩ <;> simp [h0, hn]
    have hone : ¬ ((truthyInt lot = true ∧ seq = none) ∨ (lot = none ∧ truthyInt seq = true)) := by
      rcases hls with ⟨rfl, rfl⟩ | ⟨rfl, rfl⟩ | ⟨rfl, rfl⟩ | ⟨rfl, h⟩ | ⟨h, rfl⟩ <;> simp_all
    rw [py_bind hd, py_bind (not_raise (by rcases hlen with h | h <;> simp [h])),
      py_bind (not_raise (by rcases hlen with h | ⟨h, h1, h2⟩ <;> simp_all)), py_bind (not_raise hone), if_neg hnt]
    have hnf : noLotFactor P pass salt = .ok (pf, magicBytes false, salt) := by
      unfold noLotFactor
      simp only
      rw [py_bind c_magicNo, hpf]; rfl
    rw [py_bind hnf]
  rw [hcall]
  exact intermediate_tail pf false _

end Bip38
