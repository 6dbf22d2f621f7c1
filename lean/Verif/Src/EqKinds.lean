import Verif.Src.EqEncrypt
import Verif.Src.EqDecrypt
import Verif.Src.EqConfirm
import Verif.Src.EqCreate
import Verif.Src.EqIntermediate
import Verif.Src.EqInit
import Verif.Model.Bip38Kind
/-!
# The text of the repository on network names and types of any kind
-/
namespace Bip38.Src

open Run

variable (H : Host)

theorem eq_not_str {v : Val} (hv : PlainNonText v) (s : Str) : pyEq v (.str s) = pure false := by
  obtain ⟨h, hk⟩ := hv
  cases v <;> first | rfl | exact absurd rfl (hk _) | (simp [typeOf] at h)

theorem mem_not_str {v : Val} (hv : PlainNonText v) (l : List String) : pyIn v (strsVal l) = pure false := by
  show memList _ _ = _
  induction l with
  | nil => rfl
  | cons a l ih => simp only [List.map_cons, memList, eq_not_str hv, run_pure_bind, ih, Bool.false_eq_true, if_false]

theorem type_text {v : Val} (hv : PlainNonText v) : ∃ t : String, format (.type (typeOf v)) = pure t.toList := by
  obtain ⟨h, hk⟩ := hv
  show ∃ t : String, (typeOf v).text = pure t.toList
  simp only [List.mem_cons, List.not_mem_nil, or_false] at h
  rcases h with h | h | h | h | h | h | h | h | h <;> rw [h] <;> exact ⟨_, rfl⟩

theorem raise_network_type {β : Type} (l : List String) (v : Val) (t : String) (ht : format (.type (typeOf v)) = pure t.toList) (f : Outcome → Run β) :
    (Error_init H .networkError [.str "Wrong network type".toList] [(v!"expected", strsVal l), (v!"got", .type (typeOf v))] >>= fun a =>
      raiseVal (Error_str H) a >>= f) = Run.raise .networkError (errText "Wrong network type" (.list (l.map String.toList)) t) :=
  (raise_expected H .networkError rfl "Wrong network type" (expected_strs l) ht f).trans (by rw [String.ofList_toList])

theorem set_shadow (env : Env) (n m : Name) (v v' d x : Val) :
    ((env.set n v).set m d).set n x = ((env.set n v').set m d).set n x := by
  funext k
  unfold Env.set
  by_cases hk : k = n <;> simp only [hk, if_true, if_false]

theorem encrypt_kind (b : BIP38) (w p v : Val) (hv : PlainNonText v) (hb : truthy v = true) (t : String) (ht : format (.type (typeOf v)) = pure t.toList) :
    BIP38_encrypt H [bipVal b, w, p, v] [] = Run.raise .networkError (errText "Wrong network type" (.list (b.networks.map String.toList)) t) := by
  unfold BIP38_encrypt
  rw [defun_eq]
  ev []
  rw [block_cons]
  ev [hb]
  rw [block_cons]
  ev [mem_not_str hv]
  ev [block_cons, raise_network_type H b.networks v t ht]

theorem encrypt_false (b : BIP38) (w p v : Val) (hb : truthy v = false) :
    BIP38_encrypt H [bipVal b, w, p, v] [] = BIP38_encrypt H [bipVal b, w, p, .none] [] := by
  unfold BIP38_encrypt
  rw [defun_eq, defun_eq]
  ev []
  rw [block_cons, block_cons]
  ev [hb]

theorem decrypt_kind (b : BIP38) (w p v d : Val) (hv : PlainNonText v) (hb : truthy v = true) (t : String) (ht : format (.type (typeOf v)) = pure t.toList) :
    BIP38_decrypt H [bipVal b, w, p, v, d] [] = Run.raise .networkError (errText "Wrong network type" (.list (b.networks.map String.toList)) t) := by
  unfold BIP38_decrypt
  rw [defun_eq]
  ev []
  rw [block_cons]
  ev [hb]
  rw [block_cons]
  ev [mem_not_str hv]
  ev [block_cons, raise_network_type H b.networks v t ht]

theorem decrypt_false (b : BIP38) (w p v d : Val) (hb : truthy v = false) :
    BIP38_decrypt H [bipVal b, w, p, v, d] [] = BIP38_decrypt H [bipVal b, w, p, .none, d] [] := by
  unfold BIP38_decrypt
  rw [defun_eq, defun_eq]
  ev []
  rw [block_cons, block_cons]
  ev [hb]
  rw [set_shadow _ _ _ v .none]

theorem confirm_kind (b : BIP38) (w p v d : Val) (hv : PlainNonText v) (hb : truthy v = true) (t : String) (ht : format (.type (typeOf v)) = pure t.toList) :
    BIP38_confirm_code H [bipVal b, p, w, v, d] [] = Run.raise .networkError (errText "Wrong network type" (.list (b.networks.map String.toList)) t) := by
  unfold BIP38_confirm_code
  rw [defun_eq]
  ev []
  rw [block_cons]
  ev [hb]
  rw [block_cons]
  ev [mem_not_str hv]
  ev [block_cons, raise_network_type H b.networks v t ht]

theorem confirm_false (b : BIP38) (w p v d : Val) (hb : truthy v = false) :
    BIP38_confirm_code H [bipVal b, p, w, v, d] [] = BIP38_confirm_code H [bipVal b, p, w, .none, d] [] := by
  unfold BIP38_confirm_code
  rw [defun_eq, defun_eq]
  ev []
  rw [block_cons, block_cons]
  ev [hb]
  rw [set_shadow _ _ _ v .none]

theorem create_kind (b : BIP38) (w p v d : Val) (hv : PlainNonText v) (hb : truthy v = true) (t : String) (ht : format (.type (typeOf v)) = pure t.toList) :
    BIP38_create_new_encrypted_wif H [bipVal b, w, p, d, v] [] = Run.raise .networkError (errText "Wrong network type" (.list (b.networks.map String.toList)) t) := by
  unfold BIP38_create_new_encrypted_wif
  rw [defun_eq]
  ev []
  rw [block_cons]
  ev [hb]
  rw [block_cons]
  ev [mem_not_str hv]
  ev [block_cons, raise_network_type H b.networks v t ht]

theorem create_false (b : BIP38) (w p v d : Val) (hb : truthy v = false) :
    BIP38_create_new_encrypted_wif H [bipVal b, w, p, d, v] [] = BIP38_create_new_encrypted_wif H [bipVal b, w, p, d, .none] [] := by
  unfold BIP38_create_new_encrypted_wif
  rw [defun_eq, defun_eq]
  ev []
  rw [block_cons, block_cons]
  ev [hb]

theorem init_kind (c : Coin) (v : Val) (hv : PlainNonText v) (t : String) (ht : format (.type (typeOf v)) = pure t.toList) :
    BIP38_init H [.coin (.coin c), v] [] = Run.raise .networkError (errText "Wrong network type" (.list (c.networkNames.map String.toList)) t) := by
  have e : pyIssubclass [.coin (.coin c), .coin .base] [] = pure (.bool true) := rfl
  have hl : pyList [strsVal c.networkNames] [] = pure (strsVal c.networkNames) := rfl
  unfold BIP38_init
  rw [defclass_eq]
  ev []
  rw [block_cons]
  ev [e]
  rw [block_cons]
  ev [networks_keys, hl]
  rw [block_cons]
  ev [mem_not_str hv]
  ev [block_cons, raise_network_type H c.networkNames v t ht]

end Bip38.Src
