import Verif.Src.Crypto
import Verif.Src.EqRipemd160
/-!
# The text of `bip38/crypto.py` computes what the model says
-/
namespace Bip38.Src

open Run

variable (H : Host)

/-- A computation of bytes, as a Python value. -/
def rBytes (x : Py Bytes) : Run Val := ofPy x >>= fun b => pure (.bytes b)

/-- A computation of a text, as a Python value. -/
def rStr (x : Py Str) : Run Val := ofPy x >>= fun s => pure (.str s)

theorem get_bytes_r (d : Data) : utils_get_bytes H [ofData d] [] = rBytes (getBytes d) := by
  rw [get_bytes_default, get_bytes_eq]
  rfl

theorem get_bytes_bytes (b : Bytes) : utils_get_bytes H [.bytes b] [] = pure (.bytes b) := by
  rw [show Val.bytes b = ofData (.bytes b) from rfl, get_bytes_r]
  rcases b with _ | ⟨a, b⟩ <;> rfl

theorem checksum_length : const_CHECKSUM_BYTE_LENGTH H = pure (.int ((4 : Nat) : Int)) := rfl

theorem crypto_ripemd160_eq (d : Data) (hd : ∀ b, getBytes d = .ok b → b.length < 2 ^ 61) :
    crypto_ripemd160 H [ofData d] [] = rBytes (Bip38.ripemd160 H.P d) := by
  unfold crypto_ripemd160 Bip38.ripemd160
  rw [defun_eq]
  ev []
  rw [block_cons]
  ev [xAlgorithms]
  cases hh : H.P.hashlibRipemd160 with
  | some f =>
    have h1 : ∀ b, xHashNew H [.str "ripemd160".toList, .bytes b] [] = pure (.hash (f b)) := by
      intro b
      simp only [xHashNew, if_true, hh]
    simp only [memList]
    ev [get_bytes_r, rBytes, h1]
    rw [ofPy_bind, run_assoc]
    rfl
  | none =>
    simp only [memList]
    ev [get_bytes_r, rBytes]
    rw [ofPy_bind, run_assoc]
    refine step fun b h => ?_
    ev [ripemd160_eq H b (hd b h)]

theorem crypto_sha256_eq (d : Data) : crypto_sha256 H [ofData d] [] = rBytes (Bip38.sha256 H.P d) := by
  unfold crypto_sha256 Bip38.sha256
  rw [defun_eq]
  ev []
  rw [block_cons]
  ev [get_bytes_r, rBytes]
  rw [ofPy_bind, run_assoc]
  rfl

theorem crypto_double_sha256_eq (d : Data) : crypto_double_sha256 H [ofData d] [] = rBytes (doubleSha256 H.P d) := by
  have h : ∀ b : Bytes, crypto_sha256 H [.bytes b] [] = rBytes (Bip38.sha256 H.P (.bytes b)) := fun b => crypto_sha256_eq H (.bytes b)
  unfold crypto_double_sha256 doubleSha256
  rw [defun_eq]
  ev []
  rw [block_cons]
  ev [crypto_sha256_eq, rBytes, h]
  rw [ofPy_bind, run_assoc]

theorem crypto_get_checksum_eq (d : Data) : crypto_get_checksum H [ofData d] [] = rBytes (getChecksum H.P d) := by
  unfold crypto_get_checksum getChecksum
  rw [defun_eq]
  ev []
  rw [block_cons]
  ev [crypto_double_sha256_eq, rBytes, checksum_length, slice_to]
  rw [ofPy_bind, run_assoc]
  rfl

theorem crypto_hash160_eq (hP : H.P.Lawful) (d : Data) : crypto_hash160 H [ofData d] [] = rBytes (Bip38.hash160 H.P d) := by
  unfold crypto_hash160 Bip38.hash160
  rw [defun_eq]
  ev []
  rw [block_cons]
  ev [crypto_sha256_eq, rBytes]
  rw [ofPy_bind, run_assoc]
  refine step fun b h => ?_
  have hb : b.length = 32 := by
    unfold Bip38.sha256 at h
    cases hg : getBytes d with
    | error e => rw [hg] at h; cases h
    | ok c =>
      rw [hg] at h
      cases h
      exact hP.sha256_length c
  have h2 := crypto_ripemd160_eq H (.bytes b) fun c hc => by
    have : getBytes (.bytes b) = .ok b := by rcases b with _ | ⟨x, b⟩ <;> rfl
    rw [this] at hc
    cases hc
    omega
  simp only [ofData] at h2
  ev [h2, rBytes]

theorem get_checksum_bytes (b : Bytes) : crypto_get_checksum H [.bytes b] [] = rBytes (getChecksum H.P (.bytes b)) :=
  crypto_get_checksum_eq H (.bytes b)

end Bip38.Src
