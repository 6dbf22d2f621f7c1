import Verif.Src.Utils
import Verif.Src.Const
import Verif.Src.Ripemd160
/-!
# `bip38/crypto.py` (generated by `tools/gen_src.py`, do not edit)
-/
set_option linter.unusedVariables false
set_option linter.style.longLine false
namespace Bip38.Src

/-- `bip38/crypto.py:27`: `return (` -/
@[src] def crypto_ripemd160_L27 (H : Host) : Stmt := fun env =>
  sReturn (eIf (eCompare (eConst (.str "ripemd160".toList)) [(.in, (eGlobal (xAlgorithms H)))]) (eMethod [] mDigest (eCall (xHashNew H) [(eConst (.str "ripemd160".toList)), (eCall (utils_get_bytes H) [(eName v!"data")] [])] []) [] []) (eCall (ripemd160_ripemd160 H) [(eCall (utils_get_bytes H) [(eName v!"data")] [])] [])) env

/-- `bip38/crypto.py:16-31` `ripemd160` -/
def crypto_ripemd160 (H : Host) : Fn :=
  defun [⟨v!"data", none⟩] none
    [crypto_ripemd160_L27 H]

/-- `bip38/crypto.py:45`: `return hashlib.sha256(get_bytes(data)).digest()` -/
@[src] def crypto_sha256_L45 (H : Host) : Stmt := fun env =>
  sReturn (eMethod [] mDigest (eCall (xSha256 H) [(eCall (utils_get_bytes H) [(eName v!"data")] [])] []) [] []) env

/-- `bip38/crypto.py:34-45` `sha256` -/
def crypto_sha256 (H : Host) : Fn :=
  defun [⟨v!"data", none⟩] none
    [crypto_sha256_L45 H]

/-- `bip38/crypto.py:59`: `return sha256(sha256(data))` -/
@[src] def crypto_double_sha256_L59 (H : Host) : Stmt := fun env =>
  sReturn (eCall (crypto_sha256 H) [(eCall (crypto_sha256 H) [(eName v!"data")] [])] []) env

/-- `bip38/crypto.py:48-59` `double_sha256` -/
def crypto_double_sha256 (H : Host) : Fn :=
  defun [⟨v!"data", none⟩] none
    [crypto_double_sha256_L59 H]

/-- `bip38/crypto.py:76`: `return double_sha256(data)[:CHECKSUM_BYTE_LENGTH]` -/
@[src] def crypto_get_checksum_L76 (H : Host) : Stmt := fun env =>
  sReturn (eSlice (eCall (crypto_double_sha256 H) [(eName v!"data")] []) none (some (eGlobal (const_CHECKSUM_BYTE_LENGTH H)))) env

/-- `bip38/crypto.py:62-76` `get_checksum` -/
def crypto_get_checksum (H : Host) : Fn :=
  defun [⟨v!"data", none⟩] none
    [crypto_get_checksum_L76 H]

/-- `bip38/crypto.py:90`: `return ripemd160(sha256(data))` -/
@[src] def crypto_hash160_L90 (H : Host) : Stmt := fun env =>
  sReturn (eCall (crypto_ripemd160 H) [(eCall (crypto_sha256 H) [(eName v!"data")] [])] []) env

/-- `bip38/crypto.py:79-90` `hash160` -/
def crypto_hash160 (H : Host) : Fn :=
  defun [⟨v!"data", none⟩] none
    [crypto_hash160_L90 H]

end Bip38.Src
