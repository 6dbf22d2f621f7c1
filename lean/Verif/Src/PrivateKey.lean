import Verif.Src.PublicKey
/-!
# `bip38/secp256k1/private_key.py` (generated by `tools/gen_src.py`, do not edit)
-/
set_option linter.unusedVariables false
set_option linter.style.longLine false
namespace Bip38.Src

/-- `bip38/secp256k1/private_key.py:30`: `self.signing_key = signing_key` -/
@[src] def PrivateKey_init_L30 (H : Host) : Stmt := fun env =>
  sAssign (.attr v!"self" v!"signing_key") (eName v!"signing_key") env

/-- `bip38/secp256k1/private_key.py:22-30` `PrivateKey.__init__` -/
def PrivateKey_init (H : Host) : Fn :=
  defclass .PrivateKey [⟨v!"signing_key", none⟩]
    [PrivateKey_init_L30 H]

/-- `bip38/secp256k1/private_key.py:45`: `return cls(` -/
@[src] def PrivateKey_from_bytes_L45 (H : Host) : Stmt := fun env =>
  sReturn (eCall (PrivateKey_init H) [(eCall xSigningFromString [(eName v!"private_key")] [(v!"curve", (eConst .curve))])] []) env

/-- `bip38/secp256k1/private_key.py:51`: `raise Secp256k1Error("Invalid private key bytes") from ex` -/
@[src] def PrivateKey_from_bytes_L51 (H : Host) : Stmt := fun env =>
  sRaise (Error_str H) (eCall (Error_init H .secp256k1Error) [(eConst (.str "Invalid private key bytes".toList))] []) env

/-- `bip38/secp256k1/private_key.py:44`: `try:` -/
@[src] def PrivateKey_from_bytes_L44 (H : Host) : Stmt := fun env =>
  sTry [] [PrivateKey_from_bytes_L45 H] [([.malformedPoint], [PrivateKey_from_bytes_L51 H])] env

/-- `bip38/secp256k1/private_key.py:33-51` `PrivateKey.from_bytes` -/
def PrivateKey_from_bytes (H : Host) : Fn :=
  defun [⟨v!"private_key", none⟩] none
    [PrivateKey_from_bytes_L44 H]

/-- `bip38/secp256k1/private_key.py:62`: `return PRIVATE_KEY_LENGTH` -/
@[src] def PrivateKey_length_L62 (H : Host) : Stmt := fun env =>
  sReturn (eGlobal (const_PRIVATE_KEY_LENGTH H)) env

/-- `bip38/secp256k1/private_key.py:54-62` `PrivateKey.length` -/
def PrivateKey_length (H : Host) : Fn :=
  defun [] none
    [PrivateKey_length_L62 H]

/-- `bip38/secp256k1/private_key.py:72`: `return self.signing_key` -/
@[src] def PrivateKey_underlying_object_L72 (H : Host) : Stmt := fun env =>
  sReturn (eAttr (eName v!"self") v!"signing_key") env

/-- `bip38/secp256k1/private_key.py:64-72` `PrivateKey.underlying_object` -/
def PrivateKey_underlying_object (H : Host) : Fn :=
  defun [⟨v!"self", none⟩] none
    [PrivateKey_underlying_object_L72 H]

/-- `bip38/secp256k1/private_key.py:82`: `return self.signing_key.to_string()` -/
@[src] def PrivateKey_raw_L82 (H : Host) : Stmt := fun env =>
  sReturn (eMethod [] mToString (eAttr (eName v!"self") v!"signing_key") [] []) env

/-- `bip38/secp256k1/private_key.py:74-82` `PrivateKey.raw` -/
def PrivateKey_raw (H : Host) : Fn :=
  defun [⟨v!"self", none⟩] none
    [PrivateKey_raw_L82 H]

/-- `bip38/secp256k1/private_key.py:92`: `return PublicKey(self.signing_key.get_verifying_key())` -/
@[src] def PrivateKey_public_key_L92 (H : Host) : Stmt := fun env =>
  sReturn (eCall (PublicKey_init H) [(eMethod [] mGetVerifyingKey (eAttr (eName v!"self") v!"signing_key") [] [])] []) env

/-- `bip38/secp256k1/private_key.py:84-92` `PrivateKey.public_key` -/
def PrivateKey_public_key (H : Host) : Fn :=
  defun [⟨v!"self", none⟩] none
    [PrivateKey_public_key_L92 H]

end Bip38.Src
