import Verif.Spec.Faults
/-!
# Specification: what becomes of a fault, also of one that is caught
-/
namespace Bip38.SrcX

/-- `x`, with faults, against `y`, without: either no external call of `x` raises, and then the outcome is that of `y`; or some call `c` is the first
that raises, with exception `e`, and then, if `K c e`, that call was the last one and the outcome is an exception `e'` with `R c e e'`: no value. -/
def Ends {α : Type} (K : Call → Exc → Prop) (R : Call → Exc → Exc → Prop) (x : Run α) (y : Src.Run α) : Prop :=
  ∀ F log,
    (∃ done, Quiet F log.length done ∧ x F log = lift y F (log ++ done)) ∨
    (∃ done c e, Quiet F log.length done ∧ F (log.length + done.length) c = some e ∧
      (K c e → ∃ e', R c e e' ∧ x F log = some (.error e', log ++ done ++ [c])))

/-- The places where the repository catches an exception that an external function may have raised, and raises another one. -/
inductive Rule
  /-- `PublicKey.from_bytes` (`secp256k1/public_key.py:53`) -/
  | publicBytes
  /-- `PublicKey.from_point` (`secp256k1/public_key.py:77`) -/
  | publicPoint
  /-- `PrivateKey.from_bytes` (`secp256k1/private_key.py:50`) -/
  | privateBytes
  /-- `Point.from_bytes` (`secp256k1/point.py:52`) -/
  | pointBytes
  /-- `create_new_encrypted_wif` (`bip38.py:266`) -/
  | intermediateHash
  /-- `confirm_code` (`bip38.py:393`) -/
  | confirmationHash
  /-- `confirm_code` (`bip38.py:447`) -/
  | confirmationKey
  deriving DecidableEq

/-- The external functions whose exceptions are caught there. -/
def Rule.kinds : Rule → List Kind
  | .intermediateHash | .confirmationHash => [.sha256, .digest]
  | _ => [.ecdsa]

/-- The exceptions that are caught there: `MalformedPointError`; subclasses of `ValueError`; at `bip38.py:447` the repository's own `Secp256k1Error`, and
what was made one by `PublicKey`. -/
def Rule.catches : Rule → ExcClass → Bool
  | .intermediateHash, k | .confirmationHash, k => k.isValueError
  | .confirmationKey, k => k = .secp256k1Error ∨ k = .other "MalformedPointError"
  | _, k => k = .other "MalformedPointError"

/-- The exception raised instead. -/
def Rule.gives : Rule → Exc
  | .publicBytes => ⟨.secp256k1Error, "Invalid public key bytes"⟩
  | .publicPoint => ⟨.secp256k1Error, "Invalid public key point"⟩
  | .privateBytes => ⟨.secp256k1Error, "Invalid private key bytes"⟩
  | .pointBytes => ⟨.secp256k1Error, "Invalid point key bytes"⟩
  | .intermediateHash => ⟨.passphraseError, "Invalid intermediate passphrase"⟩
  | .confirmationHash => ⟨.error, "Invalid confirmation code"⟩
  | .confirmationKey => ⟨.passphraseError, "Incorrect passphrase"⟩

/-- For the exception `e` of the call `c` the caller gets `e` itself, or what one of these places makes of it. -/
def Becomes (l : List Rule) (c : Call) (e e' : Exc) : Prop :=
  e' = e ∨ ∃ r ∈ l, c.kind ∈ r.kinds ∧ r.catches e.cls = true ∧ e' = r.gives

/-- Any fault. -/
def AnyFault (_ : Call) (_ : Exc) : Prop := True

/-- Any fault but an `AttributeError` of `ecdsa`, by which `Point` recognises old releases of `ecdsa` (`secp256k1/point.py:54`, `:130`, `:146`). -/
def NotOld (c : Call) (e : Exc) : Prop := ¬ (c.kind = .ecdsa ∧ e.cls = .attributeError)

/-- For arguments of any number and kind. -/
def Stops (K : Call → Exc → Prop) (l : List Rule) (x : Fn) (y : Src.Fn) : Prop := ∀ args kw, Ends K (Becomes l) (x args kw) (y args kw)

end Bip38.SrcX
