import Verif.Spec.Faults
import Verif.Spec.Steps
/-!
# Specification: the order of the external calls of a run of the text (C99)
-/
namespace Bip38.SrcX

open Bip38.Src Bip38.Spec

/-- What is seen of a call, as in C99.  Not seen: the calls of `ecdsa`, the construction of an AES object, and `.digest()` of a hash object. -/
def seen : Call → List ExtStep
  | ⟨.urandom, [.int n], []⟩ => [.urandom n.toNat]
  | ⟨.urandom, _, _⟩ => [.urandom 0]
  | ⟨.sha256, _, _⟩ => [.sha256]
  | ⟨.hashNew, _, _⟩ => [.ripemd160]
  | ⟨.normalize, _, _⟩ => [.normalize]
  | ⟨.scrypt, [_, _, .int N, .int r, .int p], []⟩ => [.scrypt N.toNat r.toNat p.toNat 64]
  | ⟨.scrypt, [_, _, .int N, .int r, .int p, .int size], []⟩ => [.scrypt N.toNat r.toNat p.toNat size.toNat]
  | ⟨.scrypt, _, _⟩ => [.scrypt 0 0 0 0]
  | ⟨.aesEncrypt, _, _⟩ => [.aesEncrypt]
  | ⟨.aesDecrypt, _, _⟩ => [.aesDecrypt]
  | ⟨.digest, _, _⟩ | ⟨.aes, _, _⟩ | ⟨.ecdsa, _, _⟩ => []

/-- What is seen of a run. -/
def trace (done : List Call) : List ExtStep := done.flatMap seen

/-- For arguments of any number and kind, and however the external functions behave: a call that returns has been seen to go through one of these
plans, and a call that raises through an initial part of one of them. -/
def Plans (l : List (List ExtStep)) (x : Fn) : Prop :=
  ∀ args kw F log r log', x args kw F log = some (r, log') → ∃ done, log' = log ++ done ∧
    (∀ v, r = .ok v → trace done ∈ l) ∧ ∃ p ∈ l, trace done <+: p

/-- What is seen of two runs: one is an initial part of the other, and a run that raises is an initial part of one that returns. In particular they are
equal if both return. -/
def Alike {α : Type} (r : Py α) (done : List Call) (r' : Py α) (done' : List Call) : Prop :=
  (trace done <+: trace done' ∨ trace done' <+: trace done) ∧
  (∀ v, r = .ok v → trace done' <+: trace done) ∧ (∀ v, r' = .ok v → trace done <+: trace done')

/-- The argument for the parameter `n`, the parameter number `i` (0 for the first): by position or by name. -/
def given (i : Nat) (n : Name) (args : List Val) (kw : List (Name × Val)) : Option Val := args[i]?.or (getField kw n)

/-- Whether an argument is given that is not `None`, not 0, not empty, not `False`. -/
def told (i : Nat) (n : Name) (args : List Val) (kw : List (Name × Val)) : Bool := truthy ((given i n args kw).getD .none)

/-- For any call of `x` and any call of `x'` whose arguments agree in this way, and however the external functions behave in each of them, the same is seen. -/
def SeenAlike (agree : List Val → List (Name × Val) → List Val → List (Name × Val) → Prop) (x x' : Fn) : Prop :=
  ∀ args kw args' kw', agree args kw args' kw' → ∀ F F' r r' done done',
    x args kw F [] = some (r, done) → x' args' kw' F' [] = some (r', done') → Alike r done r' done'

/-- The same with other random bytes. -/
def redraw (H : Host) (u : Nat → Bytes) : Host := { H with urandom := u }

end Bip38.SrcX
