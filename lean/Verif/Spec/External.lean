import Verif.Model.External
/-!
# External calls: how a run ends, and what it costs (C79, C80)
-/
namespace Bip38.Spec
open Bip38

/-- None of the requests `log`, the first of which has position `k`, raises. -/
def Quiet (F : Faults) (k : Nat) (log : List Request) : Prop := ∀ i q, log[i]? = some q → F (k + i) q = none

/-- How a call ends whose external functions may raise.  `log` are the requests made, `r` is the outcome, `p` the outcome when nothing
raises: either no request raised and the outcome is `p`, or the last request made is the first that raised, and the caller sees that
exception as `seen` says. -/
def Ends {α : Type} (F : Faults) (log : List Request) (r p : Py α) (seen : Nat → Exc → Exc := fun _ e => e) : Prop :=
  (Quiet F 0 log ∧ r = p) ∨
    ∃ done q e, log = done ++ [q] ∧ Quiet F 0 done ∧ F done.length q = some e ∧ r = .error (seen done.length e)

/-- An exception under `try: ... except ValueError: raise cls(msg)`, where the requests `k` and `k + 1` are made. -/
def caught (k : Nat) (cls : ExcClass) (msg : String) (i : Nat) (e : Exc) : Exc :=
  if (i = k ∨ i = k + 1) ∧ e.cls.isValueError = true then ⟨cls, msg⟩ else e

/-- The expensive or irreproducible work of a request: random bytes, or `scrypt` with its cost parameters. -/
inductive Work
  | random (bytes : Nat)
  | scrypt (N r p : Nat)
  deriving DecidableEq, Repr

/-- The work of a request (hashes of short data and AES blocks are not counted). -/
def workOf : Request → Option Work
  | .urandom k => some (.random k)
  | .scrypt _ _ N r p _ => some (.scrypt N r p)
  | _ => none

/-- The work of a run. -/
def work (log : List Request) : List Work := log.filterMap workOf

end Bip38.Spec
