import Verif.SrcX.Sem
/-!
# Specification: a call during which external functions may raise

`SrcX.Run` gives, for every choice of which calls of external functions raise what (`Faults`), the outcome and the list of the external calls
made.
-/
namespace Bip38.SrcX

variable {α : Type}

/-- None of these calls, made from position `start` on, raised. -/
def Quiet (F : Faults) (start : Nat) (done : List Call) : Prop :=
  ∀ i c, done[i]? = some c → F (start + i) c = none

/-- However the external functions behave: the calls made before are kept in the list, and at most `n k` calls of the external function `k`
are added. -/
def Bounded (n : Kind → Nat) (x : Run α) : Prop :=
  ∀ F log r log', x F log = some (r, log') → ∃ done, log' = log ++ done ∧ ∀ k, done.countP (fun c => c.kind = k) ≤ n k

/-- `x`, with faults, against `y`, without: either no external call of `x` raises, and then the outcome is that of `y` (`lift`); or some call `c`
of `x` is the first that raises, with exception `e`, and then, if `K c e`, that call was the last one and the outcome is the exception `e` itself. -/
def Follows (K : Call → Exc → Prop) (x : Run α) (y : Src.Run α) : Prop :=
  ∀ F log,
    (∃ done, Quiet F log.length done ∧ x F log = lift y F (log ++ done)) ∨
    (∃ done c e, Quiet F log.length done ∧ F (log.length + done.length) c = some e ∧
      (K c e → x F log = some (.error e, log ++ done ++ [c])) ∧
      ∀ r log', x F log = some (r, log') → log ++ done ++ [c] <+: log')

/-- However the external functions behave: every external call made is one of these. -/
def Only (G : Call → Prop) (x : Run α) : Prop :=
  ∀ F log r log', x F log = some (r, log') → ∃ done, log' = log ++ done ∧ ∀ c ∈ done, G c

/-- The bound given by a list: 0 for a function that is not listed. -/
def calls (l : List (Kind × Nat)) : Kind → Nat := fun k => (l.lookup k).getD 0

/-- The exceptions of `ecdsa` that the repository catches (`secp256k1/point.py`, `public_key.py`, `private_key.py`). -/
def CaughtKey (c : Call) (e : Exc) : Prop := c.kind = .ecdsa ∧ (e.cls = .other "MalformedPointError" ∨ e.cls = .attributeError)

/-- The exceptions that `create_new_encrypted_wif` catches (`bip38.py:264`): also `ValueError`s of `hashlib`. -/
def CaughtCreate (c : Call) (e : Exc) : Prop := CaughtKey c e ∨ (c.kind = .sha256 ∨ c.kind = .digest) ∧ e.cls.isValueError = true

/-- The exceptions that `confirm_code` catches (`bip38.py:391`, `bip38.py:440`): also the repository's own error of keys. -/
def CaughtConfirm (c : Call) (e : Exc) : Prop := CaughtCreate c e ∨ e.cls = .secp256k1Error

/-- No exception is caught. -/
def Uncaught (_ : Call) (_ : Exc) : Prop := False

/-- `x`, with faults, against `y`, without, for arguments of any number and kind: an exception that is not caught is passed on. -/
def PassesOn (caught : Call → Exc → Prop) (x : Fn) (y : Src.Fn) : Prop := ∀ args kw, Follows (fun c e => ¬ caught c e) (x args kw) (y args kw)

/-- For arguments of any number and kind, and however the external functions behave: at most these external calls. -/
def AtMost (l : List (Kind × Nat)) (x : Fn) : Prop := ∀ args kw, Bounded (calls l) (x args kw)

/-! ### Arguments of external calls -/

/-- A call with fixed arguments. -/
inductive Use
  /-- `os.urandom(n)` -/
  | urandom (n : Int)
  /-- `unicodedata.normalize("NFC", _)` -/
  | nfc
  /-- `scrypt.hash(_, _, N, r, p)`, of 64 bytes -/
  | scrypt (N r p : Int)
  /-- `scrypt.hash(_, _, N, r, p, size)` -/
  | scryptOf (N r p size : Int)
  /-- `hashlib.new("ripemd160", _)` -/
  | ripemd160
  deriving DecidableEq

/-- The call has these arguments. -/
def Use.Fits : Use → Call → Prop
  | .urandom n, c => c = ⟨.urandom, [.int n], []⟩
  | .nfc, c => ∃ v, c = ⟨.normalize, [.str "NFC".toList, v], []⟩
  | .scrypt N r p, c => ∃ password salt, c = ⟨.scrypt, [password, salt, .int N, .int r, .int p], []⟩
  | .scryptOf N r p size, c => ∃ password salt, c = ⟨.scrypt, [password, salt, .int N, .int r, .int p, .int size], []⟩
  | .ripemd160, c => ∃ v, c = ⟨.hashNew, [.str "ripemd160".toList, v], []⟩

/-- The external functions whose arguments `Use` is about. -/
def Kind.fixed : Kind → Bool
  | .urandom | .normalize | .scrypt | .hashNew => true
  | _ => false

/-- Every call of `os.urandom`, `unicodedata.normalize`, `scrypt.hash` and `hashlib.new` is one of these. -/
def Uses (l : List Use) (x : Fn) : Prop := ∀ args kw, Only (fun c => c.kind.fixed = true → ∃ u ∈ l, u.Fits c) (x args kw)

/-! ### External calls that are made before a value is returned -/

/-- Work done by external functions. -/
inductive Work
  /-- any call of this function -/
  | of (k : Kind)
  /-- key stretching with the parameters for passphrases: `scrypt.hash(_, _, 16384, 8, 8)`, of 64 or of 32 bytes -/
  | slow
  /-- key stretching with the parameters for points: `scrypt.hash(_, _, 1024, 1, 1, 64)` -/
  | fast
  deriving DecidableEq

/-- The call does this work. -/
def Work.Fits : Work → Call → Prop
  | .of k, c => c.kind = k
  | .slow, c => (Use.scrypt 16384 8 8).Fits c ∨ (Use.scryptOf 16384 8 8 32).Fits c
  | .fast, c => (Use.scryptOf 1024 1 1 64).Fits c

open Classical in
/-- The number of calls, among these, made from position `start` on, that do this work and did not raise. -/
noncomputable def answered (w : Work) (F : Faults) (start : Nat) (done : List Call) : Nat :=
  (done.zipIdx start).countP fun p => decide (w.Fits p.1 ∧ F p.2 p.1 = none)

/-- For arguments of any number and kind, and however the external functions behave: a value is returned only after at least this many calls that
did not raise. -/
def AtLeast (l : List (Work × Nat)) (x : Fn) : Prop :=
  ∀ args kw F log v log', x args kw F log = some (.ok v, log') →
    ∃ done, log' = log ++ done ∧ ∀ p ∈ l, p.2 ≤ answered p.1 F log.length done

end Bip38.SrcX
