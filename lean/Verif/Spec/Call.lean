import Verif.Spec.Source
/-!
# How the arguments of a call reach the parameters
-/
namespace Bip38.Spec

open Bip38 Src

/-- The parameters of a function, in order: their names and, for those that may be left out, the value they then have. -/
abbrev Signature := List (Name × Option Val)

/-- The call with positional arguments `args` and keyword arguments `kw` gives the parameters the values `full`: the first parameters take the
positional arguments; each other one takes the keyword argument of its name, or else its default; every keyword argument is the name of
one of these other parameters. -/
structure Binds (sig : Signature) (args : List Val) (kw : List (Name × Val)) (full : List Val) : Prop where
  few : args.length ≤ sig.length
  length : full.length = sig.length
  names : ∀ n v, (n, v) ∈ kw → n ∈ (sig.drop args.length).map Prod.fst
  positional : ∀ i, i < args.length → full[i]? = args[i]?
  keyword : ∀ i n d, args.length ≤ i → sig[i]? = some (n, d) → ∀ v, (n, v) ∈ kw → full[i]? = some v
  default : ∀ i n d, args.length ≤ i → sig[i]? = some (n, d) → (∀ v, (n, v) ∉ kw) → d ≠ none ∧ full[i]? = d

/-- `f` may be called as Python allows for a function with the signature `sig`: a call that gives every parameter one value is the same as the
call with these values in order; every other call raises `TypeError`. -/
def CalledAs (f : Fn) (sig : Signature) : Prop :=
  ∀ args kw, (kw.map Prod.fst).Nodup →
    (∃ full, Binds sig args kw full ∧ f args kw = f full []) ∨
    ((¬ ∃ full, Binds sig args kw full) ∧ ∃ m, Raises (f args kw) .typeError m)

end Bip38.Spec
