import Verif.Src.Sem
/-!
# Class statements whose bodies only assign

`class Name(Base): attribute = expression ..`, enough for `bip38/cryptocurrencies.py`: the value of an attribute is what the class body
assigned last, else the attribute of the base class (`type.__getattribute__` along the method resolution order of single inheritance).
-/
namespace Bip38.Src

/-- A class statement: name, base classes, and the assignments of its body in order (an annotation without a value assigns nothing). -/
structure ClassText where
  name : String
  bases : List String
  body : List (String × Expr)

/-- The expression that the body of the class assigned last to `n`. -/
def ClassText.assigned (c : ClassText) (n : String) : Option Expr := (c.body.reverse.find? fun p => p.1 == n).map (·.2)

/-- The class that a name stands for at the end of the module: the last class statement of that name. -/
def findClass (cs : List ClassText) (name : String) : Option ClassText := cs.reverse.find? fun c => c.name == name

/-- `getattr(cls, n)`; the first argument bounds the length of the chain of base classes. -/
def classAttr (cs : List ClassText) : Nat → String → String → Run Val
  | 0, _, _ => .stuck
  | k + 1, cls, n =>
    match findClass cs cls with
    | Option.none => .stuck
    | some c =>
      match c.assigned n, c.bases with
      | some e, _ => e Env.empty
      | Option.none, [] => .raise .attributeError s!"type object '{cls}' has no attribute '{n}'"
      | Option.none, [b] => classAttr cs k b n
      | Option.none, _ => .stuck

/-- `issubclass(cls, base)` -/
def classBelow (cs : List ClassText) : Nat → String → String → Bool
  | 0, _, _ => false
  | k + 1, cls, base => cls == base || match findClass cs cls with
    | some c => c.bases.any fun b => classBelow cs k b base
    | Option.none => false

end Bip38.Src
