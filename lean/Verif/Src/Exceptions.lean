import Verif.Src.Builtin
import Verif.Src.Attr
/-!
# `bip38/exceptions.py` (generated by `tools/gen_src.py`, do not edit)
-/
set_option linter.unusedVariables false
set_option linter.style.longLine false
namespace Bip38.Src

/-- `bip38/exceptions.py:17`: `self._message, self._detail, self._expected, self._got = (` -/
@[src] def Error_init_L17 (H : Host) : Stmt := fun env =>
  sUnpack [.attr v!"self" v!"_message", .attr v!"self" v!"_detail", .attr v!"self" v!"_expected", .attr v!"self" v!"_got"] (eTuple [(eName v!"message"), (eName v!"detail"), (eConst .none), (eFormat [.lit "'", .val (eName v!"got"), .lit "'"])]) env

/-- `bip38/exceptions.py:24`: `self._expected = f"'{expect}'"` -/
@[src] def Error_init_L24 (H : Host) : Stmt := fun env =>
  sAssign (.attr v!"self" v!"_expected") (eFormat [.lit "'", .val (eName v!"expect"), .lit "'"]) env

/-- `bip38/exceptions.py:26`: `self._expected += f", '{expect}'"` -/
@[src] def Error_init_L26 (H : Host) : Stmt := fun env =>
  sAssign (.attr v!"self" v!"_expected") (eBin [] [] .add (eAttr (eName v!"self") v!"_expected") (eFormat [.lit ", '", .val (eName v!"expect"), .lit "'"])) env

/-- `bip38/exceptions.py:23`: `if self._expected is None:` -/
@[src] def Error_init_L23 (H : Host) : Stmt := fun env =>
  sIf (eCompare (eAttr (eName v!"self") v!"_expected") [(.isNone, (eConst .none))]) [Error_init_L24 H] [Error_init_L26 H] env

/-- `bip38/exceptions.py:22`: `for expect in expected:` -/
@[src] def Error_init_L22 (H : Host) : Stmt := fun env =>
  sFor v!"expect" (eName v!"expected") [Error_init_L23 H] env

/-- `bip38/exceptions.py:28`: `self._expected = expected` -/
@[src] def Error_init_L28 (H : Host) : Stmt := fun env =>
  sAssign (.attr v!"self" v!"_expected") (eName v!"expected") env

/-- `bip38/exceptions.py:21`: `if isinstance(expected, list):` -/
@[src] def Error_init_L21 (H : Host) : Stmt := fun env =>
  sIf (eCall pyIsinstance [(eName v!"expected"), (eConst (.type .list))] []) [Error_init_L22 H] [Error_init_L28 H] env

/-- `bip38/exceptions.py:14-28` `Error.__init__` -/
def Error_init (H : Host) (c : ExcClass) : Fn :=
  defclass (.exc c) [⟨v!"message", none⟩, ⟨v!"detail", some ((eConst .none) Env.empty)⟩, ⟨v!"expected", some ((eConst .none) Env.empty)⟩, ⟨v!"got", some ((eConst .none) Env.empty)⟩]
    [Error_init_L17 H, Error_init_L21 H]

/-- `bip38/exceptions.py:32`: `return f"{self._message}, (expected: {self._expected} | got: {self._got}) {self._detail}"` -/
@[src] def Error_str_L32 (H : Host) : Stmt := fun env =>
  sReturn (eFormat [.val (eAttr (eName v!"self") v!"_message"), .lit ", (expected: ", .val (eAttr (eName v!"self") v!"_expected"), .lit " | got: ", .val (eAttr (eName v!"self") v!"_got"), .lit ") ", .val (eAttr (eName v!"self") v!"_detail")]) env

/-- `bip38/exceptions.py:34`: `return f"{self._message}, (expected: {self._expected} | got: {self._got})"` -/
@[src] def Error_str_L34 (H : Host) : Stmt := fun env =>
  sReturn (eFormat [.val (eAttr (eName v!"self") v!"_message"), .lit ", (expected: ", .val (eAttr (eName v!"self") v!"_expected"), .lit " | got: ", .val (eAttr (eName v!"self") v!"_got"), .lit ")"]) env

/-- `bip38/exceptions.py:36`: `return f"{self._message} {self._detail}"` -/
@[src] def Error_str_L36 (H : Host) : Stmt := fun env =>
  sReturn (eFormat [.val (eAttr (eName v!"self") v!"_message"), .lit " ", .val (eAttr (eName v!"self") v!"_detail")]) env

/-- `bip38/exceptions.py:38`: `return f"{self._message}"` -/
@[src] def Error_str_L38 (H : Host) : Stmt := fun env =>
  sReturn (eFormat [.val (eAttr (eName v!"self") v!"_message")]) env

/-- `bip38/exceptions.py:35`: `elif self._detail:` -/
@[src] def Error_str_L35 (H : Host) : Stmt := fun env =>
  sIf (eAttr (eName v!"self") v!"_detail") [Error_str_L36 H] [Error_str_L38 H] env

/-- `bip38/exceptions.py:33`: `elif self._expected and self._got and not self._detail:` -/
@[src] def Error_str_L33 (H : Host) : Stmt := fun env =>
  sIf (eAnd (eAttr (eName v!"self") v!"_expected") (eAnd (eAttr (eName v!"self") v!"_got") (eNot (eAttr (eName v!"self") v!"_detail")))) [Error_str_L34 H] [Error_str_L35 H] env

/-- `bip38/exceptions.py:31`: `if self._expected and self._got and self._detail:` -/
@[src] def Error_str_L31 (H : Host) : Stmt := fun env =>
  sIf (eAnd (eAttr (eName v!"self") v!"_expected") (eAnd (eAttr (eName v!"self") v!"_got") (eAttr (eName v!"self") v!"_detail"))) [Error_str_L32 H] [Error_str_L33 H] env

/-- `bip38/exceptions.py:30-38` `Error.__str__` -/
def Error_str (H : Host) : Fn :=
  defun [⟨v!"self", none⟩] none
    [Error_str_L31 H]

end Bip38.Src
