import Verif.SrcX.Exceptions
/-!
# `bip38/utils.py` (generated by `tools/gen_src.py` and `tools/gen_sim.py`, do not edit)
-/
set_option linter.unusedVariables false
set_option linter.style.longLine false
namespace Bip38.SrcX

open Bip38.Src

/-- `bip38/utils.py:26`: `return b''` -/
def utils_get_bytes_L26 (H : Host) : Stmt := fun env =>
  sReturn (eConst (.bytes [])) env

/-- `bip38/utils.py:25`: `if not data:` -/
def utils_get_bytes_L25 (H : Host) : Stmt := fun env =>
  sIf (eNot (eName v!"data")) [utils_get_bytes_L26 H] [] env

/-- `bip38/utils.py:28`: `return data` -/
def utils_get_bytes_L28 (H : Host) : Stmt := fun env =>
  sReturn (eName v!"data") env

/-- `bip38/utils.py:31`: `return bytes.fromhex(data)` -/
def utils_get_bytes_L31 (H : Host) : Stmt := fun env =>
  sReturn (eCall pyFromhex [(eName v!"data")] []) env

/-- `bip38/utils.py:33`: `return bytes(data, 'utf-8')` -/
def utils_get_bytes_L33 (H : Host) : Stmt := fun env =>
  sReturn (eCall pyBytes [(eName v!"data"), (eConst (.str "utf-8".toList))] []) env

/-- `bip38/utils.py:30`: `if unhexlify:` -/
def utils_get_bytes_L30 (H : Host) : Stmt := fun env =>
  sIf (eName v!"unhexlify") [utils_get_bytes_L31 H] [utils_get_bytes_L33 H] env

/-- `bip38/utils.py:35`: `raise TypeError("Agreement must be either 'bytes' or 'string'!")` -/
def utils_get_bytes_L35 (H : Host) : Stmt := fun env =>
  sRaise (Error_str H) (eCall (pyException .typeError) [(eConst (.str "Agreement must be either 'bytes' or 'string'!".toList))] []) env

/-- `bip38/utils.py:29`: `elif isinstance(data, str):` -/
def utils_get_bytes_L29 (H : Host) : Stmt := fun env =>
  sIf (eCall pyIsinstance [(eName v!"data"), (eConst (.type .str))] []) [utils_get_bytes_L30 H] [utils_get_bytes_L35 H] env

/-- `bip38/utils.py:27`: `if isinstance(data, bytes):` -/
def utils_get_bytes_L27 (H : Host) : Stmt := fun env =>
  sIf (eCall pyIsinstance [(eName v!"data"), (eConst (.type .bytes))] []) [utils_get_bytes_L28 H] [utils_get_bytes_L29 H] env

/-- `bip38/utils.py:12-35` `get_bytes` -/
def utils_get_bytes (H : Host) : Fn :=
  defun [⟨v!"data", none⟩, ⟨v!"unhexlify", some ((eConst (.bool true)) Env.empty)⟩] none
    [utils_get_bytes_L25 H, utils_get_bytes_L27 H]

/-- `bip38/utils.py:49`: `tmp = bytearray(data)` -/
def utils_bytes_reverse_L49 (H : Host) : Stmt := fun env =>
  sAssign (.name v!"tmp") (eCall pyBytearray [(eName v!"data")] []) env

/-- `bip38/utils.py:50`: `tmp.reverse()` -/
def utils_bytes_reverse_L50 (H : Host) : Stmt := fun env =>
  sMutate v!"tmp" uReverse [] env

/-- `bip38/utils.py:51`: `return bytes(tmp)` -/
def utils_bytes_reverse_L51 (H : Host) : Stmt := fun env =>
  sReturn (eCall pyBytes [(eName v!"tmp")] []) env

/-- `bip38/utils.py:38-51` `bytes_reverse` -/
def utils_bytes_reverse (H : Host) : Fn :=
  defun [⟨v!"data", none⟩] none
    [utils_bytes_reverse_L49 H, utils_bytes_reverse_L50 H, utils_bytes_reverse_L51 H]

/-- `bip38/utils.py:66`: `return ''` -/
def utils_bytes_to_string_L66 (H : Host) : Stmt := fun env =>
  sReturn (eConst (.str "".toList)) env

/-- `bip38/utils.py:65`: `if not data:` -/
def utils_bytes_to_string_L65 (H : Host) : Stmt := fun env =>
  sIf (eNot (eName v!"data")) [utils_bytes_to_string_L66 H] [] env

/-- `bip38/utils.py:68`: `bytes.fromhex(data)` -/
def utils_bytes_to_string_L68 (H : Host) : Stmt := fun env =>
  sExpr (eCall pyFromhex [(eName v!"data")] []) env

/-- `bip38/utils.py:69`: `return data` -/
def utils_bytes_to_string_L69 (H : Host) : Stmt := fun env =>
  sReturn (eName v!"data") env

/-- `bip38/utils.py:71`: `pass` -/
def utils_bytes_to_string_L71 (H : Host) : Stmt := fun env =>
  sPass env

/-- `bip38/utils.py:67`: `try:` -/
def utils_bytes_to_string_L67 (H : Host) : Stmt := fun env =>
  sTry [] [utils_bytes_to_string_L68 H, utils_bytes_to_string_L69 H] [([.valueError, .typeError], [utils_bytes_to_string_L71 H])] env

/-- `bip38/utils.py:73`: `data = bytes(data, 'utf-8')` -/
def utils_bytes_to_string_L73 (H : Host) : Stmt := fun env =>
  sAssign (.name v!"data") (eCall pyBytes [(eName v!"data"), (eConst (.str "utf-8".toList))] []) env

/-- `bip38/utils.py:72`: `if not isinstance(data, bytes):` -/
def utils_bytes_to_string_L72 (H : Host) : Stmt := fun env =>
  sIf (eNot (eCall pyIsinstance [(eName v!"data"), (eConst (.type .bytes))] [])) [utils_bytes_to_string_L73 H] [] env

/-- `bip38/utils.py:74`: `return data.hex()` -/
def utils_bytes_to_string_L74 (H : Host) : Stmt := fun env =>
  sReturn (eMethod [] mHex (eName v!"data") [] []) env

/-- `bip38/utils.py:54-74` `bytes_to_string` -/
def utils_bytes_to_string (H : Host) : Fn :=
  defun [⟨v!"data", none⟩] none
    [utils_bytes_to_string_L65 H, utils_bytes_to_string_L67 H, utils_bytes_to_string_L72 H, utils_bytes_to_string_L74 H]

/-- `bip38/utils.py:92`: `return int.from_bytes(data, byteorder=endianness, signed=signed)` -/
def utils_bytes_to_integer_L92 (H : Host) : Stmt := fun env =>
  sReturn (eCall pyFromBytes [(eName v!"data")] [(v!"byteorder", (eName v!"endianness")), (v!"signed", (eName v!"signed"))]) env

/-- `bip38/utils.py:77-92` `bytes_to_integer` -/
def utils_bytes_to_integer (H : Host) : Fn :=
  defun [⟨v!"data", none⟩, ⟨v!"endianness", some ((eConst (.str "big".toList)) Env.empty)⟩, ⟨v!"signed", some ((eConst (.bool false)) Env.empty)⟩] none
    [utils_bytes_to_integer_L92 H]

/-- `bip38/utils.py:114`: `bytes_num = bytes_num or ((data.bit_length() if data > 0 else 1) + 7) // 8` -/
def utils_integer_to_bytes_L114 (H : Host) : Stmt := fun env =>
  sAssign (.name v!"bytes_num") (eOr (eName v!"bytes_num") (eBin [] [] .floordiv (eBin [] [] .add (eIf (eCompare (eName v!"data") [(.gt, (eConst (.int 0)))]) (eMethod [] mBitLength (eName v!"data") [] []) (eConst (.int 1))) (eConst (.int 7))) (eConst (.int 8)))) env

/-- `bip38/utils.py:115`: `return data.to_bytes(bytes_num, byteorder=endianness, signed=signed)` -/
def utils_integer_to_bytes_L115 (H : Host) : Stmt := fun env =>
  sReturn (eMethod [] (mToBytes H) (eName v!"data") [(eName v!"bytes_num")] [(v!"byteorder", (eName v!"endianness")), (v!"signed", (eName v!"signed"))]) env

/-- `bip38/utils.py:95-115` `integer_to_bytes` -/
def utils_integer_to_bytes (H : Host) : Fn :=
  defun [⟨v!"data", none⟩, ⟨v!"bytes_num", some ((eConst .none) Env.empty)⟩, ⟨v!"endianness", some ((eConst (.str "big".toList)) Env.empty)⟩, ⟨v!"signed", some ((eConst (.bool false)) Env.empty)⟩] none
    [utils_integer_to_bytes_L114 H, utils_integer_to_bytes_L115 H]

end Bip38.SrcX
