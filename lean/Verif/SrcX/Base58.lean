import Verif.SrcX.Exceptions
/-!
# `bip38/libs/base58.py` (generated by `tools/gen_src.py` and `tools/gen_sim.py`, do not edit)
-/
set_option linter.unusedVariables false
set_option linter.style.longLine false
namespace Bip38.SrcX

open Bip38.Src

/-- `bip38/libs/base58.py:7` `base58_alphabet` -/
def base58_base58_alphabet (H : Host) : Run Val :=
  (eConst (.str "123456789ABCDEFGHJKLMNPQRSTUVWXYZabcdefghijkmnopqrstuvwxyz".toList)) Env.empty

/-- `bip38/libs/base58.py:11`: `val = 0` -/
def base58_string_to_int_L11 (H : Host) : Stmt := fun env =>
  sAssign (.name v!"val") (eConst (.int 0)) env

/-- `bip38/libs/base58.py:14`: `data = bytearray(data)` -/
def base58_string_to_int_L14 (H : Host) : Stmt := fun env =>
  sAssign (.name v!"data") (eCall pyBytearray [(eName v!"data")] []) env

/-- `bip38/libs/base58.py:13`: `if type(data) == str:` -/
def base58_string_to_int_L13 (H : Host) : Stmt := fun env =>
  sIf (eCompare (eCall pyType [(eName v!"data")] []) [(.eq, (eConst (.type .str)))]) [base58_string_to_int_L14 H] [] env

/-- `bip38/libs/base58.py:17`: `val += (256 ** i) * c` -/
def base58_string_to_int_L17 (H : Host) : Stmt := fun env =>
  sAssign (.name v!"val") (eBin [] [] .add (eName v!"val") (eBin [] [] .mul (eBin [] [] .pow (eConst (.int 256)) (eName v!"i")) (eName v!"c"))) env

/-- `bip38/libs/base58.py:16`: `for (i, c) in enumerate(data[::-1]):` -/
def base58_string_to_int_L16 (H : Host) : Stmt := fun env =>
  sForUnpack [v!"i", v!"c"] (eCall pyEnumerate [(eReverse (eName v!"data"))] []) [base58_string_to_int_L17 H] env

/-- `bip38/libs/base58.py:18`: `return val` -/
def base58_string_to_int_L18 (H : Host) : Stmt := fun env =>
  sReturn (eName v!"val") env

/-- `bip38/libs/base58.py:10-18` `string_to_int` -/
def base58_string_to_int (H : Host) : Fn :=
  defun [⟨v!"data", none⟩] none
    [base58_string_to_int_L11 H, base58_string_to_int_L13 H, base58_string_to_int_L16 H, base58_string_to_int_L18 H]

/-- `bip38/libs/base58.py:23`: `return data.decode("utf-8")` -/
def base58_ensure_string_L23 (H : Host) : Stmt := fun env =>
  sReturn (eMethod [] mDecode (eName v!"data") [(eConst (.str "utf-8".toList))] []) env

/-- `bip38/libs/base58.py:25`: `raise ValueError("Invalid value for string")` -/
def base58_ensure_string_L25 (H : Host) : Stmt := fun env =>
  sRaise (Error_str H) (eCall (pyException .valueError) [(eConst (.str "Invalid value for string".toList))] []) env

/-- `bip38/libs/base58.py:24`: `elif not isinstance(data, six.string_types):` -/
def base58_ensure_string_L24 (H : Host) : Stmt := fun env =>
  sIf (eNot (eCall pyIsinstance [(eName v!"data"), (eConst (.tuple [.type .str]))] [])) [base58_ensure_string_L25 H] [] env

/-- `bip38/libs/base58.py:22`: `if isinstance(data, six.binary_type):` -/
def base58_ensure_string_L22 (H : Host) : Stmt := fun env =>
  sIf (eCall pyIsinstance [(eName v!"data"), (eConst (.type .bytes))] []) [base58_ensure_string_L23 H] [base58_ensure_string_L24 H] env

/-- `bip38/libs/base58.py:26`: `return data` -/
def base58_ensure_string_L26 (H : Host) : Stmt := fun env =>
  sReturn (eName v!"data") env

/-- `bip38/libs/base58.py:21-26` `ensure_string` -/
def base58_ensure_string (H : Host) : Fn :=
  defun [⟨v!"data", none⟩] none
    [base58_ensure_string_L22 H, base58_ensure_string_L26 H]

/-- `bip38/libs/base58.py:30`: `enc = ""` -/
def base58_encode_L30 (H : Host) : Stmt := fun env =>
  sAssign (.name v!"enc") (eConst (.str "".toList)) env

/-- `bip38/libs/base58.py:31`: `val = string_to_int(data)` -/
def base58_encode_L31 (H : Host) : Stmt := fun env =>
  sAssign (.name v!"val") (eCall (base58_string_to_int H) [(eName v!"data")] []) env

/-- `bip38/libs/base58.py:33`: `val, mod = divmod(val, len(alphabet))` -/
def base58_encode_L33 (H : Host) : Stmt := fun env =>
  sUnpack [.name v!"val", .name v!"mod"] (eCall pyDivmod [(eName v!"val"), (eCall pyLen [(eName v!"alphabet")] [])] []) env

/-- `bip38/libs/base58.py:34`: `enc = alphabet[mod] + enc` -/
def base58_encode_L34 (H : Host) : Stmt := fun env =>
  sAssign (.name v!"enc") (eBin [] [] .add (eIndex (eName v!"alphabet") (eName v!"mod")) (eName v!"enc")) env

/-- `bip38/libs/base58.py:32`: `while val >= len(alphabet):` -/
def base58_encode_L32 (H : Host) : Stmt := fun env =>
  sWhile (eCompare (eName v!"val") [(.ge, (eCall pyLen [(eName v!"alphabet")] []))]) [base58_encode_L33 H, base58_encode_L34 H] env

/-- `bip38/libs/base58.py:36`: `enc = alphabet[val] + enc` -/
def base58_encode_L36 (H : Host) : Stmt := fun env =>
  sAssign (.name v!"enc") (eBin [] [] .add (eIndex (eName v!"alphabet") (eName v!"val")) (eName v!"enc")) env

/-- `bip38/libs/base58.py:35`: `if val:` -/
def base58_encode_L35 (H : Host) : Stmt := fun env =>
  sIf (eName v!"val") [base58_encode_L36 H] [] env

/-- `bip38/libs/base58.py:38`: `n = len(data) - len(data.lstrip(b"\0"))` -/
def base58_encode_L38 (H : Host) : Stmt := fun env =>
  sAssign (.name v!"n") (eBin [] [] .sub (eCall pyLen [(eName v!"data")] []) (eCall pyLen [(eMethod [] mLstrip (eName v!"data") [(eConst (.bytes [0]))] [])] [])) env

/-- `bip38/libs/base58.py:39`: `return alphabet[0] * n + enc` -/
def base58_encode_L39 (H : Host) : Stmt := fun env =>
  sReturn (eBin [] [] .add (eBin [] [] .mul (eIndex (eName v!"alphabet") (eConst (.int 0))) (eName v!"n")) (eName v!"enc")) env

/-- `bip38/libs/base58.py:29-39` `encode` -/
def base58_encode (H : Host) : Fn :=
  defun [⟨v!"data", none⟩, ⟨v!"alphabet", some ((eGlobal (base58_base58_alphabet H)) Env.empty)⟩] none
    [base58_encode_L30 H, base58_encode_L31 H, base58_encode_L32 H, base58_encode_L35 H, base58_encode_L38 H, base58_encode_L39 H]

/-- `bip38/libs/base58.py:43`: `chk = sha256(sha256(raw).digest()).digest()[:4]` -/
def base58_check_encode_L43 (H : Host) : Stmt := fun env =>
  sAssign (.name v!"chk") (eSlice (eMethod [] mDigest (eCall (xSha256 H) [(eMethod [] mDigest (eCall (xSha256 H) [(eName v!"raw")] []) [] [])] []) [] []) none (some (eConst (.int 4)))) env

/-- `bip38/libs/base58.py:44`: `return encode(raw + chk, alphabet)` -/
def base58_check_encode_L44 (H : Host) : Stmt := fun env =>
  sReturn (eCall (base58_encode H) [(eBin [] [] .add (eName v!"raw") (eName v!"chk")), (eName v!"alphabet")] []) env

/-- `bip38/libs/base58.py:42-44` `check_encode` -/
def base58_check_encode (H : Host) : Fn :=
  defun [⟨v!"raw", none⟩, ⟨v!"alphabet", some ((eGlobal (base58_base58_alphabet H)) Env.empty)⟩] none
    [base58_check_encode_L43 H, base58_check_encode_L44 H]

/-- `bip38/libs/base58.py:49`: `data = bytes(data, "ascii")` -/
def base58_decode_L49 (H : Host) : Stmt := fun env =>
  sAssign (.name v!"data") (eCall pyBytes [(eName v!"data"), (eConst (.str "ascii".toList))] []) env

/-- `bip38/libs/base58.py:48`: `if bytes != str:` -/
def base58_decode_L48 (H : Host) : Stmt := fun env =>
  sIf (eCompare (eConst (.type .bytes)) [(.ne, (eConst (.type .str)))]) [base58_decode_L49 H] [] env

/-- `bip38/libs/base58.py:51`: `val = 0` -/
def base58_decode_L51 (H : Host) : Stmt := fun env =>
  sAssign (.name v!"val") (eConst (.int 0)) env

/-- `bip38/libs/base58.py:52`: `prefix = 0` -/
def base58_decode_L52 (H : Host) : Stmt := fun env =>
  sAssign (.name v!"prefix") (eConst (.int 0)) env

/-- `bip38/libs/base58.py:54`: `val = (val * len(alphabet)) + alphabet.encode("utf-8").find(c)` -/
def base58_decode_L54 (H : Host) : Stmt := fun env =>
  sAssign (.name v!"val") (eBin [] [] .add (eBin [] [] .mul (eName v!"val") (eCall pyLen [(eName v!"alphabet")] [])) (eMethod [] mFind (eMethod [] mEncode (eName v!"alphabet") [(eConst (.str "utf-8".toList))] []) [(eName v!"c")] [])) env

/-- `bip38/libs/base58.py:56`: `prefix += 1` -/
def base58_decode_L56 (H : Host) : Stmt := fun env =>
  sAssign (.name v!"prefix") (eBin [] [] .add (eName v!"prefix") (eConst (.int 1))) env

/-- `bip38/libs/base58.py:55`: `if val == 0:` -/
def base58_decode_L55 (H : Host) : Stmt := fun env =>
  sIf (eCompare (eName v!"val") [(.eq, (eConst (.int 0)))]) [base58_decode_L56 H] [] env

/-- `bip38/libs/base58.py:53`: `for c in data:` -/
def base58_decode_L53 (H : Host) : Stmt := fun env =>
  sFor v!"c" (eName v!"data") [base58_decode_L54 H, base58_decode_L55 H] env

/-- `bip38/libs/base58.py:58`: `dec = bytearray()` -/
def base58_decode_L58 (H : Host) : Stmt := fun env =>
  sAssign (.name v!"dec") (eCall pyBytearray [] []) env

/-- `bip38/libs/base58.py:60`: `val, mod = divmod(val, 256)` -/
def base58_decode_L60 (H : Host) : Stmt := fun env =>
  sUnpack [.name v!"val", .name v!"mod"] (eCall pyDivmod [(eName v!"val"), (eConst (.int 256))] []) env

/-- `bip38/libs/base58.py:61`: `dec.append(mod)` -/
def base58_decode_L61 (H : Host) : Stmt := fun env =>
  sMutate v!"dec" uAppend [(eName v!"mod")] env

/-- `bip38/libs/base58.py:59`: `while val > 0:` -/
def base58_decode_L59 (H : Host) : Stmt := fun env =>
  sWhile (eCompare (eName v!"val") [(.gt, (eConst (.int 0)))]) [base58_decode_L60 H, base58_decode_L61 H] env

/-- `bip38/libs/base58.py:63`: `dec.extend(bytearray(prefix))` -/
def base58_decode_L63 (H : Host) : Stmt := fun env =>
  sMutate v!"dec" uExtend [(eCall pyBytearray [(eName v!"prefix")] [])] env

/-- `bip38/libs/base58.py:65`: `return bytes(dec[::-1])` -/
def base58_decode_L65 (H : Host) : Stmt := fun env =>
  sReturn (eCall pyBytes [(eReverse (eName v!"dec"))] []) env

/-- `bip38/libs/base58.py:47-65` `decode` -/
def base58_decode (H : Host) : Fn :=
  defun [⟨v!"data", none⟩, ⟨v!"alphabet", some ((eGlobal (base58_base58_alphabet H)) Env.empty)⟩] none
    [base58_decode_L48 H, base58_decode_L51 H, base58_decode_L52 H, base58_decode_L53 H, base58_decode_L58 H, base58_decode_L59 H, base58_decode_L63 H, base58_decode_L65 H]

/-- `bip38/libs/base58.py:69`: `dec = decode(enc, alphabet)` -/
def base58_check_decode_L69 (H : Host) : Stmt := fun env =>
  sAssign (.name v!"dec") (eCall (base58_decode H) [(eName v!"enc"), (eName v!"alphabet")] []) env

/-- `bip38/libs/base58.py:70`: `raw, chk = dec[:-4], dec[-4:]` -/
def base58_check_decode_L70 (H : Host) : Stmt := fun env =>
  sUnpack [.name v!"raw", .name v!"chk"] (eTuple [(eSlice (eName v!"dec") none (some (eNeg (eConst (.int 4))))), (eSlice (eName v!"dec") (some (eNeg (eConst (.int 4)))) none)]) env

/-- `bip38/libs/base58.py:72`: `raise ValueError("base58 decoding checksum error")` -/
def base58_check_decode_L72 (H : Host) : Stmt := fun env =>
  sRaise (Error_str H) (eCall (pyException .valueError) [(eConst (.str "base58 decoding checksum error".toList))] []) env

/-- `bip38/libs/base58.py:74`: `return raw` -/
def base58_check_decode_L74 (H : Host) : Stmt := fun env =>
  sReturn (eName v!"raw") env

/-- `bip38/libs/base58.py:71`: `if chk != sha256(sha256(raw).digest()).digest()[:4]:` -/
def base58_check_decode_L71 (H : Host) : Stmt := fun env =>
  sIf (eCompare (eName v!"chk") [(.ne, (eSlice (eMethod [] mDigest (eCall (xSha256 H) [(eMethod [] mDigest (eCall (xSha256 H) [(eName v!"raw")] []) [] [])] []) [] []) none (some (eConst (.int 4)))))]) [base58_check_decode_L72 H] [base58_check_decode_L74 H] env

/-- `bip38/libs/base58.py:68-74` `check_decode` -/
def base58_check_decode (H : Host) : Fn :=
  defun [⟨v!"enc", none⟩, ⟨v!"alphabet", some ((eGlobal (base58_base58_alphabet H)) Env.empty)⟩] none
    [base58_check_decode_L69 H, base58_check_decode_L70 H, base58_check_decode_L71 H]

end Bip38.SrcX
