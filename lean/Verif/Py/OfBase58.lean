import Verif.Py.Text
import Verif.Src.Exceptions
import Verif.Src.Base58

/-!
# The text of `bip38/libs/base58.py` (generated by `tools/gen_text.py`, do not edit)
-/
set_option maxRecDepth 100000
set_option linter.unusedVariables false
set_option linter.style.longLine false
namespace Bip38.Py
open Bip38.Src

/-- `bip38/libs/base58.py`, lines 1-74, word for word -/
def Base58Text : String := r#"#!/usr/bin/env python3

from hashlib import sha256

import six

__base58_alphabet = "123456789ABCDEFGHJKLMNPQRSTUVWXYZabcdefghijkmnopqrstuvwxyz"


def string_to_int(data):
    val = 0

    if type(data) == str:
        data = bytearray(data)

    for (i, c) in enumerate(data[::-1]):
        val += (256 ** i) * c
    return val


def ensure_string(data):
    if isinstance(data, six.binary_type):
        return data.decode("utf-8")
    elif not isinstance(data, six.string_types):
        raise ValueError("Invalid value for string")
    return data


def encode(data, alphabet=__base58_alphabet):
    enc = ""
    val = string_to_int(data)
    while val >= len(alphabet):
        val, mod = divmod(val, len(alphabet))
        enc = alphabet[mod] + enc
    if val:
        enc = alphabet[val] + enc

    n = len(data) - len(data.lstrip(b"\0"))
    return alphabet[0] * n + enc


def check_encode(raw, alphabet=__base58_alphabet):
    chk = sha256(sha256(raw).digest()).digest()[:4]
    return encode(raw + chk, alphabet)


def decode(data, alphabet=__base58_alphabet):
    if bytes != str:
        data = bytes(data, "ascii")

    val = 0
    prefix = 0
    for c in data:
        val = (val * len(alphabet)) + alphabet.encode("utf-8").find(c)
        if val == 0:
            prefix += 1

    dec = bytearray()
    while val > 0:
        val, mod = divmod(val, 256)
        dec.append(mod)

    dec.extend(bytearray(prefix))

    return bytes(dec[::-1])


def check_decode(enc, alphabet=__base58_alphabet):
    dec = decode(enc, alphabet)
    raw, chk = dec[:-4], dec[-4:]
    if chk != sha256(sha256(raw).digest()).digest()[:4]:
        raise ValueError("base58 decoding checksum error")
    else:
        return raw
"#

/-- What `bip38/libs/base58.py` defines. -/
def Base58Defs (H : Host) : Scope :=
  [(v!"__base58_alphabet", .value (eGlobal (base58_base58_alphabet H))),
   (v!"string_to_int", .fn (base58_string_to_int H)),
   (v!"ensure_string", .fn (base58_ensure_string H)),
   (v!"encode", .fn (base58_encode H)),
   (v!"check_encode", .fn (base58_check_encode H)),
   (v!"decode", .fn (base58_decode H)),
   (v!"check_decode", .fn (base58_check_decode H))]

/-- The modules that `bip38/libs/base58.py` imports from. -/
def Base58World (H : Host) : List (Nat × Scope) :=
  []

def base58Chars : List Char := chars% Base58Text
def base58Tokens : List Tok := eval% ((lex (base58Chars.map Char.toNat)).getD [])
def base58Tree : List PS := eval% (((ps depth (.stmts []) base58Tokens).map (·.1)).getD [])

theorem base58_chars : Base58Text = String.ofList base58Chars := by by_kernel
theorem base58_lex : lex (base58Chars.map Char.toNat) = some base58Tokens := by by_kernel
theorem base58_ps : ps depth (.stmts []) base58Tokens = some (base58Tree, []) := by by_kernel

theorem base58_parse : parseModule (Base58Text.toList.map Char.toNat) = some base58Tree :=
  parseModule_eq base58_chars base58_lex base58_ps

theorem base58_imports (H : Host) : imports [v!"bip38.libs", v!"bip38"] (Base58World H) base58Tree = some ((imports [v!"bip38.libs", v!"bip38"] (Base58World H) base58Tree).getD []) := by by_kernel

theorem base58_definitions (H : Host) :
    definitions { lib := library H, scope := Base58Defs H ++ (imports [v!"bip38.libs", v!"bip38"] (Base58World H) base58Tree).getD [], methods := (fun _ => []) 0, str := Error_str H }
      (fun _ => []) base58Tree = some (Base58Defs H) := by by_kernel

theorem base58_defines (H : Host) :
    Defines H (Error_str H) [v!"bip38.libs", v!"bip38"] (Base58World H) (fun _ => []) Base58Text (Base58Defs H) :=
  ⟨base58Tree, _, base58_parse, base58_imports H, base58_definitions H⟩

end Bip38.Py
