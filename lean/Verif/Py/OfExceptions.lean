import Verif.Py.Text
import Verif.Src.Exceptions

/-!
# The text of `bip38/exceptions.py` (generated by `tools/gen_text.py`, do not edit)
-/
set_option maxRecDepth 100000
set_option linter.unusedVariables false
set_option linter.style.longLine false
namespace Bip38.Py
open Bip38.Src

/-- `bip38/exceptions.py`, lines 1-62, word for word -/
def ExceptionsText : String := r#"#!/usr/bin/env python3

# Copyright © 2020-2024, Meheret Tesfaye Batu <meherett.batu@gmail.com>
# Distributed under the MIT software license, see the accompanying
# file COPYING or https://opensource.org/license/mit

from typing import (
    Optional, Any
)


class Error(Exception):

    def __init__(
        self, message: str, detail: Optional[str] = None, expected: Any = None, got: Any = None
    ) -> None:
        self._message, self._detail, self._expected, self._got = (
            message, detail, None, f"'{got}'"
        )

        if isinstance(expected, list):
            for expect in expected:
                if self._expected is None:
                    self._expected = f"'{expect}'"
                else:
                    self._expected += f", '{expect}'"
        else:
            self._expected = expected

    def __str__(self):
        if self._expected and self._got and self._detail:
            return f"{self._message}, (expected: {self._expected} | got: {self._got}) {self._detail}"
        elif self._expected and self._got and not self._detail:
            return f"{self._message}, (expected: {self._expected} | got: {self._got})"
        elif self._detail:
            return f"{self._message} {self._detail}"
        else:
            return f"{self._message}"


class CryptocurrencyError(Error):
    pass


class NetworkError(Error):
    pass


class Secp256k1Error(Error):
    pass


class AddressError(Error):
    pass


class WIFError(Error):
    pass


class PassphraseError(Error):
    pass
"#

/-- What `bip38/exceptions.py` defines. -/
def ExceptionsDefs (H : Host) : Scope :=
  [(v!"Error", .exc .error (Error_init H) (Error_str H)),
   (v!"CryptocurrencyError", .exc .cryptocurrencyError (Error_init H) (Error_str H)),
   (v!"NetworkError", .exc .networkError (Error_init H) (Error_str H)),
   (v!"Secp256k1Error", .exc .secp256k1Error (Error_init H) (Error_str H)),
   (v!"AddressError", .exc .addressError (Error_init H) (Error_str H)),
   (v!"WIFError", .exc .wifError (Error_init H) (Error_str H)),
   (v!"PassphraseError", .exc .passphraseError (Error_init H) (Error_str H))]

/-- The modules that `bip38/exceptions.py` imports from. -/
def ExceptionsWorld (H : Host) : List (Nat × Scope) :=
  []

def exceptionsChars : List Char := chars% ExceptionsText
def exceptionsTokens : List Tok := eval% ((lex (exceptionsChars.map Char.toNat)).getD [])
def exceptionsTree : List PS := eval% (((ps depth (.stmts []) exceptionsTokens).map (·.1)).getD [])

theorem exceptions_chars : ExceptionsText = String.ofList exceptionsChars := by by_kernel
theorem exceptions_lex : lex (exceptionsChars.map Char.toNat) = some exceptionsTokens := by by_kernel
theorem exceptions_ps : ps depth (.stmts []) exceptionsTokens = some (exceptionsTree, []) := by by_kernel

theorem exceptions_parse : parseModule (ExceptionsText.toList.map Char.toNat) = some exceptionsTree :=
  parseModule_eq exceptions_chars exceptions_lex exceptions_ps

theorem exceptions_imports (H : Host) : imports [v!"bip38"] (ExceptionsWorld H) exceptionsTree = some ((imports [v!"bip38"] (ExceptionsWorld H) exceptionsTree).getD []) := by by_kernel

theorem exceptions_definitions (H : Host) :
    definitions { lib := library H, scope := ExceptionsDefs H ++ (imports [v!"bip38"] (ExceptionsWorld H) exceptionsTree).getD [], methods := (fun _ => []) 0, str := Error_str H }
      (fun _ => []) exceptionsTree = some (ExceptionsDefs H) := by by_kernel

theorem exceptions_defines (H : Host) :
    Defines H (Error_str H) [v!"bip38"] (ExceptionsWorld H) (fun _ => []) ExceptionsText (ExceptionsDefs H) :=
  ⟨exceptionsTree, _, exceptions_parse, exceptions_imports H, exceptions_definitions H⟩

end Bip38.Py
