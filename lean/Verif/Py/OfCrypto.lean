import Verif.Py.Text
import Verif.Src.Exceptions
import Verif.Src.Crypto
import Verif.Py.OfRipemd160
import Verif.Py.OfConst
import Verif.Py.OfUtils

/-!
# The text of `bip38/crypto.py` (generated by `tools/gen_text.py`, do not edit)
-/
set_option maxRecDepth 100000
set_option linter.unusedVariables false
set_option linter.style.longLine false
namespace Bip38.Py
open Bip38.Src

/-- `bip38/crypto.py`, lines 1-90, word for word -/
def CryptoText : String := r#"#!/usr/bin/env python3

# Copyright © 2023-2024, Meheret Tesfaye Batu <meherett.batu@gmail.com>
# Distributed under the MIT software license, see the accompanying
# file COPYING or https://opensource.org/license/mit

from typing import Union

import hashlib

from .libs.ripemd160 import ripemd160 as r160
from .const import CHECKSUM_BYTE_LENGTH
from .utils import get_bytes


def ripemd160(data: Union[str, bytes]) -> bytes:
    """
    Calculate the RIPEMD-160 hash of the given data.

    :param data: The data to hash, as bytes or a string.
    :type data: Union[str, bytes]

    :return: The RIPEMD-160 hash digest as bytes.
    :rtype: bytes
    """

    return (
        hashlib.new("ripemd160", get_bytes(data)).digest()
        if "ripemd160" in hashlib.algorithms_available else
        r160(get_bytes(data))
    )


def sha256(data: Union[str, bytes]) -> bytes:
    """
    Calculate the SHA-256 hash of the given data.

    :param data: The data to hash, as bytes or a string.
    :type data: Union[str, bytes]

    :return: The SHA-256 hash digest as bytes.
    :rtype: bytes
    """

    return hashlib.sha256(get_bytes(data)).digest()


def double_sha256(data: Union[str, bytes]) -> bytes:
    """
    Calculate the double SHA-256 hash of the given data.

    :param data: The data to hash, as bytes or a string.
    :type data: Union[str, bytes]

    :return: The double SHA-256 hash digest as bytes.
    :rtype: bytes
    """

    return sha256(sha256(data))


def get_checksum(data: Union[str, bytes]) -> bytes:
    """
    Calculate the checksum for the given raw bytes.

    The checksum is derived by performing a double SHA-256 hash on the input
    and returning the first few bytes, as determined by `CHECKSUM_BYTE_LENGTH`.

    :param data: The raw data to checksum.
    :type data: Union[str, bytes]

    :returns: The checksum of the data.
    :rtype: bytes
    """

    return double_sha256(data)[:CHECKSUM_BYTE_LENGTH]


def hash160(data: Union[str, bytes]) -> bytes:
    """
    Calculate the HASH160 hash (RIPEMD-160 of SHA-256) of the given data.

    :param data: The data to hash, as bytes or a string.
    :type data: Union[str, bytes]

    :return: The HASH160 hash digest as bytes.
    :rtype: bytes
    """

    return ripemd160(sha256(data))
"#

/-- What `bip38/crypto.py` defines. -/
def CryptoDefs (H : Host) : Scope :=
  [(v!"ripemd160", .fn (crypto_ripemd160 H)),
   (v!"sha256", .fn (crypto_sha256 H)),
   (v!"double_sha256", .fn (crypto_double_sha256 H)),
   (v!"get_checksum", .fn (crypto_get_checksum H)),
   (v!"hash160", .fn (crypto_hash160 H))]

/-- The modules that `bip38/crypto.py` imports from. -/
def CryptoWorld (H : Host) : List (Nat × Scope) :=
  [(v!"bip38.libs.ripemd160", Ripemd160Defs H),
   (v!"bip38.const", ConstDefs H),
   (v!"bip38.utils", UtilsDefs H)]

def cryptoChars : List Char := chars% CryptoText
def cryptoTokens : List Tok := eval% ((lex (cryptoChars.map Char.toNat)).getD [])
def cryptoTree : List PS := eval% (((ps depth (.stmts []) cryptoTokens).map (·.1)).getD [])

theorem crypto_chars : CryptoText = String.ofList cryptoChars := by by_kernel
theorem crypto_lex : lex (cryptoChars.map Char.toNat) = some cryptoTokens := by by_kernel
theorem crypto_ps : ps depth (.stmts []) cryptoTokens = some (cryptoTree, []) := by by_kernel

theorem crypto_parse : parseModule (CryptoText.toList.map Char.toNat) = some cryptoTree :=
  parseModule_eq crypto_chars crypto_lex crypto_ps

theorem crypto_imports (H : Host) : imports [v!"bip38"] (CryptoWorld H) cryptoTree = some ((imports [v!"bip38"] (CryptoWorld H) cryptoTree).getD []) := by by_kernel

theorem crypto_definitions (H : Host) :
    definitions { lib := library H, scope := CryptoDefs H ++ (imports [v!"bip38"] (CryptoWorld H) cryptoTree).getD [], methods := (fun _ => []) 0, str := Error_str H }
      (fun _ => []) cryptoTree = some (CryptoDefs H) := by by_kernel

theorem crypto_defines (H : Host) :
    Defines H (Error_str H) [v!"bip38"] (CryptoWorld H) (fun _ => []) CryptoText (CryptoDefs H) :=
  ⟨cryptoTree, _, crypto_parse, crypto_imports H, crypto_definitions H⟩

end Bip38.Py
