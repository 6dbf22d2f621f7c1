import Verif.Py.Text
import Verif.Src.Exceptions
import Verif.Src.PrivateKey
import Verif.Py.OfConst
import Verif.Py.OfExceptions
import Verif.Py.OfPublicKey
import Verif.Py.OfPoint

/-!
# The text of `bip38/secp256k1/private_key.py` (generated by `tools/gen_text.py`, do not edit)
-/
set_option maxRecDepth 100000
set_option linter.unusedVariables false
set_option linter.style.longLine false
namespace Bip38.Py
open Bip38.Src

/-- `bip38/secp256k1/private_key.py`, lines 1-92, word for word -/
def PrivateKeyText : String := r#"#!/usr/bin/env python3

# Copyright © 2023-2024, Meheret Tesfaye Batu <meherett.batu@gmail.com>
# Distributed under the MIT software license, see the accompanying
# file COPYING or https://opensource.org/license/mit

from typing import Any
from ecdsa import SigningKey
from ecdsa import (
    curves, keys
)

from ..const import PRIVATE_KEY_LENGTH
from ..exceptions import Secp256k1Error
from .public_key import PublicKey


class PrivateKey:

    signing_key: SigningKey

    def __init__(self, signing_key: SigningKey) -> None:
        """
        Initializes an instance with a signing key.

        :param signing_key: The signing key to be used for cryptographic operations.
        :type signing_key: SigningKey
        """

        self.signing_key = signing_key

    @classmethod
    def from_bytes(cls, private_key: bytes) -> "PrivateKey":
        """
        Creates a private key instance from the given bytes.

        :param private_key: The bytes representing the private key.
        :type private_key: bytes

        :return: An instance of PrivateKey corresponding to the given bytes.
        :rtype: PrivateKey
        """

        try:
            return cls(
                SigningKey.from_string(
                    private_key, curve=curves.SECP256k1
                )
            )
        except keys.MalformedPointError as ex:
            raise Secp256k1Error("Invalid private key bytes") from ex

    @staticmethod
    def length() -> int:
        """
        Returns the length of the private key in bytes for  SECP256k1 curve.

        :return: Length of the private key in bytes.
        :rtype: int
        """

        return PRIVATE_KEY_LENGTH

    def underlying_object(self) -> Any:
        """
        Return the underlying signing key object.

        :return: The underlying signing key object.
        :rtype: Any
        """

        return self.signing_key

    def raw(self) -> bytes:
        """
        Return the raw bytes representation of the private key.

        :return: The raw bytes of the private key.
        :rtype: bytes
        """

        return self.signing_key.to_string()

    def public_key(self) -> PublicKey:
        """
        Retrieve the public key associated with this private key instance.

        :return: The public key object.
        :rtype: IPublicKey
        """

        return PublicKey(self.signing_key.get_verifying_key())
"#

/-- What `bip38/secp256k1/private_key.py` defines. -/
def PrivateKeyDefs (H : Host) : Scope :=
  [(v!"PrivateKey", .cls (some .PrivateKey)
    [(v!"__init__", .ctor (PrivateKey_init H)),
     (v!"from_bytes", .fn (PrivateKey_from_bytes H)),
     (v!"length", .fn (PrivateKey_length H)),
     (v!"underlying_object", .method (PrivateKey_underlying_object H)),
     (v!"raw", .method (PrivateKey_raw H)),
     (v!"public_key", .method (PrivateKey_public_key H))])]

/-- The functions of the class in `bip38/secp256k1/private_key.py`. -/
def PrivateKeyOrder (H : Host) : List (Nat × Option (Cls × Fn)) :=
  [(v!"__init__", none),
   (v!"from_bytes", none),
   (v!"length", none),
   (v!"underlying_object", some (.PrivateKey, PrivateKey_underlying_object H)),
   (v!"raw", some (.PrivateKey, PrivateKey_raw H)),
   (v!"public_key", some (.PrivateKey, PrivateKey_public_key H))]

/-- The modules that `bip38/secp256k1/private_key.py` imports from. -/
def PrivateKeyWorld (H : Host) : List (Nat × Scope) :=
  [(v!"bip38.const", ConstDefs H),
   (v!"bip38.exceptions", ExceptionsDefs H),
   (v!"bip38.secp256k1.public_key", PublicKeyDefs H)]

def privateKeyChars : List Char := chars% PrivateKeyText
def privateKeyTokens : List Tok := eval% ((lex (privateKeyChars.map Char.toNat)).getD [])
def privateKeyTree : List PS := eval% (((ps depth (.stmts []) privateKeyTokens).map (·.1)).getD [])

theorem privateKey_chars : PrivateKeyText = String.ofList privateKeyChars := by by_kernel
theorem privateKey_lex : lex (privateKeyChars.map Char.toNat) = some privateKeyTokens := by by_kernel
theorem privateKey_ps : ps depth (.stmts []) privateKeyTokens = some (privateKeyTree, []) := by by_kernel

theorem privateKey_parse : parseModule (PrivateKeyText.toList.map Char.toNat) = some privateKeyTree :=
  parseModule_eq privateKey_chars privateKey_lex privateKey_ps

theorem privateKey_imports (H : Host) : imports [v!"bip38.secp256k1", v!"bip38"] (PrivateKeyWorld H) privateKeyTree = some ((imports [v!"bip38.secp256k1", v!"bip38"] (PrivateKeyWorld H) privateKeyTree).getD []) := by by_kernel

theorem privateKey_definitions (H : Host) :
    definitions { lib := library H, scope := PrivateKeyDefs H ++ (imports [v!"bip38.secp256k1", v!"bip38"] (PrivateKeyWorld H) privateKeyTree).getD [], methods := (fun n => allMethods (PointOrder H) ++ allMethods (PublicKeyOrder H) ++ methodsBefore n (PrivateKeyOrder H)) 0, str := Error_str H }
      (fun n => allMethods (PointOrder H) ++ allMethods (PublicKeyOrder H) ++ methodsBefore n (PrivateKeyOrder H)) privateKeyTree = some (PrivateKeyDefs H) := by by_kernel

theorem privateKey_defines (H : Host) :
    Defines H (Error_str H) [v!"bip38.secp256k1", v!"bip38"] (PrivateKeyWorld H) (fun n => allMethods (PointOrder H) ++ allMethods (PublicKeyOrder H) ++ methodsBefore n (PrivateKeyOrder H)) PrivateKeyText (PrivateKeyDefs H) :=
  ⟨privateKeyTree, _, privateKey_parse, privateKey_imports H, privateKey_definitions H⟩

end Bip38.Py
