import Verif.Py.Text
import Verif.Src.Exceptions
import Verif.Src.PublicKey
import Verif.Py.OfConst
import Verif.Py.OfExceptions
import Verif.Py.OfPoint

/-!
# The text of `bip38/secp256k1/public_key.py` (generated by `tools/gen_text.py`, do not edit)
-/
set_option maxRecDepth 100000
set_option linter.unusedVariables false
set_option linter.style.longLine false
namespace Bip38.Py
open Bip38.Src

/-- `bip38/secp256k1/public_key.py`, lines 1-150, word for word -/
def PublicKeyText : String := r#"#!/usr/bin/env python3

# Copyright © 2023-2024, Meheret Tesfaye Batu <meherett.batu@gmail.com>
# Distributed under the MIT software license, see the accompanying
# file COPYING or https://opensource.org/license/mit

from typing import Any
from ecdsa import VerifyingKey
from ecdsa.ecdsa import curve_secp256k1
from ecdsa import (
    curves, ellipticcurve, keys
)

from ..const import (
    COMPRESSED_PUBLIC_KEY_LENGTH, UNCOMPRESSED_PUBLIC_KEY_LENGTH
)
from ..exceptions import Secp256k1Error
from .point import Point


class PublicKey:

    verify_key: VerifyingKey

    def __init__(self, verify_key: VerifyingKey) -> None:
        """
        Initialize the instance with a verifying key.

        :param verify_key: The verifying key used for cryptographic operations.
        :type verify_key: VerifyingKey
        """

        self.verify_key = verify_key

    @classmethod
    def from_bytes(cls, public_key: bytes) -> "PublicKey":
        """
        Create a public key instance from bytes representation.

        :param public_key: The bytes representation of the public key.
        :type public_key: bytes

        :return: An instance of the public key derived from the given bytes.
        :rtype: PublicKey
        """

        try:
            return cls(
                VerifyingKey.from_string(
                    public_key, curve=curves.SECP256k1
                )
            )
        except keys.MalformedPointError as ex:
            raise Secp256k1Error("Invalid public key bytes") from ex

    @classmethod
    def from_point(cls, point: Point) -> "PublicKey":
        """
        Create a public key instance from an elliptic curve point.

        :param point: The elliptic curve point representing the public key.
        :type point: Point

        :return: An instance of the public key derived from the given point.
        :rtype: PublicKey
        """

        try:
            return cls(
                VerifyingKey.from_public_point(
                    ellipticcurve.Point(
                        curve_secp256k1, point.x(), point.y()
                    ),
                    curve=curves.SECP256k1
                )
            )
        except keys.MalformedPointError as ex:
            raise Secp256k1Error("Invalid public key point") from ex

    @staticmethod
    def compressed_length() -> int:
        """
        Returns the length of a compressed public key in bytes.

        :return: The length of a compressed public key in bytes.
        :rtype: int
        """

        return COMPRESSED_PUBLIC_KEY_LENGTH

    @staticmethod
    def uncompressed_length() -> int:
        """
        Returns the length of an uncompressed public key in bytes.

        :return: The length of an uncompressed public key in bytes.
        :rtype: int
        """

        return UNCOMPRESSED_PUBLIC_KEY_LENGTH

    def underlying_object(self) -> Any:
        """
        Returns the underlying verification key object.

        :return: The underlying verification key object.
        :rtype: Any
        """

        return self.verify_key

    def raw(self, public_key_type: str) -> bytes:
        """
        Retrieves the raw compressed representation of the public key.

        :return: The compressed public key bytes.
        :rtype: bytes
        """

        return self.raw_compressed() if public_key_type == "compressed" else self.raw_uncompressed()

    def raw_compressed(self) -> bytes:
        """
        Retrieves the raw compressed representation of the public key.

        :return: The compressed public key bytes.
        :rtype: bytes
        """

        return self.verify_key.to_string("compressed")

    def raw_uncompressed(self) -> bytes:
        """
        Retrieves the raw uncompressed representation of the public key.

        :return: The uncompressed public key bytes.
        :rtype: bytes
        """

        return self.verify_key.to_string("uncompressed")

    def point(self) -> Point:
        """
        Retrieves the point object associated with the public key.

        :return: The point object implementing the Point interface.
        :rtype: Point
        """

        return Point(self.verify_key.pubkey.point)
"#

/-- What `bip38/secp256k1/public_key.py` defines. -/
def PublicKeyDefs (H : Host) : Scope :=
  [(v!"PublicKey", .cls (some .PublicKey)
    [(v!"__init__", .ctor (PublicKey_init H)),
     (v!"from_bytes", .fn (PublicKey_from_bytes H)),
     (v!"from_point", .fn (PublicKey_from_point H)),
     (v!"compressed_length", .fn (PublicKey_compressed_length H)),
     (v!"uncompressed_length", .fn (PublicKey_uncompressed_length H)),
     (v!"underlying_object", .method (PublicKey_underlying_object H)),
     (v!"raw", .method (PublicKey_raw H)),
     (v!"raw_compressed", .method (PublicKey_raw_compressed H)),
     (v!"raw_uncompressed", .method (PublicKey_raw_uncompressed H)),
     (v!"point", .method (PublicKey_point H))])]

/-- The functions of the class in `bip38/secp256k1/public_key.py`. -/
def PublicKeyOrder (H : Host) : List (Nat × Option (Cls × Fn)) :=
  [(v!"__init__", none),
   (v!"from_bytes", none),
   (v!"from_point", none),
   (v!"compressed_length", none),
   (v!"uncompressed_length", none),
   (v!"underlying_object", some (.PublicKey, PublicKey_underlying_object H)),
   (v!"raw_compressed", some (.PublicKey, PublicKey_raw_compressed H)),
   (v!"raw_uncompressed", some (.PublicKey, PublicKey_raw_uncompressed H)),
   (v!"raw", some (.PublicKey, PublicKey_raw H)),
   (v!"point", some (.PublicKey, PublicKey_point H))]

/-- The modules that `bip38/secp256k1/public_key.py` imports from. -/
def PublicKeyWorld (H : Host) : List (Nat × Scope) :=
  [(v!"bip38.const", ConstDefs H),
   (v!"bip38.exceptions", ExceptionsDefs H),
   (v!"bip38.secp256k1.point", PointDefs H)]

def publicKeyChars : List Char := chars% PublicKeyText
def publicKeyTokens : List Tok := eval% ((lex (publicKeyChars.map Char.toNat)).getD [])
def publicKeyTree : List PS := eval% (((ps depth (.stmts []) publicKeyTokens).map (·.1)).getD [])

theorem publicKey_chars : PublicKeyText = String.ofList publicKeyChars := by by_kernel
theorem publicKey_lex : lex (publicKeyChars.map Char.toNat) = some publicKeyTokens := by by_kernel
theorem publicKey_ps : ps depth (.stmts []) publicKeyTokens = some (publicKeyTree, []) := by by_kernel

theorem publicKey_parse : parseModule (PublicKeyText.toList.map Char.toNat) = some publicKeyTree :=
  parseModule_eq publicKey_chars publicKey_lex publicKey_ps

theorem publicKey_imports (H : Host) : imports [v!"bip38.secp256k1", v!"bip38"] (PublicKeyWorld H) publicKeyTree = some ((imports [v!"bip38.secp256k1", v!"bip38"] (PublicKeyWorld H) publicKeyTree).getD []) := by by_kernel

theorem publicKey_definitions (H : Host) :
    definitions { lib := library H, scope := PublicKeyDefs H ++ (imports [v!"bip38.secp256k1", v!"bip38"] (PublicKeyWorld H) publicKeyTree).getD [], methods := (fun n => allMethods (PointOrder H) ++ methodsBefore n (PublicKeyOrder H)) 0, str := Error_str H }
      (fun n => allMethods (PointOrder H) ++ methodsBefore n (PublicKeyOrder H)) publicKeyTree = some (PublicKeyDefs H) := by by_kernel

theorem publicKey_defines (H : Host) :
    Defines H (Error_str H) [v!"bip38.secp256k1", v!"bip38"] (PublicKeyWorld H) (fun n => allMethods (PointOrder H) ++ methodsBefore n (PublicKeyOrder H)) PublicKeyText (PublicKeyDefs H) :=
  ⟨publicKeyTree, _, publicKey_parse, publicKey_imports H, publicKey_definitions H⟩

end Bip38.Py
