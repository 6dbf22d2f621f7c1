import Verif.Py.Text
import Verif.Src.Exceptions
import Verif.Src.P2pkhAddress
import Verif.Py.OfBase58
import Verif.Py.OfPoint
import Verif.Py.OfPublicKey
import Verif.Py.OfPrivateKey
import Verif.Py.OfCrypto
import Verif.Py.OfExceptions
import Verif.Py.OfUtils

/-!
# The text of `bip38/p2pkh_address.py` (generated by `tools/gen_text.py`, do not edit)
-/
set_option maxRecDepth 100000
set_option linter.unusedVariables false
set_option linter.style.longLine false
namespace Bip38.Py
open Bip38.Src

/-- `bip38/p2pkh_address.py`, lines 1-97, word for word -/
def P2pkhAddressText : String := r#"#!/usr/bin/env python3

# Copyright © 2023-2024, Meheret Tesfaye Batu <meherett.batu@gmail.com>
# Distributed under the MIT software license, see the accompanying
# file COPYING or https://opensource.org/license/mit

from typing import (
    Any, Union
)

from .libs.base58 import (
    ensure_string, check_encode, check_decode
)
from .secp256k1 import PublicKey
from .cryptocurrencies import Bitcoin
from .crypto import hash160
from .exceptions import AddressError
from .utils import (
    get_bytes, integer_to_bytes, bytes_to_string
)


class P2PKHAddress:
    
    address_prefix: int = Bitcoin.NETWORKS["mainnet"]["address_prefix"]
    alphabet: str = Bitcoin.ALPHABET

    @classmethod
    def encode(cls, public_key: Union[bytes, str, PublicKey], **kwargs: Any) -> str:
        """
        Encode a public key into an address using a specified address prefix and alphabet.

        :param public_key: The public key to encode.
        :type public_key: Union[bytes, str, IPublicKey]
        :param kwargs: Additional keyword arguments.
            - address_prefix: Address prefix for the public key (optional).
            - public_key_type: Type of the public key (optional).
            - alphabet: Custom alphabet for encoding (optional).
        :type kwargs: Any

        :return: The encoded address.
        :rtype: str
        """

        address_prefix: bytes = integer_to_bytes(
            kwargs.get("address_prefix", cls.address_prefix)
        )

        if not isinstance(public_key, PublicKey):
            public_key: PublicKey = PublicKey.from_bytes(get_bytes(public_key))

        public_key_hash: bytes = hash160(
            public_key.raw_compressed()
            if kwargs.get("public_key_type", "compressed") == "compressed" else
            public_key.raw_uncompressed()
        )

        return ensure_string(check_encode(
            (address_prefix + public_key_hash), alphabet=kwargs.get(
                "alphabet", cls.alphabet
            )
        ))

    @classmethod
    def decode(cls, address: str, **kwargs: Any) -> str:
        """
        Decode an address string into a public key hash using a specified address prefix and alphabet.

        :param address: The address string to decode.
        :type address: str
        :param kwargs: Additional keyword arguments.
            - address_prefix: Address prefix for the public key (optional).
            - alphabet: Custom alphabet for decoding (optional).
        :type kwargs: Any

        :return: The decoded public key hash as a string.
        :rtype: str
        """

        address_prefix: bytes = integer_to_bytes(
            kwargs.get("address_prefix", cls.address_prefix)
        )
        address_decode: bytes = check_decode(
            address, alphabet=kwargs.get(
                "alphabet", cls.alphabet
            )
        )

        expected_length: int = 20 + len(address_prefix)
        if len(address_decode) != expected_length:
            raise AddressError(f"Invalid length (expected: {expected_length}, got: {len(address_decode)})")

        prefix_got: bytes = address_decode[:len(address_prefix)]
        if address_prefix != prefix_got:
            raise AddressError(f"Invalid prefix (expected: {address_prefix}, got: {prefix_got})")

        return bytes_to_string(address_decode[len(address_prefix):])
"#

/-- What `bip38/p2pkh_address.py` defines. -/
def P2pkhAddressDefs (H : Host) : Scope :=
  [(v!"P2PKHAddress", .cls none
    [(v!"address_prefix", .attr (P2PKHAddress_address_prefix H)),
     (v!"alphabet", .attr (P2PKHAddress_alphabet H)),
     (v!"encode", .fn (P2PKHAddress_encode H)),
     (v!"decode", .fn (P2PKHAddress_decode H))])]

/-- The functions of the class in `bip38/p2pkh_address.py`. -/
def P2pkhAddressOrder (H : Host) : List (Nat × Option (Cls × Fn)) :=
  [(v!"encode", none),
   (v!"decode", none)]

/-- The modules that `bip38/p2pkh_address.py` imports from. -/
def P2pkhAddressWorld (H : Host) : List (Nat × Scope) :=
  [(v!"bip38.libs.base58", Base58Defs H),
   (v!"bip38.secp256k1", PointDefs H ++ PublicKeyDefs H ++ PrivateKeyDefs H),
   (v!"bip38.cryptocurrencies", [(v!"ICryptocurrency", .value (eConst (.coin .base))), (v!"Bitcoin", .value (eConst (.coin (.coin Coins.Bitcoin))))]),
   (v!"bip38.crypto", CryptoDefs H),
   (v!"bip38.exceptions", ExceptionsDefs H),
   (v!"bip38.utils", UtilsDefs H)]

def p2pkhAddressChars : List Char := chars% P2pkhAddressText
def p2pkhAddressTokens : List Tok := eval% ((lex (p2pkhAddressChars.map Char.toNat)).getD [])
def p2pkhAddressTree : List PS := eval% (((ps depth (.stmts []) p2pkhAddressTokens).map (·.1)).getD [])

theorem p2pkhAddress_chars : P2pkhAddressText = String.ofList p2pkhAddressChars := by by_kernel
theorem p2pkhAddress_lex : lex (p2pkhAddressChars.map Char.toNat) = some p2pkhAddressTokens := by by_kernel
theorem p2pkhAddress_ps : ps depth (.stmts []) p2pkhAddressTokens = some (p2pkhAddressTree, []) := by by_kernel

theorem p2pkhAddress_parse : parseModule (P2pkhAddressText.toList.map Char.toNat) = some p2pkhAddressTree :=
  parseModule_eq p2pkhAddress_chars p2pkhAddress_lex p2pkhAddress_ps

theorem p2pkhAddress_imports (H : Host) : imports [v!"bip38"] (P2pkhAddressWorld H) p2pkhAddressTree = some ((imports [v!"bip38"] (P2pkhAddressWorld H) p2pkhAddressTree).getD []) := by by_kernel

theorem p2pkhAddress_definitions (H : Host) :
    definitions { lib := library H, scope := P2pkhAddressDefs H ++ (imports [v!"bip38"] (P2pkhAddressWorld H) p2pkhAddressTree).getD [], methods := (fun n => allMethods (PointOrder H) ++ allMethods (PublicKeyOrder H) ++ allMethods (PrivateKeyOrder H) ++ methodsBefore n (P2pkhAddressOrder H)) 0, str := Error_str H }
      (fun n => allMethods (PointOrder H) ++ allMethods (PublicKeyOrder H) ++ allMethods (PrivateKeyOrder H) ++ methodsBefore n (P2pkhAddressOrder H)) p2pkhAddressTree = some (P2pkhAddressDefs H) := by by_kernel

theorem p2pkhAddress_defines (H : Host) :
    Defines H (Error_str H) [v!"bip38"] (P2pkhAddressWorld H) (fun n => allMethods (PointOrder H) ++ allMethods (PublicKeyOrder H) ++ allMethods (PrivateKeyOrder H) ++ methodsBefore n (P2pkhAddressOrder H)) P2pkhAddressText (P2pkhAddressDefs H) :=
  ⟨p2pkhAddressTree, _, p2pkhAddress_parse, p2pkhAddress_imports H, p2pkhAddress_definitions H⟩

end Bip38.Py
