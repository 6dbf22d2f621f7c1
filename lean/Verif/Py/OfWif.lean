import Verif.Py.Text
import Verif.Src.Exceptions
import Verif.Src.Wif
import Verif.Py.OfBase58
import Verif.Py.OfConst
import Verif.Py.OfCrypto
import Verif.Py.OfExceptions
import Verif.Py.OfUtils
import Verif.Py.OfPoint
import Verif.Py.OfPublicKey
import Verif.Py.OfPrivateKey

/-!
# The text of `bip38/wif.py` (generated by `tools/gen_text.py`, do not edit)
-/
set_option maxRecDepth 100000
set_option linter.unusedVariables false
set_option linter.style.longLine false
namespace Bip38.Py
open Bip38.Src

/-- `bip38/wif.py`, lines 1-190, word for word -/
def WifText : String := r#"#!/usr/bin/env python3

# Copyright © 2023-2024, Meheret Tesfaye Batu <meherett.batu@gmail.com>
# Distributed under the MIT software license, see the accompanying
# file COPYING or https://opensource.org/license/mit

from typing import (
    Union, Tuple, Type
)

from .libs.base58 import (
    encode, decode
)
from .cryptocurrencies import (
    ICryptocurrency, Bitcoin
)
from .const import (
    COMPRESSED_PRIVATE_KEY_PREFIX, WIF_TYPES
)
from .crypto import get_checksum
from .exceptions import (
    WIFError, Secp256k1Error
)
from .utils import (
    get_bytes, integer_to_bytes, bytes_to_string
)


def encode_wif(
    private_key: Union[str, bytes], wif_prefix: int = Bitcoin.NETWORKS["mainnet"]["wif_prefix"]
) -> Tuple[str, str]:
    """
    Encode a private key to Wallet Import Format (WIF).

    :param private_key: The private key to encode, as a 32-byte string or bytes.
    :type private_key: Union[str, bytes]
    :param wif_prefix: The prefix to use for the WIF format (default is Bitcoin mainnet prefix).
    :type wif_prefix: int

    :returns: A tuple containing the WIF and WIF-compressed formats.
    :rtype: Tuple[str, str]
    """

    if len(get_bytes(private_key)) != 32:
        raise Secp256k1Error("Invalid private key length", expected=64, got=len(private_key))

    wif_payload: bytes = (
        integer_to_bytes(wif_prefix) + get_bytes(private_key)
    )
    wif_compressed_payload: bytes = (
        integer_to_bytes(wif_prefix) + get_bytes(private_key) + integer_to_bytes(COMPRESSED_PRIVATE_KEY_PREFIX)
    )
    return (
        encode(wif_payload + get_checksum(wif_payload)),
        encode(wif_compressed_payload + get_checksum(wif_compressed_payload))
    )


def decode_wif(
    wif: str, wif_prefix: int = Bitcoin.NETWORKS["mainnet"]["wif_prefix"]
) -> Tuple[bytes, str, bytes]:
    """
    Decode a Wallet Import Format (WIF) string to a private key.

    :param wif: The WIF string to decode.
    :type wif: str
    :param wif_prefix: The prefix to use for the WIF format (default is Bitcoin mainnet prefix).
    :type wif_prefix: int

    :returns: A tuple containing the private key, the WIF type ('wif' or 'wif-compressed'), and the checksum.
    :rtype: Tuple[bytes, str, bytes]
    """

    raw: bytes = decode(wif)
    if not raw.startswith(integer_to_bytes(wif_prefix)):
        raise WIFError(f"Invalid Wallet Import Format (WIF)")

    prefix_length: int = len(integer_to_bytes(wif_prefix))
    prefix_got: bytes = raw[:prefix_length]
    if integer_to_bytes(wif_prefix) != prefix_got:
        raise WIFError("Invalid WIF prefix", expected=prefix_length, got=prefix_got)

    raw_without_prefix: bytes = raw[prefix_length:]
    checksum: bytes = raw_without_prefix[-1 * 4:]
    private_key: bytes = raw_without_prefix[:-1 * 4]
    wif_type: str = "wif"

    if len(private_key) not in [33, 32]:
        raise WIFError(f"Invalid Wallet Import Format (WIF)")
    elif len(private_key) == 33:
        private_key = private_key[:-len(integer_to_bytes(COMPRESSED_PRIVATE_KEY_PREFIX))]
        wif_type = "wif-compressed"

    return private_key, wif_type, checksum


def private_key_to_wif(
    private_key: Union[str, bytes],
    wif_type: str = "wif-compressed",
    cryptocurrency: Type[ICryptocurrency] = Bitcoin,
    network: str = "mainnet"
) -> str:
    """
    Convert a private key to Wallet Import Format (WIF).

    :param private_key: The private key to convert, as a 32-byte string or bytes.
    :type private_key: Union[str, bytes]
    :param wif_type: The WIF type, either 'wif' or 'wif-compressed' (default is 'wif-compressed').
    :type wif_type: str
    :param cryptocurrency: The cryptocurrency class (default is Bitcoin).
    :type cryptocurrency: Type[ICryptocurrency]
    :param network: The network type (default is 'mainnet').
    :type network: str

    :returns: The private key in WIF format.
    :rtype: str
    """

    if wif_type not in WIF_TYPES:
        raise WIFError("Wrong WIF type", expected=WIF_TYPES, got=wif_type)
    wif, wif_compressed = encode_wif(
        private_key=private_key, wif_prefix=cryptocurrency.NETWORKS[network]["wif_prefix"]
    )
    return wif if wif_type == "wif" else wif_compressed


def wif_to_private_key(
    wif: str, cryptocurrency: Type[ICryptocurrency] = Bitcoin, network: str = "mainnet"
) -> str:
    """
    Convert a Wallet Import Format (WIF) string to a private key.

    :param wif: The WIF string to decode.
    :type wif: str
    :param cryptocurrency: The cryptocurrency class (default is Bitcoin).
    :type cryptocurrency: Type[ICryptocurrency]
    :param network: The network type (default is 'mainnet').
    :type network: str

    :returns: The private key as a string.
    :rtype: str
    """

    return bytes_to_string(decode_wif(
        wif=wif, wif_prefix=cryptocurrency.NETWORKS[network]["wif_prefix"]
    )[0])


def get_wif_type(
    wif: str, cryptocurrency: Type[ICryptocurrency] = Bitcoin, network: str = "mainnet"
) -> str:
    """
    Get the type of Wallet Import Format (WIF) string ('wif' or 'wif-compressed').

    :param wif: The WIF string to inspect.
    :type wif: str
    :param cryptocurrency: The cryptocurrency class (default is Bitcoin).
    :type cryptocurrency: Type[ICryptocurrency]
    :param network: The network type (default is 'mainnet').
    :type network: str

    :returns: The WIF type ('wif' or 'wif-compressed').
    :rtype: str
    """

    return decode_wif(
        wif=wif, wif_prefix=cryptocurrency.NETWORKS[network]["wif_prefix"]
    )[1]


def get_wif_checksum(
    wif: str, cryptocurrency: Type[ICryptocurrency] = Bitcoin, network: str = "mainnet"
) -> str:
    """
    Get the checksum of a Wallet Import Format (WIF) string.

    :param wif: The WIF string to inspect.
    :type wif: str
    :param cryptocurrency: The cryptocurrency class (default is Bitcoin).
    :type cryptocurrency: Type[ICryptocurrency]
    :param network: The network type (default is 'mainnet').
    :type network: str

    :returns: The checksum as a string.
    :rtype: str
    """

    return bytes_to_string(decode_wif(
        wif=wif, wif_prefix=cryptocurrency.NETWORKS[network]["wif_prefix"]
    )[2])
"#

/-- What `bip38/wif.py` defines. -/
def WifDefs (H : Host) : Scope :=
  [(v!"encode_wif", .fn (wif_encode_wif H)),
   (v!"decode_wif", .fn (wif_decode_wif H)),
   (v!"private_key_to_wif", .fn (wif_private_key_to_wif H)),
   (v!"wif_to_private_key", .fn (wif_wif_to_private_key H)),
   (v!"get_wif_type", .fn (wif_get_wif_type H)),
   (v!"get_wif_checksum", .fn (wif_get_wif_checksum H))]

/-- The modules that `bip38/wif.py` imports from. -/
def WifWorld (H : Host) : List (Nat × Scope) :=
  [(v!"bip38.libs.base58", Base58Defs H),
   (v!"bip38.cryptocurrencies", [(v!"ICryptocurrency", .value (eConst (.coin .base))), (v!"Bitcoin", .value (eConst (.coin (.coin Coins.Bitcoin))))]),
   (v!"bip38.const", ConstDefs H),
   (v!"bip38.crypto", CryptoDefs H),
   (v!"bip38.exceptions", ExceptionsDefs H),
   (v!"bip38.utils", UtilsDefs H)]

def wifChars : List Char := chars% WifText
def wifTokens : List Tok := eval% ((lex (wifChars.map Char.toNat)).getD [])
def wifTree : List PS := eval% (((ps depth (.stmts []) wifTokens).map (·.1)).getD [])

theorem wif_chars : WifText = String.ofList wifChars := by by_kernel
theorem wif_lex : lex (wifChars.map Char.toNat) = some wifTokens := by by_kernel
theorem wif_ps : ps depth (.stmts []) wifTokens = some (wifTree, []) := by by_kernel

theorem wif_parse : parseModule (WifText.toList.map Char.toNat) = some wifTree :=
  parseModule_eq wif_chars wif_lex wif_ps

theorem wif_imports (H : Host) : imports [v!"bip38"] (WifWorld H) wifTree = some ((imports [v!"bip38"] (WifWorld H) wifTree).getD []) := by by_kernel

theorem wif_definitions (H : Host) :
    definitions { lib := library H, scope := WifDefs H ++ (imports [v!"bip38"] (WifWorld H) wifTree).getD [], methods := (fun _ => allMethods (PointOrder H) ++ allMethods (PublicKeyOrder H) ++ allMethods (PrivateKeyOrder H)) 0, str := Error_str H }
      (fun _ => allMethods (PointOrder H) ++ allMethods (PublicKeyOrder H) ++ allMethods (PrivateKeyOrder H)) wifTree = some (WifDefs H) := by by_kernel

theorem wif_defines (H : Host) :
    Defines H (Error_str H) [v!"bip38"] (WifWorld H) (fun _ => allMethods (PointOrder H) ++ allMethods (PublicKeyOrder H) ++ allMethods (PrivateKeyOrder H)) WifText (WifDefs H) :=
  ⟨wifTree, _, wif_parse, wif_imports H, wif_definitions H⟩

end Bip38.Py
