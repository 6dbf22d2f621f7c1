import Verif.Py.Text
import Verif.Py.Tops
import Verif.Model.ImportText
import Verif.Py.OfExceptions
import Verif.Py.OfConst
import Verif.Py.OfUtils
import Verif.Py.OfBase58
import Verif.Py.OfRipemd160
import Verif.Py.OfCrypto
import Verif.Py.OfPoint
import Verif.Py.OfPublicKey
import Verif.Py.OfPrivateKey
import Verif.Py.OfWif
import Verif.Py.OfP2pkhAddress
import Verif.Py.OfBip38
import Verif.Py.OfCryptocurrencies

/-!
# The files of the package (generated by `tools/gen_text.py`, do not edit)
-/
set_option maxRecDepth 100000
set_option linter.style.longLine false
namespace Bip38.Py

/-- `bip38/__init__.py`, word for word -/
def PackageText : String := r#"#!/usr/bin/env python3

# Copyright © 2023-2024, Meheret Tesfaye Batu <meherett.batu@gmail.com>
# Distributed under the MIT software license, see the accompanying
# file COPYING or https://opensource.org/license/mit

from typing import List

from .info import (
    __name__,
    __version__,
    __license__,
    __author__,
    __email__,
    __documentation__,
    __description__,
    __url__,
    __tracker__,
    __keywords__
)
from .bip38 import BIP38

__all__: List[str] = [
    "__name__",
    "__version__",
    "__license__",
    "__author__",
    "__email__",
    "__documentation__",
    "__description__",
    "__url__",
    "__tracker__",
    "__keywords__",
    "BIP38"
]
"#

def packageChars : List Char := chars% PackageText
def packageTokens : List Tok := eval% ((lex (packageChars.map Char.toNat)).getD [])
def packageTree : List PS := eval% (((ps depth (.stmts []) packageTokens).map (·.1)).getD [])

theorem package_chars : PackageText = String.ofList packageChars := by by_kernel
theorem package_lex : lex (packageChars.map Char.toNat) = some packageTokens := by by_kernel
theorem package_ps : ps depth (.stmts []) packageTokens = some (packageTree, []) := by by_kernel
theorem package_parse : parseModule (PackageText.toList.map Char.toNat) = some packageTree :=
  parseModule_eq package_chars package_lex package_ps

theorem package_tops : tops packageTree = some Import.text_bip38.body := by by_kernel

theorem bip38_tops : tops bip38Tree = some Import.text_bip38_bip38.body := by by_kernel

theorem const_tops : tops constTree = some Import.text_bip38_const.body := by by_kernel

theorem crypto_tops : tops cryptoTree = some Import.text_bip38_crypto.body := by by_kernel

theorem cryptocurrencies_tops : tops cryptocurrenciesTree = some Import.text_bip38_cryptocurrencies.body := by by_kernel

theorem exceptions_tops : tops exceptionsTree = some Import.text_bip38_exceptions.body := by by_kernel

/-- `bip38/info.py`, word for word -/
def InfoText : String := r#"#!/usr/bin/env python3

# Copyright © 2023-2024, Meheret Tesfaye Batu <meherett.batu@gmail.com>
# Distributed under the MIT software license, see the accompanying
# file COPYING or https://opensource.org/license/mit

from typing import List

__name__: str = "bip38"
__version__: str = "v1.3.1"
__license__: str = "MIT"
__author__: str = "Meheret Tesfaye Batu"
__email__: str = "meherett.batu@gmail.com"
__documentation__: str = "https://bip38.readthedocs.com"
__description__: str = "A Python library for implementation of Bitcoin Improvement Proposal - 0038 / BIP38 protocol."
__source__: str = "https://github.com/talonlab/python-bip38"
__url__: str = __source__
__tracker__: str = f"{__url__}/issues"
__keywords__: List[str] = [
    "bip38", "bitcoin", "private-key", "hdwallet", "encrypt", "decrypt", "passphrase", "wif", "bip-0038"
]
__websites__: List[str] = [
    "https://talonlab.org",
    "https://talonlab.gitbook.io/bip38",
    __documentation__
]"#

def infoChars : List Char := chars% InfoText
def infoTokens : List Tok := eval% ((lex (infoChars.map Char.toNat)).getD [])
def infoTree : List PS := eval% (((ps depth (.stmts []) infoTokens).map (·.1)).getD [])

theorem info_chars : InfoText = String.ofList infoChars := by by_kernel
theorem info_lex : lex (infoChars.map Char.toNat) = some infoTokens := by by_kernel
theorem info_ps : ps depth (.stmts []) infoTokens = some (infoTree, []) := by by_kernel
theorem info_parse : parseModule (InfoText.toList.map Char.toNat) = some infoTree :=
  parseModule_eq info_chars info_lex info_ps

theorem info_tops : tops infoTree = some Import.text_bip38_info.body := by by_kernel

theorem p2pkhAddress_tops : tops p2pkhAddressTree = some Import.text_bip38_p2pkh_address.body := by by_kernel

theorem utils_tops : tops utilsTree = some Import.text_bip38_utils.body := by by_kernel

theorem wif_tops : tops wifTree = some Import.text_bip38_wif.body := by by_kernel

/-- `bip38/libs/__init__.py`, word for word -/
def LibsText : String := r#"#!/usr/bin/env python3
"#

def libsChars : List Char := chars% LibsText
def libsTokens : List Tok := eval% ((lex (libsChars.map Char.toNat)).getD [])
def libsTree : List PS := eval% (((ps depth (.stmts []) libsTokens).map (·.1)).getD [])

theorem libs_chars : LibsText = String.ofList libsChars := by by_kernel
theorem libs_lex : lex (libsChars.map Char.toNat) = some libsTokens := by by_kernel
theorem libs_ps : ps depth (.stmts []) libsTokens = some (libsTree, []) := by by_kernel
theorem libs_parse : parseModule (LibsText.toList.map Char.toNat) = some libsTree :=
  parseModule_eq libs_chars libs_lex libs_ps

theorem libs_tops : tops libsTree = some Import.text_bip38_libs.body := by by_kernel

theorem base58_tops : tops base58Tree = some Import.text_bip38_libs_base58.body := by by_kernel

theorem ripemd160_tops : tops ripemd160Tree = some Import.text_bip38_libs_ripemd160.body := by by_kernel

/-- `bip38/secp256k1/__init__.py`, word for word -/
def Secp256k1Text : String := r#"#!/usr/bin/env python3

# Copyright © 2023-2024, Meheret Tesfaye Batu <meherett.batu@gmail.com>
# Distributed under the MIT software license, see the accompanying
# file COPYING or https://opensource.org/license/mit

from ecdsa.ecdsa import generator_secp256k1

from .point import Point
from .public_key import PublicKey
from .private_key import PrivateKey


class Secp256k1:  # Elliptic Curve Cryptography (ECC)

    ORDER: str = generator_secp256k1.order()
    GENERATOR = Point(generator_secp256k1)
    POINT = Point
    PUBLIC_KEY = PublicKey
    PRIVATE_KEY = PrivateKey
"#

def secp256k1Chars : List Char := chars% Secp256k1Text
def secp256k1Tokens : List Tok := eval% ((lex (secp256k1Chars.map Char.toNat)).getD [])
def secp256k1Tree : List PS := eval% (((ps depth (.stmts []) secp256k1Tokens).map (·.1)).getD [])

theorem secp256k1_chars : Secp256k1Text = String.ofList secp256k1Chars := by by_kernel
theorem secp256k1_lex : lex (secp256k1Chars.map Char.toNat) = some secp256k1Tokens := by by_kernel
theorem secp256k1_ps : ps depth (.stmts []) secp256k1Tokens = some (secp256k1Tree, []) := by by_kernel
theorem secp256k1_parse : parseModule (Secp256k1Text.toList.map Char.toNat) = some secp256k1Tree :=
  parseModule_eq secp256k1_chars secp256k1_lex secp256k1_ps

theorem secp256k1_tops : tops secp256k1Tree = some Import.text_bip38_secp256k1.body := by by_kernel

theorem point_tops : tops pointTree = some Import.text_bip38_secp256k1_point.body := by by_kernel

theorem privateKey_tops : tops privateKeyTree = some Import.text_bip38_secp256k1_private_key.body := by by_kernel

theorem publicKey_tops : tops publicKeyTree = some Import.text_bip38_secp256k1_public_key.body := by by_kernel

/-- The files of the package, with their paths without `.py`. -/
def packageFiles : List (List String × String) :=
  [(["bip38", "__init__"], PackageText),
   (["bip38", "bip38"], Bip38Text),
   (["bip38", "const"], ConstText),
   (["bip38", "crypto"], CryptoText),
   (["bip38", "cryptocurrencies"], CryptocurrenciesText),
   (["bip38", "exceptions"], ExceptionsText),
   (["bip38", "info"], InfoText),
   (["bip38", "p2pkh_address"], P2pkhAddressText),
   (["bip38", "utils"], UtilsText),
   (["bip38", "wif"], WifText),
   (["bip38", "libs", "__init__"], LibsText),
   (["bip38", "libs", "base58"], Base58Text),
   (["bip38", "libs", "ripemd160"], Ripemd160Text),
   (["bip38", "secp256k1", "__init__"], Secp256k1Text),
   (["bip38", "secp256k1", "point"], PointText),
   (["bip38", "secp256k1", "private_key"], PrivateKeyText),
   (["bip38", "secp256k1", "public_key"], PublicKeyText)]

theorem package_files : Files packageFiles Import.package :=
  ⟨by decide +kernel, by decide +kernel, ⟨_, package_parse, package_tops⟩,
   by decide +kernel, by decide +kernel, ⟨_, bip38_parse, bip38_tops⟩,
   by decide +kernel, by decide +kernel, ⟨_, const_parse, const_tops⟩,
   by decide +kernel, by decide +kernel, ⟨_, crypto_parse, crypto_tops⟩,
   by decide +kernel, by decide +kernel, ⟨_, cryptocurrencies_parse, cryptocurrencies_tops⟩,
   by decide +kernel, by decide +kernel, ⟨_, exceptions_parse, exceptions_tops⟩,
   by decide +kernel, by decide +kernel, ⟨_, info_parse, info_tops⟩,
   by decide +kernel, by decide +kernel, ⟨_, p2pkhAddress_parse, p2pkhAddress_tops⟩,
   by decide +kernel, by decide +kernel, ⟨_, utils_parse, utils_tops⟩,
   by decide +kernel, by decide +kernel, ⟨_, wif_parse, wif_tops⟩,
   by decide +kernel, by decide +kernel, ⟨_, libs_parse, libs_tops⟩,
   by decide +kernel, by decide +kernel, ⟨_, base58_parse, base58_tops⟩,
   by decide +kernel, by decide +kernel, ⟨_, ripemd160_parse, ripemd160_tops⟩,
   by decide +kernel, by decide +kernel, ⟨_, secp256k1_parse, secp256k1_tops⟩,
   by decide +kernel, by decide +kernel, ⟨_, point_parse, point_tops⟩,
   by decide +kernel, by decide +kernel, ⟨_, privateKey_parse, privateKey_tops⟩,
   by decide +kernel, by decide +kernel, ⟨_, publicKey_parse, publicKey_tops⟩, trivial⟩

theorem package_frees : Import.reads.drop 0 = (frees packageTree).map (fun r => (moduleOf ["bip38", "__init__"], r)) ++ Import.reads.drop 0 := by by_kernel

theorem bip38_frees : Import.reads.drop 0 = (frees bip38Tree).map (fun r => (moduleOf ["bip38", "bip38"], r)) ++ Import.reads.drop 6 := by by_kernel

theorem const_frees : Import.reads.drop 6 = (frees constTree).map (fun r => (moduleOf ["bip38", "const"], r)) ++ Import.reads.drop 6 := by by_kernel

theorem crypto_frees : Import.reads.drop 6 = (frees cryptoTree).map (fun r => (moduleOf ["bip38", "crypto"], r)) ++ Import.reads.drop 11 := by by_kernel

theorem cryptocurrencies_frees : Import.reads.drop 11 = (frees cryptocurrenciesTree).map (fun r => (moduleOf ["bip38", "cryptocurrencies"], r)) ++ Import.reads.drop 11 := by by_kernel

theorem exceptions_frees : Import.reads.drop 11 = (frees exceptionsTree).map (fun r => (moduleOf ["bip38", "exceptions"], r)) ++ Import.reads.drop 13 := by by_kernel

theorem info_frees : Import.reads.drop 13 = (frees infoTree).map (fun r => (moduleOf ["bip38", "info"], r)) ++ Import.reads.drop 13 := by by_kernel

theorem p2pkhAddress_frees : Import.reads.drop 13 = (frees p2pkhAddressTree).map (fun r => (moduleOf ["bip38", "p2pkh_address"], r)) ++ Import.reads.drop 15 := by by_kernel

theorem utils_frees : Import.reads.drop 15 = (frees utilsTree).map (fun r => (moduleOf ["bip38", "utils"], r)) ++ Import.reads.drop 20 := by by_kernel

theorem wif_frees : Import.reads.drop 20 = (frees wifTree).map (fun r => (moduleOf ["bip38", "wif"], r)) ++ Import.reads.drop 26 := by by_kernel

theorem libs_frees : Import.reads.drop 26 = (frees libsTree).map (fun r => (moduleOf ["bip38", "libs", "__init__"], r)) ++ Import.reads.drop 26 := by by_kernel

theorem base58_frees : Import.reads.drop 26 = (frees base58Tree).map (fun r => (moduleOf ["bip38", "libs", "base58"], r)) ++ Import.reads.drop 32 := by by_kernel

theorem ripemd160_frees : Import.reads.drop 32 = (frees ripemd160Tree).map (fun r => (moduleOf ["bip38", "libs", "ripemd160"], r)) ++ Import.reads.drop 37 := by by_kernel

theorem secp256k1_frees : Import.reads.drop 37 = (frees secp256k1Tree).map (fun r => (moduleOf ["bip38", "secp256k1", "__init__"], r)) ++ Import.reads.drop 37 := by by_kernel

theorem point_frees : Import.reads.drop 37 = (frees pointTree).map (fun r => (moduleOf ["bip38", "secp256k1", "point"], r)) ++ Import.reads.drop 50 := by by_kernel

theorem privateKey_frees : Import.reads.drop 50 = (frees privateKeyTree).map (fun r => (moduleOf ["bip38", "secp256k1", "private_key"], r)) ++ Import.reads.drop 56 := by by_kernel

theorem publicKey_frees : Import.reads.drop 56 = (frees publicKeyTree).map (fun r => (moduleOf ["bip38", "secp256k1", "public_key"], r)) ++ Import.reads.drop 66 := by by_kernel

theorem files_frees : Frees packageFiles Import.reads :=
  ⟨_, ⟨_, package_parse, package_frees⟩,
   ⟨_, ⟨_, bip38_parse, bip38_frees⟩,
   ⟨_, ⟨_, const_parse, const_frees⟩,
   ⟨_, ⟨_, crypto_parse, crypto_frees⟩,
   ⟨_, ⟨_, cryptocurrencies_parse, cryptocurrencies_frees⟩,
   ⟨_, ⟨_, exceptions_parse, exceptions_frees⟩,
   ⟨_, ⟨_, info_parse, info_frees⟩,
   ⟨_, ⟨_, p2pkhAddress_parse, p2pkhAddress_frees⟩,
   ⟨_, ⟨_, utils_parse, utils_frees⟩,
   ⟨_, ⟨_, wif_parse, wif_frees⟩,
   ⟨_, ⟨_, libs_parse, libs_frees⟩,
   ⟨_, ⟨_, base58_parse, base58_frees⟩,
   ⟨_, ⟨_, ripemd160_parse, ripemd160_frees⟩,
   ⟨_, ⟨_, secp256k1_parse, secp256k1_frees⟩,
   ⟨_, ⟨_, point_parse, point_frees⟩,
   ⟨_, ⟨_, privateKey_parse, privateKey_frees⟩,
   ⟨_, ⟨_, publicKey_parse, publicKey_frees⟩, rfl⟩⟩⟩⟩⟩⟩⟩⟩⟩⟩⟩⟩⟩⟩⟩⟩⟩

end Bip38.Py
