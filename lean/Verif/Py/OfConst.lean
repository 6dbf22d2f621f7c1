import Verif.Py.Text
import Verif.Src.Exceptions
import Verif.Src.Const

/-!
# The text of `bip38/const.py` (generated by `tools/gen_text.py`, do not edit)
-/
set_option maxRecDepth 100000
set_option linter.unusedVariables false
set_option linter.style.longLine false
namespace Bip38.Py
open Bip38.Src

/-- `bip38/const.py`, lines 1-64, word for word -/
def ConstText : String := r#"#!/usr/bin/env python3

# Copyright © 2023-2024, Meheret Tesfaye Batu <meherett.batu@gmail.com>
# Distributed under the MIT software license, see the accompanying
# file COPYING or https://opensource.org/license/mit

from typing import (
    List, Dict
)

# non-EC-multiplied & EC-multiplied private key prefixes
NO_EC_MULTIPLIED_PRIVATE_KEY_PREFIX: int = 0x0142
EC_MULTIPLIED_PRIVATE_KEY_PREFIX: int = 0x0143
# non-EC-multiplied Wallet Import Format (WIF) flags
NO_EC_MULTIPLIED_WIF_FLAG: int = 0xc0
NO_EC_MULTIPLIED_WIF_COMPRESSED_FLAG: int = 0xe0
# Magic bytes for lot and sequence and non lot and sequence
MAGIC_LOT_AND_SEQUENCE: int = 0x2ce9b3e1ff39e251
MAGIC_NO_LOT_AND_SEQUENCE: int = 0x2ce9b3e1ff39e253
# Magic uncompressed and compressed flags
MAGIC_LOT_AND_SEQUENCE_UNCOMPRESSED_FLAG: int = 0x04
MAGIC_LOT_AND_SEQUENCE_COMPRESSED_FLAG: int = 0x24
MAGIC_NO_LOT_AND_SEQUENCE_UNCOMPRESSED_FLAG: int = 0x00
MAGIC_NO_LOT_AND_SEQUENCE_COMPRESSED_FLAG: int = 0x20
# Confirmation code prefix
CONFIRMATION_CODE_PREFIX: int = 0x643bf6a89a
# Number of points in the field
N: int = 0xFFFFFFFFFFFFFFFFFFFFFFFFFFFFFFFEBAAEDCE6AF48A03BBFD25E8CD0364141
# Coordinate point length
COORDINATE_POINT_LENGTH: int = 32
# Private key length & prefixes
PRIVATE_KEY_LENGTH: int = 32
UNCOMPRESSED_PRIVATE_KEY_PREFIX: int = 0x00
COMPRESSED_PRIVATE_KEY_PREFIX: int = 0x01
# Public key length & prefixes
COMPRESSED_PUBLIC_KEY_LENGTH: int = 33
UNCOMPRESSED_PUBLIC_KEY_LENGTH: int = 65
EVEN_COMPRESSED_PUBLIC_KEY_PREFIX: int = 0x02
ODD_COMPRESSED_PUBLIC_KEY_PREFIX: int = 0x03
UNCOMPRESSED_PUBLIC_KEY_PREFIX: int = 0x04
# Checksum byte length
CHECKSUM_BYTE_LENGTH: int = 4
# Wallet Import Format (WIF) types
WIF_TYPES = ["wif", "wif-compressed"]
# Public Key types
PUBLIC_KEY_TYPES = ["uncompressed", "compressed"]
# List of compression, lot_and_sequence, non_ec, ec, & illegal flags
FLAGS: Dict[str, List[int]] = {
    "compression": [
        MAGIC_NO_LOT_AND_SEQUENCE_COMPRESSED_FLAG, MAGIC_LOT_AND_SEQUENCE_COMPRESSED_FLAG, 0x28, 0x2c, 0x30, 0x34, 0x38, 0x3c, 0xe0, 0xe8, 0xf0, 0xf8
    ],
    "lot_and_sequence": [
        MAGIC_LOT_AND_SEQUENCE_UNCOMPRESSED_FLAG, MAGIC_LOT_AND_SEQUENCE_COMPRESSED_FLAG, 0x0c, 0x14, 0x1c, 0x2c, 0x34, 0x3c
    ],
    "non_ec": [
        NO_EC_MULTIPLIED_WIF_FLAG, NO_EC_MULTIPLIED_WIF_COMPRESSED_FLAG, 0xc8, 0xd0, 0xd8, 0xe8, 0xf0, 0xf8
    ],
    "ec": [
        0x00, 0x04, 0x08, 0x0c, 0x10, 0x14, 0x18, 0x1c, 0x20, 0x24, 0x28, 0x2c, 0x30, 0x34, 0x38, 0x3c
    ],
    "illegal": [
        0xc4, 0xcc, 0xd4, 0xdc, 0xe4, 0xec, 0xf4, 0xfc
    ]
}
"#

/-- What `bip38/const.py` defines. -/
def ConstDefs (H : Host) : Scope :=
  [(v!"NO_EC_MULTIPLIED_PRIVATE_KEY_PREFIX", .value (eGlobal (const_NO_EC_MULTIPLIED_PRIVATE_KEY_PREFIX H))),
   (v!"EC_MULTIPLIED_PRIVATE_KEY_PREFIX", .value (eGlobal (const_EC_MULTIPLIED_PRIVATE_KEY_PREFIX H))),
   (v!"NO_EC_MULTIPLIED_WIF_FLAG", .value (eGlobal (const_NO_EC_MULTIPLIED_WIF_FLAG H))),
   (v!"NO_EC_MULTIPLIED_WIF_COMPRESSED_FLAG", .value (eGlobal (const_NO_EC_MULTIPLIED_WIF_COMPRESSED_FLAG H))),
   (v!"MAGIC_LOT_AND_SEQUENCE", .value (eGlobal (const_MAGIC_LOT_AND_SEQUENCE H))),
   (v!"MAGIC_NO_LOT_AND_SEQUENCE", .value (eGlobal (const_MAGIC_NO_LOT_AND_SEQUENCE H))),
   (v!"MAGIC_LOT_AND_SEQUENCE_UNCOMPRESSED_FLAG", .value (eGlobal (const_MAGIC_LOT_AND_SEQUENCE_UNCOMPRESSED_FLAG H))),
   (v!"MAGIC_LOT_AND_SEQUENCE_COMPRESSED_FLAG", .value (eGlobal (const_MAGIC_LOT_AND_SEQUENCE_COMPRESSED_FLAG H))),
   (v!"MAGIC_NO_LOT_AND_SEQUENCE_UNCOMPRESSED_FLAG", .value (eGlobal (const_MAGIC_NO_LOT_AND_SEQUENCE_UNCOMPRESSED_FLAG H))),
   (v!"MAGIC_NO_LOT_AND_SEQUENCE_COMPRESSED_FLAG", .value (eGlobal (const_MAGIC_NO_LOT_AND_SEQUENCE_COMPRESSED_FLAG H))),
   (v!"CONFIRMATION_CODE_PREFIX", .value (eGlobal (const_CONFIRMATION_CODE_PREFIX H))),
   (v!"N", .value (eGlobal (const_N H))),
   (v!"COORDINATE_POINT_LENGTH", .value (eGlobal (const_COORDINATE_POINT_LENGTH H))),
   (v!"PRIVATE_KEY_LENGTH", .value (eGlobal (const_PRIVATE_KEY_LENGTH H))),
   (v!"UNCOMPRESSED_PRIVATE_KEY_PREFIX", .value (eGlobal (const_UNCOMPRESSED_PRIVATE_KEY_PREFIX H))),
   (v!"COMPRESSED_PRIVATE_KEY_PREFIX", .value (eGlobal (const_COMPRESSED_PRIVATE_KEY_PREFIX H))),
   (v!"COMPRESSED_PUBLIC_KEY_LENGTH", .value (eGlobal (const_COMPRESSED_PUBLIC_KEY_LENGTH H))),
   (v!"UNCOMPRESSED_PUBLIC_KEY_LENGTH", .value (eGlobal (const_UNCOMPRESSED_PUBLIC_KEY_LENGTH H))),
   (v!"EVEN_COMPRESSED_PUBLIC_KEY_PREFIX", .value (eGlobal (const_EVEN_COMPRESSED_PUBLIC_KEY_PREFIX H))),
   (v!"ODD_COMPRESSED_PUBLIC_KEY_PREFIX", .value (eGlobal (const_ODD_COMPRESSED_PUBLIC_KEY_PREFIX H))),
   (v!"UNCOMPRESSED_PUBLIC_KEY_PREFIX", .value (eGlobal (const_UNCOMPRESSED_PUBLIC_KEY_PREFIX H))),
   (v!"CHECKSUM_BYTE_LENGTH", .value (eGlobal (const_CHECKSUM_BYTE_LENGTH H))),
   (v!"WIF_TYPES", .value (eGlobal (const_WIF_TYPES H))),
   (v!"PUBLIC_KEY_TYPES", .value (eGlobal (const_PUBLIC_KEY_TYPES H))),
   (v!"FLAGS", .value (eGlobal (const_FLAGS H)))]

/-- The modules that `bip38/const.py` imports from. -/
def ConstWorld (H : Host) : List (Nat × Scope) :=
  []

def constChars : List Char := chars% ConstText
def constTokens : List Tok := eval% ((lex (constChars.map Char.toNat)).getD [])
def constTree : List PS := eval% (((ps depth (.stmts []) constTokens).map (·.1)).getD [])

theorem const_chars : ConstText = String.ofList constChars := by by_kernel
theorem const_lex : lex (constChars.map Char.toNat) = some constTokens := by by_kernel
theorem const_ps : ps depth (.stmts []) constTokens = some (constTree, []) := by by_kernel

theorem const_parse : parseModule (ConstText.toList.map Char.toNat) = some constTree :=
  parseModule_eq const_chars const_lex const_ps

theorem const_imports (H : Host) : imports [v!"bip38"] (ConstWorld H) constTree = some ((imports [v!"bip38"] (ConstWorld H) constTree).getD []) := by by_kernel

theorem const_definitions (H : Host) :
    definitions { lib := library H, scope := ConstDefs H ++ (imports [v!"bip38"] (ConstWorld H) constTree).getD [], methods := (fun _ => []) 0, str := Error_str H }
      (fun _ => []) constTree = some (ConstDefs H) := by by_kernel

theorem const_defines (H : Host) :
    Defines H (Error_str H) [v!"bip38"] (ConstWorld H) (fun _ => []) ConstText (ConstDefs H) :=
  ⟨constTree, _, const_parse, const_imports H, const_definitions H⟩

end Bip38.Py
