import Verif.Model.Utils
/-!
# Model of `bip38/const.py`
-/
namespace Bip38

def NO_EC_MULTIPLIED_PRIVATE_KEY_PREFIX : Nat := 0x0142          -- bip38/const.py:12
def EC_MULTIPLIED_PRIVATE_KEY_PREFIX : Nat := 0x0143             -- bip38/const.py:13
def NO_EC_MULTIPLIED_WIF_FLAG : Nat := 0xc0                      -- bip38/const.py:15
def NO_EC_MULTIPLIED_WIF_COMPRESSED_FLAG : Nat := 0xe0           -- bip38/const.py:16
def MAGIC_LOT_AND_SEQUENCE : Nat := 0x2ce9b3e1ff39e251           -- bip38/const.py:18
def MAGIC_NO_LOT_AND_SEQUENCE : Nat := 0x2ce9b3e1ff39e253        -- bip38/const.py:19
def MAGIC_LOT_AND_SEQUENCE_UNCOMPRESSED_FLAG : Nat := 0x04       -- bip38/const.py:21
def MAGIC_LOT_AND_SEQUENCE_COMPRESSED_FLAG : Nat := 0x24         -- bip38/const.py:22
def MAGIC_NO_LOT_AND_SEQUENCE_UNCOMPRESSED_FLAG : Nat := 0x00    -- bip38/const.py:23
def MAGIC_NO_LOT_AND_SEQUENCE_COMPRESSED_FLAG : Nat := 0x20      -- bip38/const.py:24
def CONFIRMATION_CODE_PREFIX : Nat := 0x643bf6a89a               -- bip38/const.py:26
/-- `bip38/const.py:28`: number of points of the curve group. -/
def N : Nat := 0xFFFFFFFFFFFFFFFFFFFFFFFFFFFFFFFEBAAEDCE6AF48A03BBFD25E8CD0364141
def COORDINATE_POINT_LENGTH : Nat := 32                          -- bip38/const.py:30
def PRIVATE_KEY_LENGTH : Nat := 32                               -- bip38/const.py:32
def COMPRESSED_PRIVATE_KEY_PREFIX : Nat := 0x01                  -- bip38/const.py:34
def COMPRESSED_PUBLIC_KEY_LENGTH : Nat := 33                     -- bip38/const.py:36
def UNCOMPRESSED_PUBLIC_KEY_LENGTH : Nat := 65                   -- bip38/const.py:37
def CHECKSUM_BYTE_LENGTH : Nat := 4                              -- bip38/const.py:42
def WIF_TYPES : List String := ["wif", "wif-compressed"]         -- bip38/const.py:44
def PUBLIC_KEY_TYPES : List String := ["uncompressed", "compressed"]  -- bip38/const.py:46

/-- `FLAGS["compression"]`, `bip38/const.py:49-51`. -/
def FLAGS_compression : List Nat :=
  [MAGIC_NO_LOT_AND_SEQUENCE_COMPRESSED_FLAG, MAGIC_LOT_AND_SEQUENCE_COMPRESSED_FLAG,
   0x28, 0x2c, 0x30, 0x34, 0x38, 0x3c, 0xe0, 0xe8, 0xf0, 0xf8]
/-- `FLAGS["lot_and_sequence"]`, `bip38/const.py:52-54`. -/
def FLAGS_lot_and_sequence : List Nat :=
  [MAGIC_LOT_AND_SEQUENCE_UNCOMPRESSED_FLAG, MAGIC_LOT_AND_SEQUENCE_COMPRESSED_FLAG,
   0x0c, 0x14, 0x1c, 0x2c, 0x34, 0x3c]
/-- `FLAGS["non_ec"]`, `bip38/const.py:55-57`. -/
def FLAGS_non_ec : List Nat :=
  [NO_EC_MULTIPLIED_WIF_FLAG, NO_EC_MULTIPLIED_WIF_COMPRESSED_FLAG, 0xc8, 0xd0, 0xd8, 0xe8, 0xf0, 0xf8]
/-- `FLAGS["ec"]`, `bip38/const.py:58-60`. -/
def FLAGS_ec : List Nat :=
  [0x00, 0x04, 0x08, 0x0c, 0x10, 0x14, 0x18, 0x1c, 0x20, 0x24, 0x28, 0x2c, 0x30, 0x34, 0x38, 0x3c]
/-- `FLAGS["illegal"]`, `bip38/const.py:61-63`. -/
def FLAGS_illegal : List Nat := [0xc4, 0xcc, 0xd4, 0xdc, 0xe4, 0xec, 0xf4, 0xfc]

end Bip38
