import Verif.SrcX.Builtin
/-!
# `bip38/const.py` (generated by `tools/gen_src.py` and `tools/gen_sim.py`, do not edit)
-/
set_option linter.unusedVariables false
set_option linter.style.longLine false
namespace Bip38.SrcX

open Bip38.Src

/-- `bip38/const.py:12` `NO_EC_MULTIPLIED_PRIVATE_KEY_PREFIX` -/
def const_NO_EC_MULTIPLIED_PRIVATE_KEY_PREFIX (H : Host) : Run Val :=
  (eConst (.int 0x0142)) Env.empty

/-- `bip38/const.py:13` `EC_MULTIPLIED_PRIVATE_KEY_PREFIX` -/
def const_EC_MULTIPLIED_PRIVATE_KEY_PREFIX (H : Host) : Run Val :=
  (eConst (.int 0x0143)) Env.empty

/-- `bip38/const.py:15` `NO_EC_MULTIPLIED_WIF_FLAG` -/
def const_NO_EC_MULTIPLIED_WIF_FLAG (H : Host) : Run Val :=
  (eConst (.int 0xc0)) Env.empty

/-- `bip38/const.py:16` `NO_EC_MULTIPLIED_WIF_COMPRESSED_FLAG` -/
def const_NO_EC_MULTIPLIED_WIF_COMPRESSED_FLAG (H : Host) : Run Val :=
  (eConst (.int 0xe0)) Env.empty

/-- `bip38/const.py:18` `MAGIC_LOT_AND_SEQUENCE` -/
def const_MAGIC_LOT_AND_SEQUENCE (H : Host) : Run Val :=
  (eConst (.int 0x2ce9b3e1ff39e251)) Env.empty

/-- `bip38/const.py:19` `MAGIC_NO_LOT_AND_SEQUENCE` -/
def const_MAGIC_NO_LOT_AND_SEQUENCE (H : Host) : Run Val :=
  (eConst (.int 0x2ce9b3e1ff39e253)) Env.empty

/-- `bip38/const.py:21` `MAGIC_LOT_AND_SEQUENCE_UNCOMPRESSED_FLAG` -/
def const_MAGIC_LOT_AND_SEQUENCE_UNCOMPRESSED_FLAG (H : Host) : Run Val :=
  (eConst (.int 0x04)) Env.empty

/-- `bip38/const.py:22` `MAGIC_LOT_AND_SEQUENCE_COMPRESSED_FLAG` -/
def const_MAGIC_LOT_AND_SEQUENCE_COMPRESSED_FLAG (H : Host) : Run Val :=
  (eConst (.int 0x24)) Env.empty

/-- `bip38/const.py:23` `MAGIC_NO_LOT_AND_SEQUENCE_UNCOMPRESSED_FLAG` -/
def const_MAGIC_NO_LOT_AND_SEQUENCE_UNCOMPRESSED_FLAG (H : Host) : Run Val :=
  (eConst (.int 0x00)) Env.empty

/-- `bip38/const.py:24` `MAGIC_NO_LOT_AND_SEQUENCE_COMPRESSED_FLAG` -/
def const_MAGIC_NO_LOT_AND_SEQUENCE_COMPRESSED_FLAG (H : Host) : Run Val :=
  (eConst (.int 0x20)) Env.empty

/-- `bip38/const.py:26` `CONFIRMATION_CODE_PREFIX` -/
def const_CONFIRMATION_CODE_PREFIX (H : Host) : Run Val :=
  (eConst (.int 0x643bf6a89a)) Env.empty

/-- `bip38/const.py:28` `N` -/
def const_N (H : Host) : Run Val :=
  (eConst (.int 0xFFFFFFFFFFFFFFFFFFFFFFFFFFFFFFFEBAAEDCE6AF48A03BBFD25E8CD0364141)) Env.empty

/-- `bip38/const.py:30` `COORDINATE_POINT_LENGTH` -/
def const_COORDINATE_POINT_LENGTH (H : Host) : Run Val :=
  (eConst (.int 32)) Env.empty

/-- `bip38/const.py:32` `PRIVATE_KEY_LENGTH` -/
def const_PRIVATE_KEY_LENGTH (H : Host) : Run Val :=
  (eConst (.int 32)) Env.empty

/-- `bip38/const.py:33` `UNCOMPRESSED_PRIVATE_KEY_PREFIX` -/
def const_UNCOMPRESSED_PRIVATE_KEY_PREFIX (H : Host) : Run Val :=
  (eConst (.int 0x00)) Env.empty

/-- `bip38/const.py:34` `COMPRESSED_PRIVATE_KEY_PREFIX` -/
def const_COMPRESSED_PRIVATE_KEY_PREFIX (H : Host) : Run Val :=
  (eConst (.int 0x01)) Env.empty

/-- `bip38/const.py:36` `COMPRESSED_PUBLIC_KEY_LENGTH` -/
def const_COMPRESSED_PUBLIC_KEY_LENGTH (H : Host) : Run Val :=
  (eConst (.int 33)) Env.empty

/-- `bip38/const.py:37` `UNCOMPRESSED_PUBLIC_KEY_LENGTH` -/
def const_UNCOMPRESSED_PUBLIC_KEY_LENGTH (H : Host) : Run Val :=
  (eConst (.int 65)) Env.empty

/-- `bip38/const.py:38` `EVEN_COMPRESSED_PUBLIC_KEY_PREFIX` -/
def const_EVEN_COMPRESSED_PUBLIC_KEY_PREFIX (H : Host) : Run Val :=
  (eConst (.int 0x02)) Env.empty

/-- `bip38/const.py:39` `ODD_COMPRESSED_PUBLIC_KEY_PREFIX` -/
def const_ODD_COMPRESSED_PUBLIC_KEY_PREFIX (H : Host) : Run Val :=
  (eConst (.int 0x03)) Env.empty

/-- `bip38/const.py:40` `UNCOMPRESSED_PUBLIC_KEY_PREFIX` -/
def const_UNCOMPRESSED_PUBLIC_KEY_PREFIX (H : Host) : Run Val :=
  (eConst (.int 0x04)) Env.empty

/-- `bip38/const.py:42` `CHECKSUM_BYTE_LENGTH` -/
def const_CHECKSUM_BYTE_LENGTH (H : Host) : Run Val :=
  (eConst (.int 4)) Env.empty

/-- `bip38/const.py:44` `WIF_TYPES` -/
def const_WIF_TYPES (H : Host) : Run Val :=
  (eList [(eConst (.str "wif".toList)), (eConst (.str "wif-compressed".toList))]) Env.empty

/-- `bip38/const.py:46` `PUBLIC_KEY_TYPES` -/
def const_PUBLIC_KEY_TYPES (H : Host) : Run Val :=
  (eList [(eConst (.str "uncompressed".toList)), (eConst (.str "compressed".toList))]) Env.empty

/-- `bip38/const.py:48` `FLAGS` -/
def const_FLAGS (H : Host) : Run Val :=
  (eDict [("compression", (eList [(eGlobal (const_MAGIC_NO_LOT_AND_SEQUENCE_COMPRESSED_FLAG H)), (eGlobal (const_MAGIC_LOT_AND_SEQUENCE_COMPRESSED_FLAG H)), (eConst (.int 0x28)), (eConst (.int 0x2c)), (eConst (.int 0x30)), (eConst (.int 0x34)), (eConst (.int 0x38)), (eConst (.int 0x3c)), (eConst (.int 0xe0)), (eConst (.int 0xe8)), (eConst (.int 0xf0)), (eConst (.int 0xf8))])), ("lot_and_sequence", (eList [(eGlobal (const_MAGIC_LOT_AND_SEQUENCE_UNCOMPRESSED_FLAG H)), (eGlobal (const_MAGIC_LOT_AND_SEQUENCE_COMPRESSED_FLAG H)), (eConst (.int 0x0c)), (eConst (.int 0x14)), (eConst (.int 0x1c)), (eConst (.int 0x2c)), (eConst (.int 0x34)), (eConst (.int 0x3c))])), ("non_ec", (eList [(eGlobal (const_NO_EC_MULTIPLIED_WIF_FLAG H)), (eGlobal (const_NO_EC_MULTIPLIED_WIF_COMPRESSED_FLAG H)), (eConst (.int 0xc8)), (eConst (.int 0xd0)), (eConst (.int 0xd8)), (eConst (.int 0xe8)), (eConst (.int 0xf0)), (eConst (.int 0xf8))])), ("ec", (eList [(eConst (.int 0x00)), (eConst (.int 0x04)), (eConst (.int 0x08)), (eConst (.int 0x0c)), (eConst (.int 0x10)), (eConst (.int 0x14)), (eConst (.int 0x18)), (eConst (.int 0x1c)), (eConst (.int 0x20)), (eConst (.int 0x24)), (eConst (.int 0x28)), (eConst (.int 0x2c)), (eConst (.int 0x30)), (eConst (.int 0x34)), (eConst (.int 0x38)), (eConst (.int 0x3c))])), ("illegal", (eList [(eConst (.int 0xc4)), (eConst (.int 0xcc)), (eConst (.int 0xd4)), (eConst (.int 0xdc)), (eConst (.int 0xe4)), (eConst (.int 0xec)), (eConst (.int 0xf4)), (eConst (.int 0xfc))]))]) Env.empty

end Bip38.SrcX
