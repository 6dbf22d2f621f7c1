import Verif.SrcX.Sim
import Verif.SrcX.Bip38
import Verif.Src.Bip38
/-!
# Every function of the repository, with faults, against the same function without (generated by `tools/gen_sim.py`, do not edit)

The bounds (`calls`) are upper bounds for the external calls of one call of the function, for arguments of any kind.
-/
set_option linter.unusedVariables false
set_option linter.style.longLine false
namespace Bip38.SrcX

open Bip38.Src

variable {K : Ctx}


theorem sim_pyLen : SimF (fun _ => 0) K (pyLen) (Src.pyLen) := sim_pure1 _
macro_rules | `(tactic| sim_known) => `(tactic| exact sim_pyLen)

theorem sim_pyIsinstance : SimF (fun _ => 0) K (pyIsinstance) (Src.pyIsinstance) := sim_pure1 _
macro_rules | `(tactic| sim_known) => `(tactic| exact sim_pyIsinstance)

theorem sim_pyIssubclass : SimF (fun _ => 0) K (pyIssubclass) (Src.pyIssubclass) := sim_pure1 _
macro_rules | `(tactic| sim_known) => `(tactic| exact sim_pyIssubclass)

theorem sim_pyType : SimF (fun _ => 0) K (pyType) (Src.pyType) := sim_pure1 _
macro_rules | `(tactic| sim_known) => `(tactic| exact sim_pyType)

theorem sim_pyInt (H : Host) : SimF (fun _ => 0) K (pyInt H) (Src.pyInt H) := sim_pure1 _
macro_rules | `(tactic| sim_known) => `(tactic| exact sim_pyInt _)

theorem sim_pyList : SimF (fun _ => 0) K (pyList) (Src.pyList) := sim_pure1 _
macro_rules | `(tactic| sim_known) => `(tactic| exact sim_pyList)

theorem sim_pyRange : SimF (fun _ => 0) K (pyRange) (Src.pyRange) := sim_pure1 _
macro_rules | `(tactic| sim_known) => `(tactic| exact sim_pyRange)

theorem sim_pyEnumerate : SimF (fun _ => 0) K (pyEnumerate) (Src.pyEnumerate) := sim_pure1 _
macro_rules | `(tactic| sim_known) => `(tactic| exact sim_pyEnumerate)

theorem sim_pyDivmod : SimF (fun _ => 0) K (pyDivmod) (Src.pyDivmod) := sim_pure1 _
macro_rules | `(tactic| sim_known) => `(tactic| exact sim_pyDivmod)

theorem sim_pyBytes : SimF (fun _ => 0) K (pyBytes) (Src.pyBytes) := sim_pure1 _
macro_rules | `(tactic| sim_known) => `(tactic| exact sim_pyBytes)

theorem sim_pyBytearray : SimF (fun _ => 0) K (pyBytearray) (Src.pyBytearray) := sim_pure1 _
macro_rules | `(tactic| sim_known) => `(tactic| exact sim_pyBytearray)

theorem sim_pyFromhex : SimF (fun _ => 0) K (pyFromhex) (Src.pyFromhex) := sim_pure1 _
macro_rules | `(tactic| sim_known) => `(tactic| exact sim_pyFromhex)

theorem sim_pyFromBytes : SimF (fun _ => 0) K (pyFromBytes) (Src.pyFromBytes) := sim_pure1 _
macro_rules | `(tactic| sim_known) => `(tactic| exact sim_pyFromBytes)

theorem sim_pyException (c : ExcClass) : SimF (fun _ => 0) K (pyException c) (Src.pyException c) := sim_pure1 _
macro_rules | `(tactic| sim_known) => `(tactic| exact sim_pyException _)

theorem sim_xUnpack : SimF (fun _ => 0) K (xUnpack) (Src.xUnpack) := sim_pure1 _
macro_rules | `(tactic| sim_known) => `(tactic| exact sim_xUnpack)

theorem sim_xPack : SimF (fun _ => 0) K (xPack) (Src.xPack) := sim_pure1 _
macro_rules | `(tactic| sim_known) => `(tactic| exact sim_xPack)

theorem sim_noMethod : SimM (fun _ => 0) K (noMethod) (Src.noMethod) := sim_pureMethod _
macro_rules | `(tactic| sim_known) => `(tactic| exact sim_noMethod)

theorem sim_mHex : SimM (fun _ => 0) K (mHex) (Src.mHex) := sim_pureMethod _
macro_rules | `(tactic| sim_known) => `(tactic| exact sim_mHex)

theorem sim_mBitLength : SimM (fun _ => 0) K (mBitLength) (Src.mBitLength) := sim_pureMethod _
macro_rules | `(tactic| sim_known) => `(tactic| exact sim_mBitLength)

theorem sim_mDecode : SimM (fun _ => 0) K (mDecode) (Src.mDecode) := sim_pureMethod _
macro_rules | `(tactic| sim_known) => `(tactic| exact sim_mDecode)

theorem sim_mEncode : SimM (fun _ => 0) K (mEncode) (Src.mEncode) := sim_pureMethod _
macro_rules | `(tactic| sim_known) => `(tactic| exact sim_mEncode)

theorem sim_mFind : SimM (fun _ => 0) K (mFind) (Src.mFind) := sim_pureMethod _
macro_rules | `(tactic| sim_known) => `(tactic| exact sim_mFind)

theorem sim_mLstrip : SimM (fun _ => 0) K (mLstrip) (Src.mLstrip) := sim_pureMethod _
macro_rules | `(tactic| sim_known) => `(tactic| exact sim_mLstrip)

theorem sim_mStartswith : SimM (fun _ => 0) K (mStartswith) (Src.mStartswith) := sim_pureMethod _
macro_rules | `(tactic| sim_known) => `(tactic| exact sim_mStartswith)

theorem sim_mKeys : SimM (fun _ => 0) K (mKeys) (Src.mKeys) := sim_pureMethod _
macro_rules | `(tactic| sim_known) => `(tactic| exact sim_mKeys)

theorem sim_mJoin : SimM (fun _ => 0) K (mJoin) (Src.mJoin) := sim_pureMethod _
macro_rules | `(tactic| sim_known) => `(tactic| exact sim_mJoin)

theorem sim_xSha256 (H : Host) : SimF (one .sha256) K (xSha256 H) (Src.xSha256 H) := sim_external _ rfl _
macro_rules | `(tactic| sim_known) => `(tactic| exact sim_xSha256 _)

theorem sim_xAlgorithms (H : Host) : Sim (fun _ => 0) K (xAlgorithms H) (Src.xAlgorithms H) := sim_lift _
macro_rules | `(tactic| sim_known) => `(tactic| exact sim_xAlgorithms _)

theorem sim_mDigest : SimM (one .digest) K (mDigest) (Src.mDigest) := sim_externalMethod _ rfl _ _
macro_rules | `(tactic| sim_known) => `(tactic| exact sim_mDigest)

theorem sim_xAes : SimF (one .aes) K (xAes) (Src.xAes) := sim_external _ rfl _
macro_rules | `(tactic| sim_known) => `(tactic| exact sim_xAes)

theorem sim_mEncrypt (H : Host) : SimM (one .aesEncrypt) K (mEncrypt H) (Src.mEncrypt H) := sim_externalMethod _ rfl _ _
macro_rules | `(tactic| sim_known) => `(tactic| exact sim_mEncrypt _)

theorem sim_mDecrypt (H : Host) : SimM (one .aesDecrypt) K (mDecrypt H) (Src.mDecrypt H) := sim_externalMethod _ rfl _ _
macro_rules | `(tactic| sim_known) => `(tactic| exact sim_mDecrypt _)

theorem sim_xPointFromBytes (H : Host) : SimF (one .ecdsa) K (xPointFromBytes H) (Src.xPointFromBytes H) := sim_external _ rfl _
macro_rules | `(tactic| sim_known) => `(tactic| exact sim_xPointFromBytes _)

theorem sim_xPoint : SimF (one .ecdsa) K (xPoint) (Src.xPoint) := sim_external _ rfl _
macro_rules | `(tactic| sim_known) => `(tactic| exact sim_xPoint)

theorem sim_xFromAffine : SimF (one .ecdsa) K (xFromAffine) (Src.xFromAffine) := sim_external _ rfl _
macro_rules | `(tactic| sim_known) => `(tactic| exact sim_xFromAffine)

theorem sim_mX : SimM (one .ecdsa) K (mX) (Src.mX) := sim_externalMethod _ rfl _ _
macro_rules | `(tactic| sim_known) => `(tactic| exact sim_mX)

theorem sim_mY : SimM (one .ecdsa) K (mY) (Src.mY) := sim_externalMethod _ rfl _ _
macro_rules | `(tactic| sim_known) => `(tactic| exact sim_mY)

theorem sim_mToBytes (H : Host) : SimM (one .ecdsa) K (mToBytes H) (Src.mToBytes H) := sim_externalMethod _ rfl _ _
macro_rules | `(tactic| sim_known) => `(tactic| exact sim_mToBytes _)

theorem sim_xVerifyingFromString : SimF (one .ecdsa) K (xVerifyingFromString) (Src.xVerifyingFromString) := sim_external _ rfl _
macro_rules | `(tactic| sim_known) => `(tactic| exact sim_xVerifyingFromString)

theorem sim_xVerifyingFromPoint : SimF (one .ecdsa) K (xVerifyingFromPoint) (Src.xVerifyingFromPoint) := sim_external _ rfl _
macro_rules | `(tactic| sim_known) => `(tactic| exact sim_xVerifyingFromPoint)

theorem sim_xSigningFromString : SimF (one .ecdsa) K (xSigningFromString) (Src.xSigningFromString) := sim_external _ rfl _
macro_rules | `(tactic| sim_known) => `(tactic| exact sim_xSigningFromString)

theorem sim_mToString : SimM (one .ecdsa) K (mToString) (Src.mToString) := sim_externalMethod _ rfl _ _
macro_rules | `(tactic| sim_known) => `(tactic| exact sim_mToString)

theorem sim_mGetVerifyingKey : SimM (one .ecdsa) K (mGetVerifyingKey) (Src.mGetVerifyingKey) := sim_externalMethod _ rfl _ _
macro_rules | `(tactic| sim_known) => `(tactic| exact sim_mGetVerifyingKey)

variable (H : Host)

theorem sim_Error_init (c : ExcClass) : SimF (calls []) K (Error_init H c) (Src.Error_init H c) := by
  delta SrcX.Error_init  Src.Error_init  SrcX.Error_init_L17  Src.Error_init_L17  SrcX.Error_init_L24  Src.Error_init_L24  SrcX.Error_init_L26  Src.Error_init_L26  SrcX.Error_init_L23  Src.Error_init_L23  SrcX.Error_init_L22  Src.Error_init_L22  SrcX.Error_init_L28  Src.Error_init_L28  SrcX.Error_init_L21  Src.Error_init_L21
  sim_function
macro_rules | `(tactic| sim_known) => `(tactic| exact sim_Error_init _ _)

theorem sim_Error_str : SimF (calls []) K (Error_str H) (Src.Error_str H) := by
  delta SrcX.Error_str  Src.Error_str  SrcX.Error_str_L32  Src.Error_str_L32  SrcX.Error_str_L34  Src.Error_str_L34  SrcX.Error_str_L36  Src.Error_str_L36  SrcX.Error_str_L38  Src.Error_str_L38  SrcX.Error_str_L35  Src.Error_str_L35  SrcX.Error_str_L33  Src.Error_str_L33  SrcX.Error_str_L31  Src.Error_str_L31
  sim_function
macro_rules | `(tactic| sim_known) => `(tactic| exact sim_Error_str _)

theorem sim_const_NO_EC_MULTIPLIED_PRIVATE_KEY_PREFIX : Sim (fun _ => 0) K (const_NO_EC_MULTIPLIED_PRIVATE_KEY_PREFIX H) (Src.const_NO_EC_MULTIPLIED_PRIVATE_KEY_PREFIX H) := by
  delta SrcX.const_NO_EC_MULTIPLIED_PRIVATE_KEY_PREFIX  Src.const_NO_EC_MULTIPLIED_PRIVATE_KEY_PREFIX
  sim_value
macro_rules | `(tactic| sim_known) => `(tactic| exact sim_const_NO_EC_MULTIPLIED_PRIVATE_KEY_PREFIX _)

theorem sim_const_EC_MULTIPLIED_PRIVATE_KEY_PREFIX : Sim (fun _ => 0) K (const_EC_MULTIPLIED_PRIVATE_KEY_PREFIX H) (Src.const_EC_MULTIPLIED_PRIVATE_KEY_PREFIX H) := by
  delta SrcX.const_EC_MULTIPLIED_PRIVATE_KEY_PREFIX  Src.const_EC_MULTIPLIED_PRIVATE_KEY_PREFIX
  sim_value
macro_rules | `(tactic| sim_known) => `(tactic| exact sim_const_EC_MULTIPLIED_PRIVATE_KEY_PREFIX _)

theorem sim_const_NO_EC_MULTIPLIED_WIF_FLAG : Sim (fun _ => 0) K (const_NO_EC_MULTIPLIED_WIF_FLAG H) (Src.const_NO_EC_MULTIPLIED_WIF_FLAG H) := by
  delta SrcX.const_NO_EC_MULTIPLIED_WIF_FLAG  Src.const_NO_EC_MULTIPLIED_WIF_FLAG
  sim_value
macro_rules | `(tactic| sim_known) => `(tactic| exact sim_const_NO_EC_MULTIPLIED_WIF_FLAG _)

theorem sim_const_NO_EC_MULTIPLIED_WIF_COMPRESSED_FLAG : Sim (fun _ => 0) K (const_NO_EC_MULTIPLIED_WIF_COMPRESSED_FLAG H) (Src.const_NO_EC_MULTIPLIED_WIF_COMPRESSED_FLAG H) := by
  delta SrcX.const_NO_EC_MULTIPLIED_WIF_COMPRESSED_FLAG  Src.const_NO_EC_MULTIPLIED_WIF_COMPRESSED_FLAG
  sim_value
macro_rules | `(tactic| sim_known) => `(tactic| exact sim_const_NO_EC_MULTIPLIED_WIF_COMPRESSED_FLAG _)

theorem sim_const_MAGIC_LOT_AND_SEQUENCE : Sim (fun _ => 0) K (const_MAGIC_LOT_AND_SEQUENCE H) (Src.const_MAGIC_LOT_AND_SEQUENCE H) := by
  delta SrcX.const_MAGIC_LOT_AND_SEQUENCE  Src.const_MAGIC_LOT_AND_SEQUENCE
  sim_value
macro_rules | `(tactic| sim_known) => `(tactic| exact sim_const_MAGIC_LOT_AND_SEQUENCE _)

theorem sim_const_MAGIC_NO_LOT_AND_SEQUENCE : Sim (fun _ => 0) K (const_MAGIC_NO_LOT_AND_SEQUENCE H) (Src.const_MAGIC_NO_LOT_AND_SEQUENCE H) := by
  delta SrcX.const_MAGIC_NO_LOT_AND_SEQUENCE  Src.const_MAGIC_NO_LOT_AND_SEQUENCE
  sim_value
macro_rules | `(tactic| sim_known) => `(tactic| exact sim_const_MAGIC_NO_LOT_AND_SEQUENCE _)

theorem sim_const_MAGIC_LOT_AND_SEQUENCE_UNCOMPRESSED_FLAG : Sim (fun _ => 0) K (const_MAGIC_LOT_AND_SEQUENCE_UNCOMPRESSED_FLAG H) (Src.const_MAGIC_LOT_AND_SEQUENCE_UNCOMPRESSED_FLAG H) := by
  delta SrcX.const_MAGIC_LOT_AND_SEQUENCE_UNCOMPRESSED_FLAG  Src.const_MAGIC_LOT_AND_SEQUENCE_UNCOMPRESSED_FLAG
  sim_value
macro_rules | `(tactic| sim_known) => `(tactic| exact sim_const_MAGIC_LOT_AND_SEQUENCE_UNCOMPRESSED_FLAG _)

theorem sim_const_MAGIC_LOT_AND_SEQUENCE_COMPRESSED_FLAG : Sim (fun _ => 0) K (const_MAGIC_LOT_AND_SEQUENCE_COMPRESSED_FLAG H) (Src.const_MAGIC_LOT_AND_SEQUENCE_COMPRESSED_FLAG H) := by
  delta SrcX.const_MAGIC_LOT_AND_SEQUENCE_COMPRESSED_FLAG  Src.const_MAGIC_LOT_AND_SEQUENCE_COMPRESSED_FLAG
  sim_value
macro_rules | `(tactic| sim_known) => `(tactic| exact sim_const_MAGIC_LOT_AND_SEQUENCE_COMPRESSED_FLAG _)

theorem sim_const_MAGIC_NO_LOT_AND_SEQUENCE_UNCOMPRESSED_FLAG : Sim (fun _ => 0) K (const_MAGIC_NO_LOT_AND_SEQUENCE_UNCOMPRESSED_FLAG H) (Src.const_MAGIC_NO_LOT_AND_SEQUENCE_UNCOMPRESSED_FLAG H) := by
  delta SrcX.const_MAGIC_NO_LOT_AND_SEQUENCE_UNCOMPRESSED_FLAG  Src.const_MAGIC_NO_LOT_AND_SEQUENCE_UNCOMPRESSED_FLAG
  sim_value
macro_rules | `(tactic| sim_known) => `(tactic| exact sim_const_MAGIC_NO_LOT_AND_SEQUENCE_UNCOMPRESSED_FLAG _)

theorem sim_const_MAGIC_NO_LOT_AND_SEQUENCE_COMPRESSED_FLAG : Sim (fun _ => 0) K (const_MAGIC_NO_LOT_AND_SEQUENCE_COMPRESSED_FLAG H) (Src.const_MAGIC_NO_LOT_AND_SEQUENCE_COMPRESSED_FLAG H) := by
  delta SrcX.const_MAGIC_NO_LOT_AND_SEQUENCE_COMPRESSED_FLAG  Src.const_MAGIC_NO_LOT_AND_SEQUENCE_COMPRESSED_FLAG
  sim_value
macro_rules | `(tactic| sim_known) => `(tactic| exact sim_const_MAGIC_NO_LOT_AND_SEQUENCE_COMPRESSED_FLAG _)

theorem sim_const_CONFIRMATION_CODE_PREFIX : Sim (fun _ => 0) K (const_CONFIRMATION_CODE_PREFIX H) (Src.const_CONFIRMATION_CODE_PREFIX H) := by
  delta SrcX.const_CONFIRMATION_CODE_PREFIX  Src.const_CONFIRMATION_CODE_PREFIX
  sim_value
macro_rules | `(tactic| sim_known) => `(tactic| exact sim_const_CONFIRMATION_CODE_PREFIX _)

theorem sim_const_N : Sim (fun _ => 0) K (const_N H) (Src.const_N H) := by
  delta SrcX.const_N  Src.const_N
  sim_value
macro_rules | `(tactic| sim_known) => `(tactic| exact sim_const_N _)

theorem sim_const_COORDINATE_POINT_LENGTH : Sim (fun _ => 0) K (const_COORDINATE_POINT_LENGTH H) (Src.const_COORDINATE_POINT_LENGTH H) := by
  delta SrcX.const_COORDINATE_POINT_LENGTH  Src.const_COORDINATE_POINT_LENGTH
  sim_value
macro_rules | `(tactic| sim_known) => `(tactic| exact sim_const_COORDINATE_POINT_LENGTH _)

theorem sim_const_PRIVATE_KEY_LENGTH : Sim (fun _ => 0) K (const_PRIVATE_KEY_LENGTH H) (Src.const_PRIVATE_KEY_LENGTH H) := by
  delta SrcX.const_PRIVATE_KEY_LENGTH  Src.const_PRIVATE_KEY_LENGTH
  sim_value
macro_rules | `(tactic| sim_known) => `(tactic| exact sim_const_PRIVATE_KEY_LENGTH _)

theorem sim_const_UNCOMPRESSED_PRIVATE_KEY_PREFIX : Sim (fun _ => 0) K (const_UNCOMPRESSED_PRIVATE_KEY_PREFIX H) (Src.const_UNCOMPRESSED_PRIVATE_KEY_PREFIX H) := by
  delta SrcX.const_UNCOMPRESSED_PRIVATE_KEY_PREFIX  Src.const_UNCOMPRESSED_PRIVATE_KEY_PREFIX
  sim_value
macro_rules | `(tactic| sim_known) => `(tactic| exact sim_const_UNCOMPRESSED_PRIVATE_KEY_PREFIX _)

theorem sim_const_COMPRESSED_PRIVATE_KEY_PREFIX : Sim (fun _ => 0) K (const_COMPRESSED_PRIVATE_KEY_PREFIX H) (Src.const_COMPRESSED_PRIVATE_KEY_PREFIX H) := by
  delta SrcX.const_COMPRESSED_PRIVATE_KEY_PREFIX  Src.const_COMPRESSED_PRIVATE_KEY_PREFIX
  sim_value
macro_rules | `(tactic| sim_known) => `(tactic| exact sim_const_COMPRESSED_PRIVATE_KEY_PREFIX _)

theorem sim_const_COMPRESSED_PUBLIC_KEY_LENGTH : Sim (fun _ => 0) K (const_COMPRESSED_PUBLIC_KEY_LENGTH H) (Src.const_COMPRESSED_PUBLIC_KEY_LENGTH H) := by
  delta SrcX.const_COMPRESSED_PUBLIC_KEY_LENGTH  Src.const_COMPRESSED_PUBLIC_KEY_LENGTH
  sim_value
macro_rules | `(tactic| sim_known) => `(tactic| exact sim_const_COMPRESSED_PUBLIC_KEY_LENGTH _)

theorem sim_const_UNCOMPRESSED_PUBLIC_KEY_LENGTH : Sim (fun _ => 0) K (const_UNCOMPRESSED_PUBLIC_KEY_LENGTH H) (Src.const_UNCOMPRESSED_PUBLIC_KEY_LENGTH H) := by
  delta SrcX.const_UNCOMPRESSED_PUBLIC_KEY_LENGTH  Src.const_UNCOMPRESSED_PUBLIC_KEY_LENGTH
  sim_value
macro_rules | `(tactic| sim_known) => `(tactic| exact sim_const_UNCOMPRESSED_PUBLIC_KEY_LENGTH _)

theorem sim_const_EVEN_COMPRESSED_PUBLIC_KEY_PREFIX : Sim (fun _ => 0) K (const_EVEN_COMPRESSED_PUBLIC_KEY_PREFIX H) (Src.const_EVEN_COMPRESSED_PUBLIC_KEY_PREFIX H) := by
  delta SrcX.const_EVEN_COMPRESSED_PUBLIC_KEY_PREFIX  Src.const_EVEN_COMPRESSED_PUBLIC_KEY_PREFIX
  sim_value
macro_rules | `(tactic| sim_known) => `(tactic| exact sim_const_EVEN_COMPRESSED_PUBLIC_KEY_PREFIX _)

theorem sim_const_ODD_COMPRESSED_PUBLIC_KEY_PREFIX : Sim (fun _ => 0) K (const_ODD_COMPRESSED_PUBLIC_KEY_PREFIX H) (Src.const_ODD_COMPRESSED_PUBLIC_KEY_PREFIX H) := by
  delta SrcX.const_ODD_COMPRESSED_PUBLIC_KEY_PREFIX  Src.const_ODD_COMPRESSED_PUBLIC_KEY_PREFIX
  sim_value
macro_rules | `(tactic| sim_known) => `(tactic| exact sim_const_ODD_COMPRESSED_PUBLIC_KEY_PREFIX _)

theorem sim_const_UNCOMPRESSED_PUBLIC_KEY_PREFIX : Sim (fun _ => 0) K (const_UNCOMPRESSED_PUBLIC_KEY_PREFIX H) (Src.const_UNCOMPRESSED_PUBLIC_KEY_PREFIX H) := by
  delta SrcX.const_UNCOMPRESSED_PUBLIC_KEY_PREFIX  Src.const_UNCOMPRESSED_PUBLIC_KEY_PREFIX
  sim_value
macro_rules | `(tactic| sim_known) => `(tactic| exact sim_const_UNCOMPRESSED_PUBLIC_KEY_PREFIX _)

theorem sim_const_CHECKSUM_BYTE_LENGTH : Sim (fun _ => 0) K (const_CHECKSUM_BYTE_LENGTH H) (Src.const_CHECKSUM_BYTE_LENGTH H) := by
  delta SrcX.const_CHECKSUM_BYTE_LENGTH  Src.const_CHECKSUM_BYTE_LENGTH
  sim_value
macro_rules | `(tactic| sim_known) => `(tactic| exact sim_const_CHECKSUM_BYTE_LENGTH _)

theorem sim_const_WIF_TYPES : Sim (fun _ => 0) K (const_WIF_TYPES H) (Src.const_WIF_TYPES H) := by
  delta SrcX.const_WIF_TYPES  Src.const_WIF_TYPES
  sim_value
macro_rules | `(tactic| sim_known) => `(tactic| exact sim_const_WIF_TYPES _)

theorem sim_const_PUBLIC_KEY_TYPES : Sim (fun _ => 0) K (const_PUBLIC_KEY_TYPES H) (Src.const_PUBLIC_KEY_TYPES H) := by
  delta SrcX.const_PUBLIC_KEY_TYPES  Src.const_PUBLIC_KEY_TYPES
  sim_value
macro_rules | `(tactic| sim_known) => `(tactic| exact sim_const_PUBLIC_KEY_TYPES _)

theorem sim_const_FLAGS : Sim (fun _ => 0) K (const_FLAGS H) (Src.const_FLAGS H) := by
  delta SrcX.const_FLAGS  Src.const_FLAGS
  sim_value
macro_rules | `(tactic| sim_known) => `(tactic| exact sim_const_FLAGS _)

theorem sim_utils_get_bytes : SimF (calls []) K (utils_get_bytes H) (Src.utils_get_bytes H) := by
  delta SrcX.utils_get_bytes  Src.utils_get_bytes  SrcX.utils_get_bytes_L26  Src.utils_get_bytes_L26  SrcX.utils_get_bytes_L25  Src.utils_get_bytes_L25  SrcX.utils_get_bytes_L28  Src.utils_get_bytes_L28  SrcX.utils_get_bytes_L31  Src.utils_get_bytes_L31  SrcX.utils_get_bytes_L33  Src.utils_get_bytes_L33  SrcX.utils_get_bytes_L30  Src.utils_get_bytes_L30  SrcX.utils_get_bytes_L35  Src.utils_get_bytes_L35  SrcX.utils_get_bytes_L29  Src.utils_get_bytes_L29  SrcX.utils_get_bytes_L27  Src.utils_get_bytes_L27
  sim_function
macro_rules | `(tactic| sim_known) => `(tactic| exact sim_utils_get_bytes _)

theorem sim_utils_bytes_reverse : SimF (calls []) K (utils_bytes_reverse H) (Src.utils_bytes_reverse H) := by
  delta SrcX.utils_bytes_reverse  Src.utils_bytes_reverse  SrcX.utils_bytes_reverse_L49  Src.utils_bytes_reverse_L49  SrcX.utils_bytes_reverse_L50  Src.utils_bytes_reverse_L50  SrcX.utils_bytes_reverse_L51  Src.utils_bytes_reverse_L51
  sim_function
macro_rules | `(tactic| sim_known) => `(tactic| exact sim_utils_bytes_reverse _)

theorem sim_utils_bytes_to_string : SimF (calls []) K (utils_bytes_to_string H) (Src.utils_bytes_to_string H) := by
  delta SrcX.utils_bytes_to_string  Src.utils_bytes_to_string  SrcX.utils_bytes_to_string_L66  Src.utils_bytes_to_string_L66  SrcX.utils_bytes_to_string_L65  Src.utils_bytes_to_string_L65  SrcX.utils_bytes_to_string_L68  Src.utils_bytes_to_string_L68  SrcX.utils_bytes_to_string_L69  Src.utils_bytes_to_string_L69  SrcX.utils_bytes_to_string_L71  Src.utils_bytes_to_string_L71  SrcX.utils_bytes_to_string_L67  Src.utils_bytes_to_string_L67  SrcX.utils_bytes_to_string_L73  Src.utils_bytes_to_string_L73  SrcX.utils_bytes_to_string_L72  Src.utils_bytes_to_string_L72  SrcX.utils_bytes_to_string_L74  Src.utils_bytes_to_string_L74
  sim_function
macro_rules | `(tactic| sim_known) => `(tactic| exact sim_utils_bytes_to_string _)

theorem sim_utils_bytes_to_integer : SimF (calls []) K (utils_bytes_to_integer H) (Src.utils_bytes_to_integer H) := by
  delta SrcX.utils_bytes_to_integer  Src.utils_bytes_to_integer  SrcX.utils_bytes_to_integer_L92  Src.utils_bytes_to_integer_L92
  sim_function
macro_rules | `(tactic| sim_known) => `(tactic| exact sim_utils_bytes_to_integer _)

theorem sim_utils_integer_to_bytes : SimF (calls [(.ecdsa, 1)]) K (utils_integer_to_bytes H) (Src.utils_integer_to_bytes H) := by
  delta SrcX.utils_integer_to_bytes  Src.utils_integer_to_bytes  SrcX.utils_integer_to_bytes_L114  Src.utils_integer_to_bytes_L114  SrcX.utils_integer_to_bytes_L115  Src.utils_integer_to_bytes_L115
  sim_function
macro_rules | `(tactic| sim_known) => `(tactic| exact sim_utils_integer_to_bytes _)

theorem sim_base58_base58_alphabet : Sim (fun _ => 0) K (base58_base58_alphabet H) (Src.base58_base58_alphabet H) := by
  delta SrcX.base58_base58_alphabet  Src.base58_base58_alphabet
  sim_value
macro_rules | `(tactic| sim_known) => `(tactic| exact sim_base58_base58_alphabet _)

theorem sim_base58_string_to_int : SimF (calls []) K (base58_string_to_int H) (Src.base58_string_to_int H) := by
  delta SrcX.base58_string_to_int  Src.base58_string_to_int  SrcX.base58_string_to_int_L11  Src.base58_string_to_int_L11  SrcX.base58_string_to_int_L14  Src.base58_string_to_int_L14  SrcX.base58_string_to_int_L13  Src.base58_string_to_int_L13  SrcX.base58_string_to_int_L17  Src.base58_string_to_int_L17  SrcX.base58_string_to_int_L16  Src.base58_string_to_int_L16  SrcX.base58_string_to_int_L18  Src.base58_string_to_int_L18
  sim_function
macro_rules | `(tactic| sim_known) => `(tactic| exact sim_base58_string_to_int _)

theorem sim_base58_ensure_string : SimF (calls []) K (base58_ensure_string H) (Src.base58_ensure_string H) := by
  delta SrcX.base58_ensure_string  Src.base58_ensure_string  SrcX.base58_ensure_string_L23  Src.base58_ensure_string_L23  SrcX.base58_ensure_string_L25  Src.base58_ensure_string_L25  SrcX.base58_ensure_string_L24  Src.base58_ensure_string_L24  SrcX.base58_ensure_string_L22  Src.base58_ensure_string_L22  SrcX.base58_ensure_string_L26  Src.base58_ensure_string_L26
  sim_function
macro_rules | `(tactic| sim_known) => `(tactic| exact sim_base58_ensure_string _)

theorem sim_base58_encode : SimF (calls []) K (base58_encode H) (Src.base58_encode H) := by
  delta SrcX.base58_encode  Src.base58_encode  SrcX.base58_encode_L30  Src.base58_encode_L30  SrcX.base58_encode_L31  Src.base58_encode_L31  SrcX.base58_encode_L33  Src.base58_encode_L33  SrcX.base58_encode_L34  Src.base58_encode_L34  SrcX.base58_encode_L32  Src.base58_encode_L32  SrcX.base58_encode_L36  Src.base58_encode_L36  SrcX.base58_encode_L35  Src.base58_encode_L35  SrcX.base58_encode_L38  Src.base58_encode_L38  SrcX.base58_encode_L39  Src.base58_encode_L39
  sim_function
macro_rules | `(tactic| sim_known) => `(tactic| exact sim_base58_encode _)

theorem sim_base58_check_encode : SimF (calls [(.sha256, 2), (.digest, 2)]) K (base58_check_encode H) (Src.base58_check_encode H) := by
  delta SrcX.base58_check_encode  Src.base58_check_encode  SrcX.base58_check_encode_L43  Src.base58_check_encode_L43  SrcX.base58_check_encode_L44  Src.base58_check_encode_L44
  sim_function
macro_rules | `(tactic| sim_known) => `(tactic| exact sim_base58_check_encode _)

theorem sim_base58_decode : SimF (calls []) K (base58_decode H) (Src.base58_decode H) := by
  delta SrcX.base58_decode  Src.base58_decode  SrcX.base58_decode_L49  Src.base58_decode_L49  SrcX.base58_decode_L48  Src.base58_decode_L48  SrcX.base58_decode_L51  Src.base58_decode_L51  SrcX.base58_decode_L52  Src.base58_decode_L52  SrcX.base58_decode_L54  Src.base58_decode_L54  SrcX.base58_decode_L56  Src.base58_decode_L56  SrcX.base58_decode_L55  Src.base58_decode_L55  SrcX.base58_decode_L53  Src.base58_decode_L53  SrcX.base58_decode_L58  Src.base58_decode_L58  SrcX.base58_decode_L60  Src.base58_decode_L60  SrcX.base58_decode_L61  Src.base58_decode_L61  SrcX.base58_decode_L59  Src.base58_decode_L59  SrcX.base58_decode_L63  Src.base58_decode_L63  SrcX.base58_decode_L65  Src.base58_decode_L65
  sim_function
macro_rules | `(tactic| sim_known) => `(tactic| exact sim_base58_decode _)

theorem sim_base58_check_decode : SimF (calls [(.sha256, 2), (.digest, 2)]) K (base58_check_decode H) (Src.base58_check_decode H) := by
  delta SrcX.base58_check_decode  Src.base58_check_decode  SrcX.base58_check_decode_L69  Src.base58_check_decode_L69  SrcX.base58_check_decode_L70  Src.base58_check_decode_L70  SrcX.base58_check_decode_L72  Src.base58_check_decode_L72  SrcX.base58_check_decode_L74  Src.base58_check_decode_L74  SrcX.base58_check_decode_L71  Src.base58_check_decode_L71
  sim_function
macro_rules | `(tactic| sim_known) => `(tactic| exact sim_base58_check_decode _)

theorem sim_ripemd160_ML : Sim (fun _ => 0) K (ripemd160_ML H) (Src.ripemd160_ML H) := by
  delta SrcX.ripemd160_ML  Src.ripemd160_ML
  sim_value
macro_rules | `(tactic| sim_known) => `(tactic| exact sim_ripemd160_ML _)

theorem sim_ripemd160_MR : Sim (fun _ => 0) K (ripemd160_MR H) (Src.ripemd160_MR H) := by
  delta SrcX.ripemd160_MR  Src.ripemd160_MR
  sim_value
macro_rules | `(tactic| sim_known) => `(tactic| exact sim_ripemd160_MR _)

theorem sim_ripemd160_RL : Sim (fun _ => 0) K (ripemd160_RL H) (Src.ripemd160_RL H) := by
  delta SrcX.ripemd160_RL  Src.ripemd160_RL
  sim_value
macro_rules | `(tactic| sim_known) => `(tactic| exact sim_ripemd160_RL _)

theorem sim_ripemd160_RR : Sim (fun _ => 0) K (ripemd160_RR H) (Src.ripemd160_RR H) := by
  delta SrcX.ripemd160_RR  Src.ripemd160_RR
  sim_value
macro_rules | `(tactic| sim_known) => `(tactic| exact sim_ripemd160_RR _)

theorem sim_ripemd160_KL : Sim (fun _ => 0) K (ripemd160_KL H) (Src.ripemd160_KL H) := by
  delta SrcX.ripemd160_KL  Src.ripemd160_KL
  sim_value
macro_rules | `(tactic| sim_known) => `(tactic| exact sim_ripemd160_KL _)

theorem sim_ripemd160_KR : Sim (fun _ => 0) K (ripemd160_KR H) (Src.ripemd160_KR H) := by
  delta SrcX.ripemd160_KR  Src.ripemd160_KR
  sim_value
macro_rules | `(tactic| sim_known) => `(tactic| exact sim_ripemd160_KR _)

theorem sim_ripemd160_fi : SimF (calls []) K (ripemd160_fi H) (Src.ripemd160_fi H) := by
  delta SrcX.ripemd160_fi  Src.ripemd160_fi  SrcX.ripemd160_fi_L63  Src.ripemd160_fi_L63  SrcX.ripemd160_fi_L65  Src.ripemd160_fi_L65  SrcX.ripemd160_fi_L67  Src.ripemd160_fi_L67  SrcX.ripemd160_fi_L69  Src.ripemd160_fi_L69  SrcX.ripemd160_fi_L71  Src.ripemd160_fi_L71  SrcX.ripemd160_fi_L73  Src.ripemd160_fi_L73  SrcX.ripemd160_fi_L70  Src.ripemd160_fi_L70  SrcX.ripemd160_fi_L68  Src.ripemd160_fi_L68  SrcX.ripemd160_fi_L66  Src.ripemd160_fi_L66  SrcX.ripemd160_fi_L64  Src.ripemd160_fi_L64  SrcX.ripemd160_fi_L62  Src.ripemd160_fi_L62
  sim_function
macro_rules | `(tactic| sim_known) => `(tactic| exact sim_ripemd160_fi _)

theorem sim_ripemd160_rol : SimF (calls []) K (ripemd160_rol H) (Src.ripemd160_rol H) := by
  delta SrcX.ripemd160_rol  Src.ripemd160_rol  SrcX.ripemd160_rol_L78  Src.ripemd160_rol_L78
  sim_function
macro_rules | `(tactic| sim_known) => `(tactic| exact sim_ripemd160_rol _)

theorem sim_ripemd160_compress : SimF (calls []) K (ripemd160_compress H) (Src.ripemd160_compress H) := by
  delta SrcX.ripemd160_compress  Src.ripemd160_compress  SrcX.ripemd160_compress_L84  Src.ripemd160_compress_L84  SrcX.ripemd160_compress_L86  Src.ripemd160_compress_L86  SrcX.ripemd160_compress_L88  Src.ripemd160_compress_L88  SrcX.ripemd160_compress_L92  Src.ripemd160_compress_L92  SrcX.ripemd160_compress_L94  Src.ripemd160_compress_L94  SrcX.ripemd160_compress_L95  Src.ripemd160_compress_L95  SrcX.ripemd160_compress_L97  Src.ripemd160_compress_L97  SrcX.ripemd160_compress_L98  Src.ripemd160_compress_L98  SrcX.ripemd160_compress_L91  Src.ripemd160_compress_L91  SrcX.ripemd160_compress_L101  Src.ripemd160_compress_L101
  sim_function
macro_rules | `(tactic| sim_known) => `(tactic| exact sim_ripemd160_compress _)

theorem sim_ripemd160_ripemd160 : SimF (calls []) K (ripemd160_ripemd160 H) (Src.ripemd160_ripemd160 H) := by
  delta SrcX.ripemd160_ripemd160  Src.ripemd160_ripemd160  SrcX.ripemd160_ripemd160_L107  Src.ripemd160_ripemd160_L107  SrcX.ripemd160_ripemd160_L110  Src.ripemd160_ripemd160_L110  SrcX.ripemd160_ripemd160_L111  Src.ripemd160_ripemd160_L111  SrcX.ripemd160_ripemd160_L109  Src.ripemd160_ripemd160_L109  SrcX.ripemd160_ripemd160_L113  Src.ripemd160_ripemd160_L113  SrcX.ripemd160_ripemd160_L114  Src.ripemd160_ripemd160_L114  SrcX.ripemd160_ripemd160_L117  Src.ripemd160_ripemd160_L117  SrcX.ripemd160_ripemd160_L118  Src.ripemd160_ripemd160_L118  SrcX.ripemd160_ripemd160_L116  Src.ripemd160_ripemd160_L116  SrcX.ripemd160_ripemd160_L120  Src.ripemd160_ripemd160_L120
  sim_function
macro_rules | `(tactic| sim_known) => `(tactic| exact sim_ripemd160_ripemd160 _)

theorem sim_crypto_ripemd160 (hU : Allows K [.ripemd160]) : SimF (calls [(.hashNew, 1), (.digest, 1)]) K (crypto_ripemd160 H) (Src.crypto_ripemd160 H) := by
  delta SrcX.crypto_ripemd160  Src.crypto_ripemd160  SrcX.crypto_ripemd160_L27  Src.crypto_ripemd160_L27
  sim_function
macro_rules | `(tactic| sim_known) => `(tactic| exact sim_crypto_ripemd160 _ (allows_sub (by assumption) (by decide)))

theorem sim_crypto_sha256 : SimF (calls [(.sha256, 1), (.digest, 1)]) K (crypto_sha256 H) (Src.crypto_sha256 H) := by
  delta SrcX.crypto_sha256  Src.crypto_sha256  SrcX.crypto_sha256_L45  Src.crypto_sha256_L45
  sim_function
macro_rules | `(tactic| sim_known) => `(tactic| exact sim_crypto_sha256 _)

theorem sim_crypto_double_sha256 : SimF (calls [(.sha256, 2), (.digest, 2)]) K (crypto_double_sha256 H) (Src.crypto_double_sha256 H) := by
  delta SrcX.crypto_double_sha256  Src.crypto_double_sha256  SrcX.crypto_double_sha256_L59  Src.crypto_double_sha256_L59
  sim_function
macro_rules | `(tactic| sim_known) => `(tactic| exact sim_crypto_double_sha256 _)

theorem sim_crypto_get_checksum : SimF (calls [(.sha256, 2), (.digest, 2)]) K (crypto_get_checksum H) (Src.crypto_get_checksum H) := by
  delta SrcX.crypto_get_checksum  Src.crypto_get_checksum  SrcX.crypto_get_checksum_L76  Src.crypto_get_checksum_L76
  sim_function
macro_rules | `(tactic| sim_known) => `(tactic| exact sim_crypto_get_checksum _)

theorem sim_crypto_hash160 (hU : Allows K [.ripemd160]) : SimF (calls [(.sha256, 1), (.hashNew, 1), (.digest, 2)]) K (crypto_hash160 H) (Src.crypto_hash160 H) := by
  delta SrcX.crypto_hash160  Src.crypto_hash160  SrcX.crypto_hash160_L90  Src.crypto_hash160_L90
  sim_function
macro_rules | `(tactic| sim_known) => `(tactic| exact sim_crypto_hash160 _ (allows_sub (by assumption) (by decide)))

theorem sim_Point_init : SimF (calls []) K (Point_init H) (Src.Point_init H) := by
  delta SrcX.Point_init  Src.Point_init  SrcX.Point_init_L32  Src.Point_init_L32
  sim_function
macro_rules | `(tactic| sim_known) => `(tactic| exact sim_Point_init _)

theorem sim_Point_from_coordinates : SimF (calls [(.ecdsa, 2)]) K (Point_from_coordinates H) (Src.Point_from_coordinates H) := by
  delta SrcX.Point_from_coordinates  Src.Point_from_coordinates  SrcX.Point_from_coordinates_L74  Src.Point_from_coordinates_L74
  sim_function
macro_rules | `(tactic| sim_known) => `(tactic| exact sim_Point_from_coordinates _)

theorem sim_Point_from_bytes (hK : Fine K) : SimF (calls [(.ecdsa, 3)]) K (Point_from_bytes H) (Src.Point_from_bytes H) := by
  delta SrcX.Point_from_bytes  Src.Point_from_bytes  SrcX.Point_from_bytes_L47  Src.Point_from_bytes_L47  SrcX.Point_from_bytes_L53  Src.Point_from_bytes_L53  SrcX.Point_from_bytes_L55  Src.Point_from_bytes_L55  SrcX.Point_from_bytes_L46  Src.Point_from_bytes_L46
  sim_function
macro_rules | `(tactic| sim_known) => `(tactic| exact sim_Point_from_bytes _ (by assumption))

theorem sim_Point_underlying_object : SimF (calls []) K (Point_underlying_object H) (Src.Point_underlying_object H) := by
  delta SrcX.Point_underlying_object  Src.Point_underlying_object  SrcX.Point_underlying_object_L88  Src.Point_underlying_object_L88
  sim_function
macro_rules | `(tactic| sim_known) => `(tactic| exact sim_Point_underlying_object _)

theorem sim_Point_x : SimF (calls [(.ecdsa, 1)]) K (Point_x H) (Src.Point_x H) := by
  delta SrcX.Point_x  Src.Point_x  SrcX.Point_x_L98  Src.Point_x_L98
  sim_function
macro_rules | `(tactic| sim_known) => `(tactic| exact sim_Point_x _)

theorem sim_Point_y : SimF (calls [(.ecdsa, 1)]) K (Point_y H) (Src.Point_y H) := by
  delta SrcX.Point_y  Src.Point_y  SrcX.Point_y_L108  Src.Point_y_L108
  sim_function
macro_rules | `(tactic| sim_known) => `(tactic| exact sim_Point_y _)

theorem sim_Point_raw_encoded (hK : Fine K) : SimF (calls [(.ecdsa, 4)]) K (Point_raw_encoded H) (Src.Point_raw_encoded H) := by
  delta SrcX.Point_raw_encoded  Src.Point_raw_encoded  SrcX.Point_raw_encoded_L129  Src.Point_raw_encoded_L129  SrcX.Point_raw_encoded_L131  Src.Point_raw_encoded_L131  SrcX.Point_raw_encoded_L134  Src.Point_raw_encoded_L134  SrcX.Point_raw_encoded_L128  Src.Point_raw_encoded_L128
  sim_function
macro_rules | `(tactic| sim_known) => `(tactic| exact sim_Point_raw_encoded _ (by assumption))

theorem sim_Point_raw_decoded (hK : Fine K) : SimF (calls [(.ecdsa, 5)]) K (Point_raw_decoded H) (Src.Point_raw_decoded H) := by
  delta SrcX.Point_raw_decoded  Src.Point_raw_decoded  SrcX.Point_raw_decoded_L145  Src.Point_raw_decoded_L145  SrcX.Point_raw_decoded_L147  Src.Point_raw_decoded_L147  SrcX.Point_raw_decoded_L150  Src.Point_raw_decoded_L150  SrcX.Point_raw_decoded_L153  Src.Point_raw_decoded_L153  SrcX.Point_raw_decoded_L144  Src.Point_raw_decoded_L144
  sim_function
macro_rules | `(tactic| sim_known) => `(tactic| exact sim_Point_raw_decoded _ (by assumption))

theorem sim_Point_raw (hK : Fine K) : SimF (calls [(.ecdsa, 5)]) K (Point_raw H) (Src.Point_raw H) := by
  delta SrcX.Point_raw  Src.Point_raw  SrcX.Point_raw_L118  Src.Point_raw_L118
  sim_function
macro_rules | `(tactic| sim_known) => `(tactic| exact sim_Point_raw _ (by assumption))

theorem sim_Point_add : SimF (calls []) K (Point_add H) (Src.Point_add H) := by
  delta SrcX.Point_add  Src.Point_add  SrcX.Point_add_L166  Src.Point_add_L166
  sim_function
macro_rules | `(tactic| sim_known) => `(tactic| exact sim_Point_add _)

theorem sim_Point_radd : SimF (calls []) K (Point_radd H) (Src.Point_radd H) := by
  delta SrcX.Point_radd  Src.Point_radd  SrcX.Point_radd_L179  Src.Point_radd_L179
  sim_function
macro_rules | `(tactic| sim_known) => `(tactic| exact sim_Point_radd _)

theorem sim_Point_mul : SimF (calls []) K (Point_mul H) (Src.Point_mul H) := by
  delta SrcX.Point_mul  Src.Point_mul  SrcX.Point_mul_L192  Src.Point_mul_L192
  sim_function
macro_rules | `(tactic| sim_known) => `(tactic| exact sim_Point_mul _)

theorem sim_Point_rmul : SimF (calls []) K (Point_rmul H) (Src.Point_rmul H) := by
  delta SrcX.Point_rmul  Src.Point_rmul  SrcX.Point_rmul_L205  Src.Point_rmul_L205
  sim_function
macro_rules | `(tactic| sim_known) => `(tactic| exact sim_Point_rmul _)

theorem sim_PublicKey_init : SimF (calls []) K (PublicKey_init H) (Src.PublicKey_init H) := by
  delta SrcX.PublicKey_init  Src.PublicKey_init  SrcX.PublicKey_init_L33  Src.PublicKey_init_L33
  sim_function
macro_rules | `(tactic| sim_known) => `(tactic| exact sim_PublicKey_init _)

theorem sim_PublicKey_from_bytes (hK : Fine K) : SimF (calls [(.ecdsa, 1)]) K (PublicKey_from_bytes H) (Src.PublicKey_from_bytes H) := by
  delta SrcX.PublicKey_from_bytes  Src.PublicKey_from_bytes  SrcX.PublicKey_from_bytes_L48  Src.PublicKey_from_bytes_L48  SrcX.PublicKey_from_bytes_L54  Src.PublicKey_from_bytes_L54  SrcX.PublicKey_from_bytes_L47  Src.PublicKey_from_bytes_L47
  sim_function
macro_rules | `(tactic| sim_known) => `(tactic| exact sim_PublicKey_from_bytes _ (by assumption))

theorem sim_PublicKey_from_point (hK : Fine K) : SimF (calls [(.ecdsa, 4)]) K (PublicKey_from_point H) (Src.PublicKey_from_point H) := by
  delta SrcX.PublicKey_from_point  Src.PublicKey_from_point  SrcX.PublicKey_from_point_L69  Src.PublicKey_from_point_L69  SrcX.PublicKey_from_point_L78  Src.PublicKey_from_point_L78  SrcX.PublicKey_from_point_L68  Src.PublicKey_from_point_L68
  sim_function
macro_rules | `(tactic| sim_known) => `(tactic| exact sim_PublicKey_from_point _ (by assumption))

theorem sim_PublicKey_compressed_length : SimF (calls []) K (PublicKey_compressed_length H) (Src.PublicKey_compressed_length H) := by
  delta SrcX.PublicKey_compressed_length  Src.PublicKey_compressed_length  SrcX.PublicKey_compressed_length_L89  Src.PublicKey_compressed_length_L89
  sim_function
macro_rules | `(tactic| sim_known) => `(tactic| exact sim_PublicKey_compressed_length _)

theorem sim_PublicKey_uncompressed_length : SimF (calls []) K (PublicKey_uncompressed_length H) (Src.PublicKey_uncompressed_length H) := by
  delta SrcX.PublicKey_uncompressed_length  Src.PublicKey_uncompressed_length  SrcX.PublicKey_uncompressed_length_L100  Src.PublicKey_uncompressed_length_L100
  sim_function
macro_rules | `(tactic| sim_known) => `(tactic| exact sim_PublicKey_uncompressed_length _)

theorem sim_PublicKey_underlying_object : SimF (calls []) K (PublicKey_underlying_object H) (Src.PublicKey_underlying_object H) := by
  delta SrcX.PublicKey_underlying_object  Src.PublicKey_underlying_object  SrcX.PublicKey_underlying_object_L110  Src.PublicKey_underlying_object_L110
  sim_function
macro_rules | `(tactic| sim_known) => `(tactic| exact sim_PublicKey_underlying_object _)

theorem sim_PublicKey_raw_compressed : SimF (calls [(.ecdsa, 1)]) K (PublicKey_raw_compressed H) (Src.PublicKey_raw_compressed H) := by
  delta SrcX.PublicKey_raw_compressed  Src.PublicKey_raw_compressed  SrcX.PublicKey_raw_compressed_L130  Src.PublicKey_raw_compressed_L130
  sim_function
macro_rules | `(tactic| sim_known) => `(tactic| exact sim_PublicKey_raw_compressed _)

theorem sim_PublicKey_raw_uncompressed : SimF (calls [(.ecdsa, 1)]) K (PublicKey_raw_uncompressed H) (Src.PublicKey_raw_uncompressed H) := by
  delta SrcX.PublicKey_raw_uncompressed  Src.PublicKey_raw_uncompressed  SrcX.PublicKey_raw_uncompressed_L140  Src.PublicKey_raw_uncompressed_L140
  sim_function
macro_rules | `(tactic| sim_known) => `(tactic| exact sim_PublicKey_raw_uncompressed _)

theorem sim_PublicKey_raw : SimF (calls [(.ecdsa, 1)]) K (PublicKey_raw H) (Src.PublicKey_raw H) := by
  delta SrcX.PublicKey_raw  Src.PublicKey_raw  SrcX.PublicKey_raw_L120  Src.PublicKey_raw_L120
  sim_function
macro_rules | `(tactic| sim_known) => `(tactic| exact sim_PublicKey_raw _)

theorem sim_PublicKey_point : SimF (calls []) K (PublicKey_point H) (Src.PublicKey_point H) := by
  delta SrcX.PublicKey_point  Src.PublicKey_point  SrcX.PublicKey_point_L150  Src.PublicKey_point_L150
  sim_function
macro_rules | `(tactic| sim_known) => `(tactic| exact sim_PublicKey_point _)

theorem sim_PrivateKey_init : SimF (calls []) K (PrivateKey_init H) (Src.PrivateKey_init H) := by
  delta SrcX.PrivateKey_init  Src.PrivateKey_init  SrcX.PrivateKey_init_L30  Src.PrivateKey_init_L30
  sim_function
macro_rules | `(tactic| sim_known) => `(tactic| exact sim_PrivateKey_init _)

theorem sim_PrivateKey_from_bytes (hK : Fine K) : SimF (calls [(.ecdsa, 1)]) K (PrivateKey_from_bytes H) (Src.PrivateKey_from_bytes H) := by
  delta SrcX.PrivateKey_from_bytes  Src.PrivateKey_from_bytes  SrcX.PrivateKey_from_bytes_L45  Src.PrivateKey_from_bytes_L45  SrcX.PrivateKey_from_bytes_L51  Src.PrivateKey_from_bytes_L51  SrcX.PrivateKey_from_bytes_L44  Src.PrivateKey_from_bytes_L44
  sim_function
macro_rules | `(tactic| sim_known) => `(tactic| exact sim_PrivateKey_from_bytes _ (by assumption))

theorem sim_PrivateKey_length : SimF (calls []) K (PrivateKey_length H) (Src.PrivateKey_length H) := by
  delta SrcX.PrivateKey_length  Src.PrivateKey_length  SrcX.PrivateKey_length_L62  Src.PrivateKey_length_L62
  sim_function
macro_rules | `(tactic| sim_known) => `(tactic| exact sim_PrivateKey_length _)

theorem sim_PrivateKey_underlying_object : SimF (calls []) K (PrivateKey_underlying_object H) (Src.PrivateKey_underlying_object H) := by
  delta SrcX.PrivateKey_underlying_object  Src.PrivateKey_underlying_object  SrcX.PrivateKey_underlying_object_L72  Src.PrivateKey_underlying_object_L72
  sim_function
macro_rules | `(tactic| sim_known) => `(tactic| exact sim_PrivateKey_underlying_object _)

theorem sim_PrivateKey_raw : SimF (calls [(.ecdsa, 1)]) K (PrivateKey_raw H) (Src.PrivateKey_raw H) := by
  delta SrcX.PrivateKey_raw  Src.PrivateKey_raw  SrcX.PrivateKey_raw_L82  Src.PrivateKey_raw_L82
  sim_function
macro_rules | `(tactic| sim_known) => `(tactic| exact sim_PrivateKey_raw _)

theorem sim_PrivateKey_public_key : SimF (calls [(.ecdsa, 1)]) K (PrivateKey_public_key H) (Src.PrivateKey_public_key H) := by
  delta SrcX.PrivateKey_public_key  Src.PrivateKey_public_key  SrcX.PrivateKey_public_key_L92  Src.PrivateKey_public_key_L92
  sim_function
macro_rules | `(tactic| sim_known) => `(tactic| exact sim_PrivateKey_public_key _)

theorem sim_wif_encode_wif : SimF (calls [(.sha256, 4), (.digest, 4), (.ecdsa, 3)]) K (wif_encode_wif H) (Src.wif_encode_wif H) := by
  delta SrcX.wif_encode_wif  Src.wif_encode_wif  SrcX.wif_encode_wif_L45  Src.wif_encode_wif_L45  SrcX.wif_encode_wif_L44  Src.wif_encode_wif_L44  SrcX.wif_encode_wif_L47  Src.wif_encode_wif_L47  SrcX.wif_encode_wif_L50  Src.wif_encode_wif_L50  SrcX.wif_encode_wif_L53  Src.wif_encode_wif_L53
  sim_function
macro_rules | `(tactic| sim_known) => `(tactic| exact sim_wif_encode_wif _)

theorem sim_wif_decode_wif : SimF (calls [(.ecdsa, 4)]) K (wif_decode_wif H) (Src.wif_decode_wif H) := by
  delta SrcX.wif_decode_wif  Src.wif_decode_wif  SrcX.wif_decode_wif_L74  Src.wif_decode_wif_L74  SrcX.wif_decode_wif_L76  Src.wif_decode_wif_L76  SrcX.wif_decode_wif_L75  Src.wif_decode_wif_L75  SrcX.wif_decode_wif_L78  Src.wif_decode_wif_L78  SrcX.wif_decode_wif_L79  Src.wif_decode_wif_L79  SrcX.wif_decode_wif_L81  Src.wif_decode_wif_L81  SrcX.wif_decode_wif_L80  Src.wif_decode_wif_L80  SrcX.wif_decode_wif_L83  Src.wif_decode_wif_L83  SrcX.wif_decode_wif_L84  Src.wif_decode_wif_L84  SrcX.wif_decode_wif_L85  Src.wif_decode_wif_L85  SrcX.wif_decode_wif_L86  Src.wif_decode_wif_L86  SrcX.wif_decode_wif_L89  Src.wif_decode_wif_L89  SrcX.wif_decode_wif_L91  Src.wif_decode_wif_L91  SrcX.wif_decode_wif_L92  Src.wif_decode_wif_L92  SrcX.wif_decode_wif_L90  Src.wif_decode_wif_L90  SrcX.wif_decode_wif_L88  Src.wif_decode_wif_L88  SrcX.wif_decode_wif_L94  Src.wif_decode_wif_L94
  sim_function
macro_rules | `(tactic| sim_known) => `(tactic| exact sim_wif_decode_wif _)

theorem sim_wif_private_key_to_wif : SimF (calls [(.sha256, 4), (.digest, 4), (.ecdsa, 3)]) K (wif_private_key_to_wif H) (Src.wif_private_key_to_wif H) := by
  delta SrcX.wif_private_key_to_wif  Src.wif_private_key_to_wif  SrcX.wif_private_key_to_wif_L120  Src.wif_private_key_to_wif_L120  SrcX.wif_private_key_to_wif_L119  Src.wif_private_key_to_wif_L119  SrcX.wif_private_key_to_wif_L121  Src.wif_private_key_to_wif_L121  SrcX.wif_private_key_to_wif_L124  Src.wif_private_key_to_wif_L124
  sim_function
macro_rules | `(tactic| sim_known) => `(tactic| exact sim_wif_private_key_to_wif _)

theorem sim_wif_wif_to_private_key : SimF (calls [(.ecdsa, 4)]) K (wif_wif_to_private_key H) (Src.wif_wif_to_private_key H) := by
  delta SrcX.wif_wif_to_private_key  Src.wif_wif_to_private_key  SrcX.wif_wif_to_private_key_L144  Src.wif_wif_to_private_key_L144
  sim_function
macro_rules | `(tactic| sim_known) => `(tactic| exact sim_wif_wif_to_private_key _)

theorem sim_wif_get_wif_type : SimF (calls [(.ecdsa, 4)]) K (wif_get_wif_type H) (Src.wif_get_wif_type H) := by
  delta SrcX.wif_get_wif_type  Src.wif_get_wif_type  SrcX.wif_get_wif_type_L166  Src.wif_get_wif_type_L166
  sim_function
macro_rules | `(tactic| sim_known) => `(tactic| exact sim_wif_get_wif_type _)

theorem sim_wif_get_wif_checksum : SimF (calls [(.ecdsa, 4)]) K (wif_get_wif_checksum H) (Src.wif_get_wif_checksum H) := by
  delta SrcX.wif_get_wif_checksum  Src.wif_get_wif_checksum  SrcX.wif_get_wif_checksum_L188  Src.wif_get_wif_checksum_L188
  sim_function
macro_rules | `(tactic| sim_known) => `(tactic| exact sim_wif_get_wif_checksum _)

theorem sim_P2PKHAddress_address_prefix : Sim (fun _ => 0) K (P2PKHAddress_address_prefix H) (Src.P2PKHAddress_address_prefix H) := by
  delta SrcX.P2PKHAddress_address_prefix  Src.P2PKHAddress_address_prefix
  sim_value
macro_rules | `(tactic| sim_known) => `(tactic| exact sim_P2PKHAddress_address_prefix _)

theorem sim_P2PKHAddress_alphabet : Sim (fun _ => 0) K (P2PKHAddress_alphabet H) (Src.P2PKHAddress_alphabet H) := by
  delta SrcX.P2PKHAddress_alphabet  Src.P2PKHAddress_alphabet
  sim_value
macro_rules | `(tactic| sim_known) => `(tactic| exact sim_P2PKHAddress_alphabet _)

theorem sim_P2PKHAddress_encode (hK : Fine K) (hU : Allows K [.ripemd160]) : SimF (calls [(.sha256, 3), (.hashNew, 1), (.digest, 4), (.ecdsa, 3)]) K (P2PKHAddress_encode H) (Src.P2PKHAddress_encode H) := by
  delta SrcX.P2PKHAddress_encode  Src.P2PKHAddress_encode  SrcX.P2PKHAddress_encode_L45  Src.P2PKHAddress_encode_L45  SrcX.P2PKHAddress_encode_L50  Src.P2PKHAddress_encode_L50  SrcX.P2PKHAddress_encode_L49  Src.P2PKHAddress_encode_L49  SrcX.P2PKHAddress_encode_L52  Src.P2PKHAddress_encode_L52  SrcX.P2PKHAddress_encode_L58  Src.P2PKHAddress_encode_L58
  sim_function
macro_rules | `(tactic| sim_known) => `(tactic| exact sim_P2PKHAddress_encode _ (by assumption) (allows_sub (by assumption) (by decide)))

theorem sim_P2PKHAddress_decode : SimF (calls [(.sha256, 2), (.digest, 2), (.ecdsa, 1)]) K (P2PKHAddress_decode H) (Src.P2PKHAddress_decode H) := by
  delta SrcX.P2PKHAddress_decode  Src.P2PKHAddress_decode  SrcX.P2PKHAddress_decode_L80  Src.P2PKHAddress_decode_L80  SrcX.P2PKHAddress_decode_L83  Src.P2PKHAddress_decode_L83  SrcX.P2PKHAddress_decode_L89  Src.P2PKHAddress_decode_L89  SrcX.P2PKHAddress_decode_L91  Src.P2PKHAddress_decode_L91  SrcX.P2PKHAddress_decode_L90  Src.P2PKHAddress_decode_L90  SrcX.P2PKHAddress_decode_L93  Src.P2PKHAddress_decode_L93  SrcX.P2PKHAddress_decode_L95  Src.P2PKHAddress_decode_L95  SrcX.P2PKHAddress_decode_L94  Src.P2PKHAddress_decode_L94  SrcX.P2PKHAddress_decode_L97  Src.P2PKHAddress_decode_L97
  sim_function
macro_rules | `(tactic| sim_known) => `(tactic| exact sim_P2PKHAddress_decode _)


end Bip38.SrcX
