import Verif.SrcX.Stop
import Verif.SrcX.SimBip38
/-!
# What becomes of a fault during a function of the repository (generated by `tools/gen_sim.py`, do not edit)
-/
set_option linter.unusedVariables false
set_option linter.style.longLine false
namespace Bip38.SrcX

open Bip38.Src

variable {T : Tr}

theorem st_pyLen : StF T (pyLen) (Src.pyLen) := st_pure1 _
macro_rules | `(tactic| st_known) => `(tactic| exact st_pyLen)

theorem st_pyIsinstance : StF T (pyIsinstance) (Src.pyIsinstance) := st_pure1 _
macro_rules | `(tactic| st_known) => `(tactic| exact st_pyIsinstance)

theorem st_pyIssubclass : StF T (pyIssubclass) (Src.pyIssubclass) := st_pure1 _
macro_rules | `(tactic| st_known) => `(tactic| exact st_pyIssubclass)

theorem st_pyType : StF T (pyType) (Src.pyType) := st_pure1 _
macro_rules | `(tactic| st_known) => `(tactic| exact st_pyType)

theorem st_pyInt (H : Host) : StF T (pyInt H) (Src.pyInt H) := st_pure1 _
macro_rules | `(tactic| st_known) => `(tactic| exact st_pyInt _)

theorem st_pyList : StF T (pyList) (Src.pyList) := st_pure1 _
macro_rules | `(tactic| st_known) => `(tactic| exact st_pyList)

theorem st_pyRange : StF T (pyRange) (Src.pyRange) := st_pure1 _
macro_rules | `(tactic| st_known) => `(tactic| exact st_pyRange)

theorem st_pyEnumerate : StF T (pyEnumerate) (Src.pyEnumerate) := st_pure1 _
macro_rules | `(tactic| st_known) => `(tactic| exact st_pyEnumerate)

theorem st_pyDivmod : StF T (pyDivmod) (Src.pyDivmod) := st_pure1 _
macro_rules | `(tactic| st_known) => `(tactic| exact st_pyDivmod)

theorem st_pyBytes : StF T (pyBytes) (Src.pyBytes) := st_pure1 _
macro_rules | `(tactic| st_known) => `(tactic| exact st_pyBytes)

theorem st_pyBytearray : StF T (pyBytearray) (Src.pyBytearray) := st_pure1 _
macro_rules | `(tactic| st_known) => `(tactic| exact st_pyBytearray)

theorem st_pyFromhex : StF T (pyFromhex) (Src.pyFromhex) := st_pure1 _
macro_rules | `(tactic| st_known) => `(tactic| exact st_pyFromhex)

theorem st_pyFromBytes : StF T (pyFromBytes) (Src.pyFromBytes) := st_pure1 _
macro_rules | `(tactic| st_known) => `(tactic| exact st_pyFromBytes)

theorem st_pyException (c : ExcClass) : StF T (pyException c) (Src.pyException c) := st_pure1 _
macro_rules | `(tactic| st_known) => `(tactic| exact st_pyException _)

theorem st_xUnpack : StF T (xUnpack) (Src.xUnpack) := st_pure1 _
macro_rules | `(tactic| st_known) => `(tactic| exact st_xUnpack)

theorem st_xPack : StF T (xPack) (Src.xPack) := st_pure1 _
macro_rules | `(tactic| st_known) => `(tactic| exact st_xPack)

theorem st_noMethod : StM T (noMethod) (Src.noMethod) := st_pureMethod _
macro_rules | `(tactic| st_known) => `(tactic| exact st_noMethod)

theorem st_mHex : StM T (mHex) (Src.mHex) := st_pureMethod _
macro_rules | `(tactic| st_known) => `(tactic| exact st_mHex)

theorem st_mBitLength : StM T (mBitLength) (Src.mBitLength) := st_pureMethod _
macro_rules | `(tactic| st_known) => `(tactic| exact st_mBitLength)

theorem st_mDecode : StM T (mDecode) (Src.mDecode) := st_pureMethod _
macro_rules | `(tactic| st_known) => `(tactic| exact st_mDecode)

theorem st_mEncode : StM T (mEncode) (Src.mEncode) := st_pureMethod _
macro_rules | `(tactic| st_known) => `(tactic| exact st_mEncode)

theorem st_mFind : StM T (mFind) (Src.mFind) := st_pureMethod _
macro_rules | `(tactic| st_known) => `(tactic| exact st_mFind)

theorem st_mLstrip : StM T (mLstrip) (Src.mLstrip) := st_pureMethod _
macro_rules | `(tactic| st_known) => `(tactic| exact st_mLstrip)

theorem st_mStartswith : StM T (mStartswith) (Src.mStartswith) := st_pureMethod _
macro_rules | `(tactic| st_known) => `(tactic| exact st_mStartswith)

theorem st_mKeys : StM T (mKeys) (Src.mKeys) := st_pureMethod _
macro_rules | `(tactic| st_known) => `(tactic| exact st_mKeys)

theorem st_mJoin : StM T (mJoin) (Src.mJoin) := st_pureMethod _
macro_rules | `(tactic| st_known) => `(tactic| exact st_mJoin)

theorem st_xSha256 (H : Host) : StF T (xSha256 H) (Src.xSha256 H) := st_external _ _
macro_rules | `(tactic| st_known) => `(tactic| exact st_xSha256 _)

theorem st_xAlgorithms (H : Host) : St T (xAlgorithms H) (Src.xAlgorithms H) := st_lift _
macro_rules | `(tactic| st_known) => `(tactic| exact st_xAlgorithms _)

theorem st_xHashNew (H : Host) : StF T (xHashNew H) (Src.xHashNew H) := st_external _ _
macro_rules | `(tactic| st_known) => `(tactic| exact st_xHashNew _)

theorem st_mDigest : StM T (mDigest) (Src.mDigest) := st_externalMethod _ _ _
macro_rules | `(tactic| st_known) => `(tactic| exact st_mDigest)

theorem st_xScrypt (H : Host) : StF T (xScrypt H) (Src.xScrypt H) := st_external _ _
macro_rules | `(tactic| st_known) => `(tactic| exact st_xScrypt _)

theorem st_xNormalize (H : Host) : StF T (xNormalize H) (Src.xNormalize H) := st_external _ _
macro_rules | `(tactic| st_known) => `(tactic| exact st_xNormalize _)

theorem st_xUrandom (H : Host) : StF T (xUrandom H) (Src.xUrandom H) := st_external _ _
macro_rules | `(tactic| st_known) => `(tactic| exact st_xUrandom _)

theorem st_xAes : StF T (xAes) (Src.xAes) := st_external _ _
macro_rules | `(tactic| st_known) => `(tactic| exact st_xAes)

theorem st_mEncrypt (H : Host) : StM T (mEncrypt H) (Src.mEncrypt H) := st_externalMethod _ _ _
macro_rules | `(tactic| st_known) => `(tactic| exact st_mEncrypt _)

theorem st_mDecrypt (H : Host) : StM T (mDecrypt H) (Src.mDecrypt H) := st_externalMethod _ _ _
macro_rules | `(tactic| st_known) => `(tactic| exact st_mDecrypt _)

theorem st_xPointFromBytes (H : Host) : StF T (xPointFromBytes H) (Src.xPointFromBytes H) := st_external _ _
macro_rules | `(tactic| st_known) => `(tactic| exact st_xPointFromBytes _)

theorem st_xPoint : StF T (xPoint) (Src.xPoint) := st_external _ _
macro_rules | `(tactic| st_known) => `(tactic| exact st_xPoint)

theorem st_xFromAffine : StF T (xFromAffine) (Src.xFromAffine) := st_external _ _
macro_rules | `(tactic| st_known) => `(tactic| exact st_xFromAffine)

theorem st_mX : StM T (mX) (Src.mX) := st_externalMethod _ _ _
macro_rules | `(tactic| st_known) => `(tactic| exact st_mX)

theorem st_mY : StM T (mY) (Src.mY) := st_externalMethod _ _ _
macro_rules | `(tactic| st_known) => `(tactic| exact st_mY)

theorem st_mToBytes (H : Host) : StM T (mToBytes H) (Src.mToBytes H) := st_externalMethod _ _ _
macro_rules | `(tactic| st_known) => `(tactic| exact st_mToBytes _)

theorem st_xVerifyingFromString : StF T (xVerifyingFromString) (Src.xVerifyingFromString) := st_external _ _
macro_rules | `(tactic| st_known) => `(tactic| exact st_xVerifyingFromString)

theorem st_xVerifyingFromPoint : StF T (xVerifyingFromPoint) (Src.xVerifyingFromPoint) := st_external _ _
macro_rules | `(tactic| st_known) => `(tactic| exact st_xVerifyingFromPoint)

theorem st_xSigningFromString : StF T (xSigningFromString) (Src.xSigningFromString) := st_external _ _
macro_rules | `(tactic| st_known) => `(tactic| exact st_xSigningFromString)

theorem st_mToString : StM T (mToString) (Src.mToString) := st_externalMethod _ _ _
macro_rules | `(tactic| st_known) => `(tactic| exact st_mToString)

theorem st_mGetVerifyingKey : StM T (mGetVerifyingKey) (Src.mGetVerifyingKey) := st_externalMethod _ _ _
macro_rules | `(tactic| st_known) => `(tactic| exact st_mGetVerifyingKey)

variable (H : Host)

theorem st_Error_init (c : ExcClass) : StF T (Error_init H c) (Src.Error_init H c) := stF_silent (sim_Error_init H c) (by intro k; cases k <;> rfl)
macro_rules | `(tactic| st_known) => `(tactic| exact st_Error_init _ _)

theorem st_Error_str : StF T (Error_str H) (Src.Error_str H) := stF_silent (sim_Error_str H) (by intro k; cases k <;> rfl)
macro_rules | `(tactic| st_known) => `(tactic| exact st_Error_str _)

theorem st_const_NO_EC_MULTIPLIED_PRIVATE_KEY_PREFIX : St T (const_NO_EC_MULTIPLIED_PRIVATE_KEY_PREFIX H) (Src.const_NO_EC_MULTIPLIED_PRIVATE_KEY_PREFIX H) := st_silent (sim_const_NO_EC_MULTIPLIED_PRIVATE_KEY_PREFIX H) fun _ => rfl
macro_rules | `(tactic| st_known) => `(tactic| exact st_const_NO_EC_MULTIPLIED_PRIVATE_KEY_PREFIX _)

theorem st_const_EC_MULTIPLIED_PRIVATE_KEY_PREFIX : St T (const_EC_MULTIPLIED_PRIVATE_KEY_PREFIX H) (Src.const_EC_MULTIPLIED_PRIVATE_KEY_PREFIX H) := st_silent (sim_const_EC_MULTIPLIED_PRIVATE_KEY_PREFIX H) fun _ => rfl
macro_rules | `(tactic| st_known) => `(tactic| exact st_const_EC_MULTIPLIED_PRIVATE_KEY_PREFIX _)

theorem st_const_NO_EC_MULTIPLIED_WIF_FLAG : St T (const_NO_EC_MULTIPLIED_WIF_FLAG H) (Src.const_NO_EC_MULTIPLIED_WIF_FLAG H) := st_silent (sim_const_NO_EC_MULTIPLIED_WIF_FLAG H) fun _ => rfl
macro_rules | `(tactic| st_known) => `(tactic| exact st_const_NO_EC_MULTIPLIED_WIF_FLAG _)

theorem st_const_NO_EC_MULTIPLIED_WIF_COMPRESSED_FLAG : St T (const_NO_EC_MULTIPLIED_WIF_COMPRESSED_FLAG H) (Src.const_NO_EC_MULTIPLIED_WIF_COMPRESSED_FLAG H) := st_silent (sim_const_NO_EC_MULTIPLIED_WIF_COMPRESSED_FLAG H) fun _ => rfl
macro_rules | `(tactic| st_known) => `(tactic| exact st_const_NO_EC_MULTIPLIED_WIF_COMPRESSED_FLAG _)

theorem st_const_MAGIC_LOT_AND_SEQUENCE : St T (const_MAGIC_LOT_AND_SEQUENCE H) (Src.const_MAGIC_LOT_AND_SEQUENCE H) := st_silent (sim_const_MAGIC_LOT_AND_SEQUENCE H) fun _ => rfl
macro_rules | `(tactic| st_known) => `(tactic| exact st_const_MAGIC_LOT_AND_SEQUENCE _)

theorem st_const_MAGIC_NO_LOT_AND_SEQUENCE : St T (const_MAGIC_NO_LOT_AND_SEQUENCE H) (Src.const_MAGIC_NO_LOT_AND_SEQUENCE H) := st_silent (sim_const_MAGIC_NO_LOT_AND_SEQUENCE H) fun _ => rfl
macro_rules | `(tactic| st_known) => `(tactic| exact st_const_MAGIC_NO_LOT_AND_SEQUENCE _)

theorem st_const_MAGIC_LOT_AND_SEQUENCE_UNCOMPRESSED_FLAG : St T (const_MAGIC_LOT_AND_SEQUENCE_UNCOMPRESSED_FLAG H) (Src.const_MAGIC_LOT_AND_SEQUENCE_UNCOMPRESSED_FLAG H) := st_silent (sim_const_MAGIC_LOT_AND_SEQUENCE_UNCOMPRESSED_FLAG H) fun _ => rfl
macro_rules | `(tactic| st_known) => `(tactic| exact st_const_MAGIC_LOT_AND_SEQUENCE_UNCOMPRESSED_FLAG _)

theorem st_const_MAGIC_LOT_AND_SEQUENCE_COMPRESSED_FLAG : St T (const_MAGIC_LOT_AND_SEQUENCE_COMPRESSED_FLAG H) (Src.const_MAGIC_LOT_AND_SEQUENCE_COMPRESSED_FLAG H) := st_silent (sim_const_MAGIC_LOT_AND_SEQUENCE_COMPRESSED_FLAG H) fun _ => rfl
macro_rules | `(tactic| st_known) => `(tactic| exact st_const_MAGIC_LOT_AND_SEQUENCE_COMPRESSED_FLAG _)

theorem st_const_MAGIC_NO_LOT_AND_SEQUENCE_UNCOMPRESSED_FLAG : St T (const_MAGIC_NO_LOT_AND_SEQUENCE_UNCOMPRESSED_FLAG H) (Src.const_MAGIC_NO_LOT_AND_SEQUENCE_UNCOMPRESSED_FLAG H) := st_silent (sim_const_MAGIC_NO_LOT_AND_SEQUENCE_UNCOMPRESSED_FLAG H) fun _ => rfl
macro_rules | `(tactic| st_known) => `(tactic| exact st_const_MAGIC_NO_LOT_AND_SEQUENCE_UNCOMPRESSED_FLAG _)

theorem st_const_MAGIC_NO_LOT_AND_SEQUENCE_COMPRESSED_FLAG : St T (const_MAGIC_NO_LOT_AND_SEQUENCE_COMPRESSED_FLAG H) (Src.const_MAGIC_NO_LOT_AND_SEQUENCE_COMPRESSED_FLAG H) := st_silent (sim_const_MAGIC_NO_LOT_AND_SEQUENCE_COMPRESSED_FLAG H) fun _ => rfl
macro_rules | `(tactic| st_known) => `(tactic| exact st_const_MAGIC_NO_LOT_AND_SEQUENCE_COMPRESSED_FLAG _)

theorem st_const_CONFIRMATION_CODE_PREFIX : St T (const_CONFIRMATION_CODE_PREFIX H) (Src.const_CONFIRMATION_CODE_PREFIX H) := st_silent (sim_const_CONFIRMATION_CODE_PREFIX H) fun _ => rfl
macro_rules | `(tactic| st_known) => `(tactic| exact st_const_CONFIRMATION_CODE_PREFIX _)

theorem st_const_N : St T (const_N H) (Src.const_N H) := st_silent (sim_const_N H) fun _ => rfl
macro_rules | `(tactic| st_known) => `(tactic| exact st_const_N _)

theorem st_const_COORDINATE_POINT_LENGTH : St T (const_COORDINATE_POINT_LENGTH H) (Src.const_COORDINATE_POINT_LENGTH H) := st_silent (sim_const_COORDINATE_POINT_LENGTH H) fun _ => rfl
macro_rules | `(tactic| st_known) => `(tactic| exact st_const_COORDINATE_POINT_LENGTH _)

theorem st_const_PRIVATE_KEY_LENGTH : St T (const_PRIVATE_KEY_LENGTH H) (Src.const_PRIVATE_KEY_LENGTH H) := st_silent (sim_const_PRIVATE_KEY_LENGTH H) fun _ => rfl
macro_rules | `(tactic| st_known) => `(tactic| exact st_const_PRIVATE_KEY_LENGTH _)

theorem st_const_UNCOMPRESSED_PRIVATE_KEY_PREFIX : St T (const_UNCOMPRESSED_PRIVATE_KEY_PREFIX H) (Src.const_UNCOMPRESSED_PRIVATE_KEY_PREFIX H) := st_silent (sim_const_UNCOMPRESSED_PRIVATE_KEY_PREFIX H) fun _ => rfl
macro_rules | `(tactic| st_known) => `(tactic| exact st_const_UNCOMPRESSED_PRIVATE_KEY_PREFIX _)

theorem st_const_COMPRESSED_PRIVATE_KEY_PREFIX : St T (const_COMPRESSED_PRIVATE_KEY_PREFIX H) (Src.const_COMPRESSED_PRIVATE_KEY_PREFIX H) := st_silent (sim_const_COMPRESSED_PRIVATE_KEY_PREFIX H) fun _ => rfl
macro_rules | `(tactic| st_known) => `(tactic| exact st_const_COMPRESSED_PRIVATE_KEY_PREFIX _)

theorem st_const_COMPRESSED_PUBLIC_KEY_LENGTH : St T (const_COMPRESSED_PUBLIC_KEY_LENGTH H) (Src.const_COMPRESSED_PUBLIC_KEY_LENGTH H) := st_silent (sim_const_COMPRESSED_PUBLIC_KEY_LENGTH H) fun _ => rfl
macro_rules | `(tactic| st_known) => `(tactic| exact st_const_COMPRESSED_PUBLIC_KEY_LENGTH _)

theorem st_const_UNCOMPRESSED_PUBLIC_KEY_LENGTH : St T (const_UNCOMPRESSED_PUBLIC_KEY_LENGTH H) (Src.const_UNCOMPRESSED_PUBLIC_KEY_LENGTH H) := st_silent (sim_const_UNCOMPRESSED_PUBLIC_KEY_LENGTH H) fun _ => rfl
macro_rules | `(tactic| st_known) => `(tactic| exact st_const_UNCOMPRESSED_PUBLIC_KEY_LENGTH _)

theorem st_const_EVEN_COMPRESSED_PUBLIC_KEY_PREFIX : St T (const_EVEN_COMPRESSED_PUBLIC_KEY_PREFIX H) (Src.const_EVEN_COMPRESSED_PUBLIC_KEY_PREFIX H) := st_silent (sim_const_EVEN_COMPRESSED_PUBLIC_KEY_PREFIX H) fun _ => rfl
macro_rules | `(tactic| st_known) => `(tactic| exact st_const_EVEN_COMPRESSED_PUBLIC_KEY_PREFIX _)

theorem st_const_ODD_COMPRESSED_PUBLIC_KEY_PREFIX : St T (const_ODD_COMPRESSED_PUBLIC_KEY_PREFIX H) (Src.const_ODD_COMPRESSED_PUBLIC_KEY_PREFIX H) := st_silent (sim_const_ODD_COMPRESSED_PUBLIC_KEY_PREFIX H) fun _ => rfl
macro_rules | `(tactic| st_known) => `(tactic| exact st_const_ODD_COMPRESSED_PUBLIC_KEY_PREFIX _)

theorem st_const_UNCOMPRESSED_PUBLIC_KEY_PREFIX : St T (const_UNCOMPRESSED_PUBLIC_KEY_PREFIX H) (Src.const_UNCOMPRESSED_PUBLIC_KEY_PREFIX H) := st_silent (sim_const_UNCOMPRESSED_PUBLIC_KEY_PREFIX H) fun _ => rfl
macro_rules | `(tactic| st_known) => `(tactic| exact st_const_UNCOMPRESSED_PUBLIC_KEY_PREFIX _)

theorem st_const_CHECKSUM_BYTE_LENGTH : St T (const_CHECKSUM_BYTE_LENGTH H) (Src.const_CHECKSUM_BYTE_LENGTH H) := st_silent (sim_const_CHECKSUM_BYTE_LENGTH H) fun _ => rfl
macro_rules | `(tactic| st_known) => `(tactic| exact st_const_CHECKSUM_BYTE_LENGTH _)

theorem st_const_WIF_TYPES : St T (const_WIF_TYPES H) (Src.const_WIF_TYPES H) := st_silent (sim_const_WIF_TYPES H) fun _ => rfl
macro_rules | `(tactic| st_known) => `(tactic| exact st_const_WIF_TYPES _)

theorem st_const_PUBLIC_KEY_TYPES : St T (const_PUBLIC_KEY_TYPES H) (Src.const_PUBLIC_KEY_TYPES H) := st_silent (sim_const_PUBLIC_KEY_TYPES H) fun _ => rfl
macro_rules | `(tactic| st_known) => `(tactic| exact st_const_PUBLIC_KEY_TYPES _)

theorem st_const_FLAGS : St T (const_FLAGS H) (Src.const_FLAGS H) := st_silent (sim_const_FLAGS H) fun _ => rfl
macro_rules | `(tactic| st_known) => `(tactic| exact st_const_FLAGS _)

theorem st_utils_get_bytes : StF T (utils_get_bytes H) (Src.utils_get_bytes H) := stF_silent (sim_utils_get_bytes H) (by intro k; cases k <;> rfl)
macro_rules | `(tactic| st_known) => `(tactic| exact st_utils_get_bytes _)

theorem st_utils_bytes_reverse : StF T (utils_bytes_reverse H) (Src.utils_bytes_reverse H) := stF_silent (sim_utils_bytes_reverse H) (by intro k; cases k <;> rfl)
macro_rules | `(tactic| st_known) => `(tactic| exact st_utils_bytes_reverse _)

theorem st_utils_bytes_to_string : StF T (utils_bytes_to_string H) (Src.utils_bytes_to_string H) := stF_silent (sim_utils_bytes_to_string H) (by intro k; cases k <;> rfl)
macro_rules | `(tactic| st_known) => `(tactic| exact st_utils_bytes_to_string _)

theorem st_utils_bytes_to_integer : StF T (utils_bytes_to_integer H) (Src.utils_bytes_to_integer H) := stF_silent (sim_utils_bytes_to_integer H) (by intro k; cases k <;> rfl)
macro_rules | `(tactic| st_known) => `(tactic| exact st_utils_bytes_to_integer _)

theorem st_utils_integer_to_bytes : StF T (utils_integer_to_bytes H) (Src.utils_integer_to_bytes H) := by
  delta SrcX.utils_integer_to_bytes Src.utils_integer_to_bytes SrcX.utils_integer_to_bytes_L114 Src.utils_integer_to_bytes_L114 SrcX.utils_integer_to_bytes_L115 Src.utils_integer_to_bytes_L115
  refine st_defun (I := []) _ ?_ ?_ rfl
  all_goals repeat' st_rule
macro_rules | `(tactic| st_known) => `(tactic| exact st_utils_integer_to_bytes _)

theorem st_base58_base58_alphabet : St T (base58_base58_alphabet H) (Src.base58_base58_alphabet H) := st_silent (sim_base58_base58_alphabet H) fun _ => rfl
macro_rules | `(tactic| st_known) => `(tactic| exact st_base58_base58_alphabet _)

theorem st_base58_string_to_int : StF T (base58_string_to_int H) (Src.base58_string_to_int H) := stF_silent (sim_base58_string_to_int H) (by intro k; cases k <;> rfl)
macro_rules | `(tactic| st_known) => `(tactic| exact st_base58_string_to_int _)

theorem st_base58_ensure_string : StF T (base58_ensure_string H) (Src.base58_ensure_string H) := stF_silent (sim_base58_ensure_string H) (by intro k; cases k <;> rfl)
macro_rules | `(tactic| st_known) => `(tactic| exact st_base58_ensure_string _)

theorem st_base58_encode : StF T (base58_encode H) (Src.base58_encode H) := stF_silent (sim_base58_encode H) (by intro k; cases k <;> rfl)
macro_rules | `(tactic| st_known) => `(tactic| exact st_base58_encode _)

theorem st_base58_check_encode : StF T (base58_check_encode H) (Src.base58_check_encode H) := by
  delta SrcX.base58_check_encode Src.base58_check_encode SrcX.base58_check_encode_L43 Src.base58_check_encode_L43 SrcX.base58_check_encode_L44 Src.base58_check_encode_L44
  refine st_defun (I := []) _ ?_ ?_ rfl
  all_goals repeat' st_rule
macro_rules | `(tactic| st_known) => `(tactic| exact st_base58_check_encode _)

theorem st_base58_decode : StF T (base58_decode H) (Src.base58_decode H) := stF_silent (sim_base58_decode H) (by intro k; cases k <;> rfl)
macro_rules | `(tactic| st_known) => `(tactic| exact st_base58_decode _)

theorem st_base58_check_decode : StF T (base58_check_decode H) (Src.base58_check_decode H) := by
  delta SrcX.base58_check_decode Src.base58_check_decode SrcX.base58_check_decode_L69 Src.base58_check_decode_L69 SrcX.base58_check_decode_L70 Src.base58_check_decode_L70 SrcX.base58_check_decode_L71 Src.base58_check_decode_L71 SrcX.base58_check_decode_L72 Src.base58_check_decode_L72 SrcX.base58_check_decode_L74 Src.base58_check_decode_L74
  refine st_defun (I := []) _ ?_ ?_ rfl
  all_goals repeat' st_rule
macro_rules | `(tactic| st_known) => `(tactic| exact st_base58_check_decode _)

theorem st_ripemd160_ML : St T (ripemd160_ML H) (Src.ripemd160_ML H) := st_silent (sim_ripemd160_ML H) fun _ => rfl
macro_rules | `(tactic| st_known) => `(tactic| exact st_ripemd160_ML _)

theorem st_ripemd160_MR : St T (ripemd160_MR H) (Src.ripemd160_MR H) := st_silent (sim_ripemd160_MR H) fun _ => rfl
macro_rules | `(tactic| st_known) => `(tactic| exact st_ripemd160_MR _)

theorem st_ripemd160_RL : St T (ripemd160_RL H) (Src.ripemd160_RL H) := st_silent (sim_ripemd160_RL H) fun _ => rfl
macro_rules | `(tactic| st_known) => `(tactic| exact st_ripemd160_RL _)

theorem st_ripemd160_RR : St T (ripemd160_RR H) (Src.ripemd160_RR H) := st_silent (sim_ripemd160_RR H) fun _ => rfl
macro_rules | `(tactic| st_known) => `(tactic| exact st_ripemd160_RR _)

theorem st_ripemd160_KL : St T (ripemd160_KL H) (Src.ripemd160_KL H) := st_silent (sim_ripemd160_KL H) fun _ => rfl
macro_rules | `(tactic| st_known) => `(tactic| exact st_ripemd160_KL _)

theorem st_ripemd160_KR : St T (ripemd160_KR H) (Src.ripemd160_KR H) := st_silent (sim_ripemd160_KR H) fun _ => rfl
macro_rules | `(tactic| st_known) => `(tactic| exact st_ripemd160_KR _)

theorem st_ripemd160_fi : StF T (ripemd160_fi H) (Src.ripemd160_fi H) := stF_silent (sim_ripemd160_fi H) (by intro k; cases k <;> rfl)
macro_rules | `(tactic| st_known) => `(tactic| exact st_ripemd160_fi _)

theorem st_ripemd160_rol : StF T (ripemd160_rol H) (Src.ripemd160_rol H) := stF_silent (sim_ripemd160_rol H) (by intro k; cases k <;> rfl)
macro_rules | `(tactic| st_known) => `(tactic| exact st_ripemd160_rol _)

theorem st_ripemd160_compress : StF T (ripemd160_compress H) (Src.ripemd160_compress H) := stF_silent (sim_ripemd160_compress H) (by intro k; cases k <;> rfl)
macro_rules | `(tactic| st_known) => `(tactic| exact st_ripemd160_compress _)

theorem st_ripemd160_ripemd160 : StF T (ripemd160_ripemd160 H) (Src.ripemd160_ripemd160 H) := stF_silent (sim_ripemd160_ripemd160 H) (by intro k; cases k <;> rfl)
macro_rules | `(tactic| st_known) => `(tactic| exact st_ripemd160_ripemd160 _)

theorem st_crypto_ripemd160 : StF T (crypto_ripemd160 H) (Src.crypto_ripemd160 H) := by
  delta SrcX.crypto_ripemd160 Src.crypto_ripemd160 SrcX.crypto_ripemd160_L27 Src.crypto_ripemd160_L27
  refine st_defun (I := []) _ ?_ ?_ rfl
  all_goals repeat' st_rule
macro_rules | `(tactic| st_known) => `(tactic| exact st_crypto_ripemd160 _)

theorem st_crypto_sha256 : StF T (crypto_sha256 H) (Src.crypto_sha256 H) := by
  delta SrcX.crypto_sha256 Src.crypto_sha256 SrcX.crypto_sha256_L45 Src.crypto_sha256_L45
  refine st_defun (I := []) _ ?_ ?_ rfl
  all_goals repeat' st_rule
macro_rules | `(tactic| st_known) => `(tactic| exact st_crypto_sha256 _)

theorem st_crypto_double_sha256 : StF T (crypto_double_sha256 H) (Src.crypto_double_sha256 H) := by
  delta SrcX.crypto_double_sha256 Src.crypto_double_sha256 SrcX.crypto_double_sha256_L59 Src.crypto_double_sha256_L59
  refine st_defun (I := []) _ ?_ ?_ rfl
  all_goals repeat' st_rule
macro_rules | `(tactic| st_known) => `(tactic| exact st_crypto_double_sha256 _)

theorem st_crypto_get_checksum : StF T (crypto_get_checksum H) (Src.crypto_get_checksum H) := by
  delta SrcX.crypto_get_checksum Src.crypto_get_checksum SrcX.crypto_get_checksum_L76 Src.crypto_get_checksum_L76
  refine st_defun (I := []) _ ?_ ?_ rfl
  all_goals repeat' st_rule
macro_rules | `(tactic| st_known) => `(tactic| exact st_crypto_get_checksum _)

theorem st_crypto_hash160 : StF T (crypto_hash160 H) (Src.crypto_hash160 H) := by
  delta SrcX.crypto_hash160 Src.crypto_hash160 SrcX.crypto_hash160_L90 Src.crypto_hash160_L90
  refine st_defun (I := []) _ ?_ ?_ rfl
  all_goals repeat' st_rule
macro_rules | `(tactic| st_known) => `(tactic| exact st_crypto_hash160 _)

theorem st_Point_init : StF T (Point_init H) (Src.Point_init H) := stF_silent (sim_Point_init H) (by intro k; cases k <;> rfl)
macro_rules | `(tactic| st_known) => `(tactic| exact st_Point_init _)

theorem st_Point_from_coordinates : StF T (Point_from_coordinates H) (Src.Point_from_coordinates H) := by
  delta SrcX.Point_from_coordinates Src.Point_from_coordinates SrcX.Point_from_coordinates_L74 Src.Point_from_coordinates_L74
  refine st_defun (I := []) _ ?_ ?_ rfl
  all_goals repeat' st_rule
macro_rules | `(tactic| st_known) => `(tactic| exact st_Point_from_coordinates _)

theorem st_Point_from_bytes_L46 (hT : Covers T [.pointBytes]) (hO : NoOld T) : StS T [] (Point_from_bytes_L46 H) (Src.Point_from_bytes_L46 H) := by
  delta SrcX.Point_from_bytes_L46 Src.Point_from_bytes_L46 SrcX.Point_from_bytes_L47 Src.Point_from_bytes_L47 SrcX.Point_from_bytes_L53 Src.Point_from_bytes_L53 SrcX.Point_from_bytes_L55 Src.Point_from_bytes_L55
  apply st_try_rule_old .pointBytes hT hO (K := bounds)
  case h =>
    repeat' st_rule
  case hs =>
    apply sim_block
    repeat' sim_rule
  case hk =>
    intro k; cases k <;> decide
  case hc =>
    intro k; simp [Catch.matches, Rule.catches]
  case hm =>
    apply sim_block
    repeat' sim_rule
  case hm0 =>
    intro k; cases k <;> rfl
  case hb =>
    repeat' st_rule
  case hg =>
    exact raises_msg H _ rfl _
  case hb' =>
    repeat' st_rule
macro_rules | `(tactic| st_known) => `(tactic| exact st_Point_from_bytes_L46 _ (covers_sub (by assumption) (by decide)) (by assumption))

theorem st_Point_from_bytes (hT : Covers T [.pointBytes]) (hO : NoOld T) : StF T (Point_from_bytes H) (Src.Point_from_bytes H) := by
  delta SrcX.Point_from_bytes Src.Point_from_bytes
  refine st_defun (I := []) _ ?_ ?_ rfl
  all_goals repeat' st_rule
macro_rules | `(tactic| st_known) => `(tactic| exact st_Point_from_bytes _ (covers_sub (by assumption) (by decide)) (by assumption))

theorem st_Point_underlying_object : StF T (Point_underlying_object H) (Src.Point_underlying_object H) := stF_silent (sim_Point_underlying_object H) (by intro k; cases k <;> rfl)
macro_rules | `(tactic| st_known) => `(tactic| exact st_Point_underlying_object _)

theorem st_Point_x : StF T (Point_x H) (Src.Point_x H) := by
  delta SrcX.Point_x Src.Point_x SrcX.Point_x_L98 Src.Point_x_L98
  refine st_defun (I := []) _ ?_ ?_ rfl
  all_goals repeat' st_rule
macro_rules | `(tactic| st_known) => `(tactic| exact st_Point_x _)

theorem st_Point_y : StF T (Point_y H) (Src.Point_y H) := by
  delta SrcX.Point_y Src.Point_y SrcX.Point_y_L108 Src.Point_y_L108
  refine st_defun (I := []) _ ?_ ?_ rfl
  all_goals repeat' st_rule
macro_rules | `(tactic| st_known) => `(tactic| exact st_Point_y _)

theorem st_Point_raw_encoded_L128 (hO : NoOld T) : StS T [] (Point_raw_encoded_L128 H) (Src.Point_raw_encoded_L128 H) := by
  delta SrcX.Point_raw_encoded_L128 Src.Point_raw_encoded_L128 SrcX.Point_raw_encoded_L129 Src.Point_raw_encoded_L129 SrcX.Point_raw_encoded_L131 Src.Point_raw_encoded_L131 SrcX.Point_raw_encoded_L134 Src.Point_raw_encoded_L134
  apply st_try_old hO (K := bounds)
  case h =>
    repeat' st_rule
  case hs =>
    apply sim_block
    repeat' sim_rule
  case hk =>
    intro k; cases k <;> decide
  case hb =>
    repeat' st_rule
macro_rules | `(tactic| st_known) => `(tactic| exact st_Point_raw_encoded_L128 _ (by assumption))

theorem st_Point_raw_encoded (hO : NoOld T) : StF T (Point_raw_encoded H) (Src.Point_raw_encoded H) := by
  delta SrcX.Point_raw_encoded Src.Point_raw_encoded
  refine st_defun (I := []) _ ?_ ?_ rfl
  all_goals repeat' st_rule
macro_rules | `(tactic| st_known) => `(tactic| exact st_Point_raw_encoded _ (by assumption))

theorem st_Point_raw_decoded_L144 (hO : NoOld T) : StS T [] (Point_raw_decoded_L144 H) (Src.Point_raw_decoded_L144 H) := by
  delta SrcX.Point_raw_decoded_L144 Src.Point_raw_decoded_L144 SrcX.Point_raw_decoded_L145 Src.Point_raw_decoded_L145 SrcX.Point_raw_decoded_L147 Src.Point_raw_decoded_L147 SrcX.Point_raw_decoded_L150 Src.Point_raw_decoded_L150 SrcX.Point_raw_decoded_L153 Src.Point_raw_decoded_L153
  apply st_try_old hO (K := bounds)
  case h =>
    repeat' st_rule
  case hs =>
    apply sim_block
    repeat' sim_rule
  case hk =>
    intro k; cases k <;> decide
  case hb =>
    repeat' st_rule
macro_rules | `(tactic| st_known) => `(tactic| exact st_Point_raw_decoded_L144 _ (by assumption))

theorem st_Point_raw_decoded (hO : NoOld T) : StF T (Point_raw_decoded H) (Src.Point_raw_decoded H) := by
  delta SrcX.Point_raw_decoded Src.Point_raw_decoded
  refine st_defun (I := []) _ ?_ ?_ rfl
  all_goals repeat' st_rule
macro_rules | `(tactic| st_known) => `(tactic| exact st_Point_raw_decoded _ (by assumption))

theorem st_Point_raw (hO : NoOld T) : StF T (Point_raw H) (Src.Point_raw H) := by
  delta SrcX.Point_raw Src.Point_raw SrcX.Point_raw_L118 Src.Point_raw_L118
  refine st_defun (I := []) _ ?_ ?_ rfl
  all_goals repeat' st_rule
macro_rules | `(tactic| st_known) => `(tactic| exact st_Point_raw _ (by assumption))

theorem st_Point_add : StF T (Point_add H) (Src.Point_add H) := stF_silent (sim_Point_add H) (by intro k; cases k <;> rfl)
macro_rules | `(tactic| st_known) => `(tactic| exact st_Point_add _)

theorem st_Point_radd : StF T (Point_radd H) (Src.Point_radd H) := stF_silent (sim_Point_radd H) (by intro k; cases k <;> rfl)
macro_rules | `(tactic| st_known) => `(tactic| exact st_Point_radd _)

theorem st_Point_mul : StF T (Point_mul H) (Src.Point_mul H) := stF_silent (sim_Point_mul H) (by intro k; cases k <;> rfl)
macro_rules | `(tactic| st_known) => `(tactic| exact st_Point_mul _)

theorem st_Point_rmul : StF T (Point_rmul H) (Src.Point_rmul H) := stF_silent (sim_Point_rmul H) (by intro k; cases k <;> rfl)
macro_rules | `(tactic| st_known) => `(tactic| exact st_Point_rmul _)

theorem st_PublicKey_init : StF T (PublicKey_init H) (Src.PublicKey_init H) := stF_silent (sim_PublicKey_init H) (by intro k; cases k <;> rfl)
macro_rules | `(tactic| st_known) => `(tactic| exact st_PublicKey_init _)

theorem st_PublicKey_from_bytes_L47 (hT : Covers T [.publicBytes]) : StS T [] (PublicKey_from_bytes_L47 H) (Src.PublicKey_from_bytes_L47 H) := by
  delta SrcX.PublicKey_from_bytes_L47 Src.PublicKey_from_bytes_L47 SrcX.PublicKey_from_bytes_L48 Src.PublicKey_from_bytes_L48 SrcX.PublicKey_from_bytes_L54 Src.PublicKey_from_bytes_L54
  apply st_try_rule .publicBytes hT (K := bounds)
  case h =>
    repeat' st_rule
  case hs =>
    apply sim_block
    repeat' sim_rule
  case hk =>
    intro k; cases k <;> decide
  case hc =>
    intro k; simp [Catch.matches, Rule.catches]
  case hm =>
    apply sim_block
    repeat' sim_rule
  case hm0 =>
    intro k; cases k <;> rfl
  case hb =>
    repeat' st_rule
  case hg =>
    exact raises_msg H _ rfl _
macro_rules | `(tactic| st_known) => `(tactic| exact st_PublicKey_from_bytes_L47 _ (covers_sub (by assumption) (by decide)))

theorem st_PublicKey_from_bytes (hT : Covers T [.publicBytes]) : StF T (PublicKey_from_bytes H) (Src.PublicKey_from_bytes H) := by
  delta SrcX.PublicKey_from_bytes Src.PublicKey_from_bytes
  refine st_defun (I := []) _ ?_ ?_ rfl
  all_goals repeat' st_rule
macro_rules | `(tactic| st_known) => `(tactic| exact st_PublicKey_from_bytes _ (covers_sub (by assumption) (by decide)))

theorem st_PublicKey_from_point_L68 (hT : Covers T [.publicPoint]) : StS T [] (PublicKey_from_point_L68 H) (Src.PublicKey_from_point_L68 H) := by
  delta SrcX.PublicKey_from_point_L68 Src.PublicKey_from_point_L68 SrcX.PublicKey_from_point_L69 Src.PublicKey_from_point_L69 SrcX.PublicKey_from_point_L78 Src.PublicKey_from_point_L78
  apply st_try_rule .publicPoint hT (K := bounds)
  case h =>
    repeat' st_rule
  case hs =>
    apply sim_block
    repeat' sim_rule
  case hk =>
    intro k; cases k <;> decide
  case hc =>
    intro k; simp [Catch.matches, Rule.catches]
  case hm =>
    apply sim_block
    repeat' sim_rule
  case hm0 =>
    intro k; cases k <;> rfl
  case hb =>
    repeat' st_rule
  case hg =>
    exact raises_msg H _ rfl _
macro_rules | `(tactic| st_known) => `(tactic| exact st_PublicKey_from_point_L68 _ (covers_sub (by assumption) (by decide)))

theorem st_PublicKey_from_point (hT : Covers T [.publicPoint]) : StF T (PublicKey_from_point H) (Src.PublicKey_from_point H) := by
  delta SrcX.PublicKey_from_point Src.PublicKey_from_point
  refine st_defun (I := []) _ ?_ ?_ rfl
  all_goals repeat' st_rule
macro_rules | `(tactic| st_known) => `(tactic| exact st_PublicKey_from_point _ (covers_sub (by assumption) (by decide)))

theorem st_PublicKey_compressed_length : StF T (PublicKey_compressed_length H) (Src.PublicKey_compressed_length H) := stF_silent (sim_PublicKey_compressed_length H) (by intro k; cases k <;> rfl)
macro_rules | `(tactic| st_known) => `(tactic| exact st_PublicKey_compressed_length _)

theorem st_PublicKey_uncompressed_length : StF T (PublicKey_uncompressed_length H) (Src.PublicKey_uncompressed_length H) := stF_silent (sim_PublicKey_uncompressed_length H) (by intro k; cases k <;> rfl)
macro_rules | `(tactic| st_known) => `(tactic| exact st_PublicKey_uncompressed_length _)

theorem st_PublicKey_underlying_object : StF T (PublicKey_underlying_object H) (Src.PublicKey_underlying_object H) := stF_silent (sim_PublicKey_underlying_object H) (by intro k; cases k <;> rfl)
macro_rules | `(tactic| st_known) => `(tactic| exact st_PublicKey_underlying_object _)

theorem st_PublicKey_raw_compressed : StF T (PublicKey_raw_compressed H) (Src.PublicKey_raw_compressed H) := by
  delta SrcX.PublicKey_raw_compressed Src.PublicKey_raw_compressed SrcX.PublicKey_raw_compressed_L130 Src.PublicKey_raw_compressed_L130
  refine st_defun (I := []) _ ?_ ?_ rfl
  all_goals repeat' st_rule
macro_rules | `(tactic| st_known) => `(tactic| exact st_PublicKey_raw_compressed _)

theorem st_PublicKey_raw_uncompressed : StF T (PublicKey_raw_uncompressed H) (Src.PublicKey_raw_uncompressed H) := by
  delta SrcX.PublicKey_raw_uncompressed Src.PublicKey_raw_uncompressed SrcX.PublicKey_raw_uncompressed_L140 Src.PublicKey_raw_uncompressed_L140
  refine st_defun (I := []) _ ?_ ?_ rfl
  all_goals repeat' st_rule
macro_rules | `(tactic| st_known) => `(tactic| exact st_PublicKey_raw_uncompressed _)

theorem st_PublicKey_raw : StF T (PublicKey_raw H) (Src.PublicKey_raw H) := by
  delta SrcX.PublicKey_raw Src.PublicKey_raw SrcX.PublicKey_raw_L120 Src.PublicKey_raw_L120
  refine st_defun (I := []) _ ?_ ?_ rfl
  all_goals repeat' st_rule
macro_rules | `(tactic| st_known) => `(tactic| exact st_PublicKey_raw _)

theorem st_PublicKey_point : StF T (PublicKey_point H) (Src.PublicKey_point H) := stF_silent (sim_PublicKey_point H) (by intro k; cases k <;> rfl)
macro_rules | `(tactic| st_known) => `(tactic| exact st_PublicKey_point _)

theorem st_PrivateKey_init : StF T (PrivateKey_init H) (Src.PrivateKey_init H) := stF_silent (sim_PrivateKey_init H) (by intro k; cases k <;> rfl)
macro_rules | `(tactic| st_known) => `(tactic| exact st_PrivateKey_init _)

theorem st_PrivateKey_from_bytes_L44 (hT : Covers T [.privateBytes]) : StS T [] (PrivateKey_from_bytes_L44 H) (Src.PrivateKey_from_bytes_L44 H) := by
  delta SrcX.PrivateKey_from_bytes_L44 Src.PrivateKey_from_bytes_L44 SrcX.PrivateKey_from_bytes_L45 Src.PrivateKey_from_bytes_L45 SrcX.PrivateKey_from_bytes_L51 Src.PrivateKey_from_bytes_L51
  apply st_try_rule .privateBytes hT (K := bounds)
  case h =>
    repeat' st_rule
  case hs =>
    apply sim_block
    repeat' sim_rule
  case hk =>
    intro k; cases k <;> decide
  case hc =>
    intro k; simp [Catch.matches, Rule.catches]
  case hm =>
    apply sim_block
    repeat' sim_rule
  case hm0 =>
    intro k; cases k <;> rfl
  case hb =>
    repeat' st_rule
  case hg =>
    exact raises_msg H _ rfl _
macro_rules | `(tactic| st_known) => `(tactic| exact st_PrivateKey_from_bytes_L44 _ (covers_sub (by assumption) (by decide)))

theorem st_PrivateKey_from_bytes (hT : Covers T [.privateBytes]) : StF T (PrivateKey_from_bytes H) (Src.PrivateKey_from_bytes H) := by
  delta SrcX.PrivateKey_from_bytes Src.PrivateKey_from_bytes
  refine st_defun (I := []) _ ?_ ?_ rfl
  all_goals repeat' st_rule
macro_rules | `(tactic| st_known) => `(tactic| exact st_PrivateKey_from_bytes _ (covers_sub (by assumption) (by decide)))

theorem st_PrivateKey_length : StF T (PrivateKey_length H) (Src.PrivateKey_length H) := stF_silent (sim_PrivateKey_length H) (by intro k; cases k <;> rfl)
macro_rules | `(tactic| st_known) => `(tactic| exact st_PrivateKey_length _)

theorem st_PrivateKey_underlying_object : StF T (PrivateKey_underlying_object H) (Src.PrivateKey_underlying_object H) := stF_silent (sim_PrivateKey_underlying_object H) (by intro k; cases k <;> rfl)
macro_rules | `(tactic| st_known) => `(tactic| exact st_PrivateKey_underlying_object _)

theorem st_PrivateKey_raw : StF T (PrivateKey_raw H) (Src.PrivateKey_raw H) := by
  delta SrcX.PrivateKey_raw Src.PrivateKey_raw SrcX.PrivateKey_raw_L82 Src.PrivateKey_raw_L82
  refine st_defun (I := []) _ ?_ ?_ rfl
  all_goals repeat' st_rule
macro_rules | `(tactic| st_known) => `(tactic| exact st_PrivateKey_raw _)

theorem st_PrivateKey_public_key : StF T (PrivateKey_public_key H) (Src.PrivateKey_public_key H) := by
  delta SrcX.PrivateKey_public_key Src.PrivateKey_public_key SrcX.PrivateKey_public_key_L92 Src.PrivateKey_public_key_L92
  refine st_defun (I := []) _ ?_ ?_ rfl
  all_goals repeat' st_rule
macro_rules | `(tactic| st_known) => `(tactic| exact st_PrivateKey_public_key _)

theorem st_wif_encode_wif : StF T (wif_encode_wif H) (Src.wif_encode_wif H) := by
  delta SrcX.wif_encode_wif Src.wif_encode_wif SrcX.wif_encode_wif_L44 Src.wif_encode_wif_L44 SrcX.wif_encode_wif_L45 Src.wif_encode_wif_L45 SrcX.wif_encode_wif_L47 Src.wif_encode_wif_L47 SrcX.wif_encode_wif_L50 Src.wif_encode_wif_L50 SrcX.wif_encode_wif_L53 Src.wif_encode_wif_L53
  refine st_defun (I := []) _ ?_ ?_ rfl
  all_goals repeat' st_rule
macro_rules | `(tactic| st_known) => `(tactic| exact st_wif_encode_wif _)

theorem st_wif_decode_wif : StF T (wif_decode_wif H) (Src.wif_decode_wif H) := by
  delta SrcX.wif_decode_wif Src.wif_decode_wif SrcX.wif_decode_wif_L74 Src.wif_decode_wif_L74 SrcX.wif_decode_wif_L75 Src.wif_decode_wif_L75 SrcX.wif_decode_wif_L76 Src.wif_decode_wif_L76 SrcX.wif_decode_wif_L78 Src.wif_decode_wif_L78 SrcX.wif_decode_wif_L79 Src.wif_decode_wif_L79 SrcX.wif_decode_wif_L80 Src.wif_decode_wif_L80 SrcX.wif_decode_wif_L81 Src.wif_decode_wif_L81 SrcX.wif_decode_wif_L83 Src.wif_decode_wif_L83 SrcX.wif_decode_wif_L84 Src.wif_decode_wif_L84 SrcX.wif_decode_wif_L85 Src.wif_decode_wif_L85 SrcX.wif_decode_wif_L86 Src.wif_decode_wif_L86 SrcX.wif_decode_wif_L88 Src.wif_decode_wif_L88 SrcX.wif_decode_wif_L89 Src.wif_decode_wif_L89 SrcX.wif_decode_wif_L90 Src.wif_decode_wif_L90 SrcX.wif_decode_wif_L91 Src.wif_decode_wif_L91 SrcX.wif_decode_wif_L92 Src.wif_decode_wif_L92 SrcX.wif_decode_wif_L94 Src.wif_decode_wif_L94
  refine st_defun (I := []) _ ?_ ?_ rfl
  all_goals repeat' st_rule
macro_rules | `(tactic| st_known) => `(tactic| exact st_wif_decode_wif _)

theorem st_wif_private_key_to_wif : StF T (wif_private_key_to_wif H) (Src.wif_private_key_to_wif H) := by
  delta SrcX.wif_private_key_to_wif Src.wif_private_key_to_wif SrcX.wif_private_key_to_wif_L119 Src.wif_private_key_to_wif_L119 SrcX.wif_private_key_to_wif_L120 Src.wif_private_key_to_wif_L120 SrcX.wif_private_key_to_wif_L121 Src.wif_private_key_to_wif_L121 SrcX.wif_private_key_to_wif_L124 Src.wif_private_key_to_wif_L124
  refine st_defun (I := []) _ ?_ ?_ rfl
  all_goals repeat' st_rule
macro_rules | `(tactic| st_known) => `(tactic| exact st_wif_private_key_to_wif _)

theorem st_wif_wif_to_private_key : StF T (wif_wif_to_private_key H) (Src.wif_wif_to_private_key H) := by
  delta SrcX.wif_wif_to_private_key Src.wif_wif_to_private_key SrcX.wif_wif_to_private_key_L144 Src.wif_wif_to_private_key_L144
  refine st_defun (I := []) _ ?_ ?_ rfl
  all_goals repeat' st_rule
macro_rules | `(tactic| st_known) => `(tactic| exact st_wif_wif_to_private_key _)

theorem st_wif_get_wif_type : StF T (wif_get_wif_type H) (Src.wif_get_wif_type H) := by
  delta SrcX.wif_get_wif_type Src.wif_get_wif_type SrcX.wif_get_wif_type_L166 Src.wif_get_wif_type_L166
  refine st_defun (I := []) _ ?_ ?_ rfl
  all_goals repeat' st_rule
macro_rules | `(tactic| st_known) => `(tactic| exact st_wif_get_wif_type _)

theorem st_wif_get_wif_checksum : StF T (wif_get_wif_checksum H) (Src.wif_get_wif_checksum H) := by
  delta SrcX.wif_get_wif_checksum Src.wif_get_wif_checksum SrcX.wif_get_wif_checksum_L188 Src.wif_get_wif_checksum_L188
  refine st_defun (I := []) _ ?_ ?_ rfl
  all_goals repeat' st_rule
macro_rules | `(tactic| st_known) => `(tactic| exact st_wif_get_wif_checksum _)

theorem st_P2PKHAddress_address_prefix : St T (P2PKHAddress_address_prefix H) (Src.P2PKHAddress_address_prefix H) := st_silent (sim_P2PKHAddress_address_prefix H) fun _ => rfl
macro_rules | `(tactic| st_known) => `(tactic| exact st_P2PKHAddress_address_prefix _)

theorem st_P2PKHAddress_alphabet : St T (P2PKHAddress_alphabet H) (Src.P2PKHAddress_alphabet H) := st_silent (sim_P2PKHAddress_alphabet H) fun _ => rfl
macro_rules | `(tactic| st_known) => `(tactic| exact st_P2PKHAddress_alphabet _)

theorem st_P2PKHAddress_encode (hT : Covers T [.publicBytes]) : StF T (P2PKHAddress_encode H) (Src.P2PKHAddress_encode H) := by
  delta SrcX.P2PKHAddress_encode Src.P2PKHAddress_encode SrcX.P2PKHAddress_encode_L45 Src.P2PKHAddress_encode_L45 SrcX.P2PKHAddress_encode_L49 Src.P2PKHAddress_encode_L49 SrcX.P2PKHAddress_encode_L50 Src.P2PKHAddress_encode_L50 SrcX.P2PKHAddress_encode_L52 Src.P2PKHAddress_encode_L52 SrcX.P2PKHAddress_encode_L58 Src.P2PKHAddress_encode_L58
  refine st_defun (I := []) _ ?_ ?_ rfl
  all_goals repeat' st_rule
macro_rules | `(tactic| st_known) => `(tactic| exact st_P2PKHAddress_encode _ (covers_sub (by assumption) (by decide)))

theorem st_P2PKHAddress_decode : StF T (P2PKHAddress_decode H) (Src.P2PKHAddress_decode H) := by
  delta SrcX.P2PKHAddress_decode Src.P2PKHAddress_decode SrcX.P2PKHAddress_decode_L80 Src.P2PKHAddress_decode_L80 SrcX.P2PKHAddress_decode_L83 Src.P2PKHAddress_decode_L83 SrcX.P2PKHAddress_decode_L89 Src.P2PKHAddress_decode_L89 SrcX.P2PKHAddress_decode_L90 Src.P2PKHAddress_decode_L90 SrcX.P2PKHAddress_decode_L91 Src.P2PKHAddress_decode_L91 SrcX.P2PKHAddress_decode_L93 Src.P2PKHAddress_decode_L93 SrcX.P2PKHAddress_decode_L94 Src.P2PKHAddress_decode_L94 SrcX.P2PKHAddress_decode_L95 Src.P2PKHAddress_decode_L95 SrcX.P2PKHAddress_decode_L97 Src.P2PKHAddress_decode_L97
  refine st_defun (I := []) _ ?_ ?_ rfl
  all_goals repeat' st_rule
macro_rules | `(tactic| st_known) => `(tactic| exact st_P2PKHAddress_decode _)

theorem st_BIP38_init : StF T (BIP38_init H) (Src.BIP38_init H) := stF_silent (sim_BIP38_init H) (by intro k; cases k <;> rfl)
macro_rules | `(tactic| st_known) => `(tactic| exact st_BIP38_init _)

theorem noPoint_PublicKey_init : NoPoint (PublicKey_init H) := noPoint_defclass _ _ (by decide) rfl

theorem noPoint_PrivateKey_init : NoPoint (PrivateKey_init H) := noPoint_defclass _ _ (by decide) rfl

theorem noPoint_PublicKey_from_point : NoPoint (PublicKey_from_point H) :=
  noPoint_defun (noPoint_one (noPoint_try (noPoint_one (noPoint_return (other_call (noPoint_PublicKey_init H)))) (noPoint_one noPoint_raise)))

theorem noPoint_PrivateKey_from_bytes : NoPoint (PrivateKey_from_bytes H) :=
  noPoint_defun (noPoint_one (noPoint_try (noPoint_one (noPoint_return (other_call (noPoint_PrivateKey_init H)))) (noPoint_one noPoint_raise)))

theorem noPoint_PrivateKey_public_key : NoPoint (PrivateKey_public_key H) :=
  noPoint_defun (noPoint_one (noPoint_return (other_call (noPoint_PublicKey_init H))))


theorem st_BIP38_intermediate_code (hT : Covers T [.privateBytes]) : StF T (BIP38_intermediate_code H) (Src.BIP38_intermediate_code H) := by
  delta SrcX.BIP38_intermediate_code Src.BIP38_intermediate_code SrcX.BIP38_intermediate_code_L122 Src.BIP38_intermediate_code_L122 SrcX.BIP38_intermediate_code_L123 Src.BIP38_intermediate_code_L123 SrcX.BIP38_intermediate_code_L124 Src.BIP38_intermediate_code_L124 SrcX.BIP38_intermediate_code_L125 Src.BIP38_intermediate_code_L125 SrcX.BIP38_intermediate_code_L126 Src.BIP38_intermediate_code_L126 SrcX.BIP38_intermediate_code_L127 Src.BIP38_intermediate_code_L127 SrcX.BIP38_intermediate_code_L128 Src.BIP38_intermediate_code_L128 SrcX.BIP38_intermediate_code_L130 Src.BIP38_intermediate_code_L130 SrcX.BIP38_intermediate_code_L131 Src.BIP38_intermediate_code_L131 SrcX.BIP38_intermediate_code_L132 Src.BIP38_intermediate_code_L132 SrcX.BIP38_intermediate_code_L133 Src.BIP38_intermediate_code_L133 SrcX.BIP38_intermediate_code_L134 Src.BIP38_intermediate_code_L134 SrcX.BIP38_intermediate_code_L135 Src.BIP38_intermediate_code_L135 SrcX.BIP38_intermediate_code_L137 Src.BIP38_intermediate_code_L137 SrcX.BIP38_intermediate_code_L138 Src.BIP38_intermediate_code_L138 SrcX.BIP38_intermediate_code_L139 Src.BIP38_intermediate_code_L139 SrcX.BIP38_intermediate_code_L140 Src.BIP38_intermediate_code_L140 SrcX.BIP38_intermediate_code_L142 Src.BIP38_intermediate_code_L142 SrcX.BIP38_intermediate_code_L143 Src.BIP38_intermediate_code_L143 SrcX.BIP38_intermediate_code_L144 Src.BIP38_intermediate_code_L144 SrcX.BIP38_intermediate_code_L146 Src.BIP38_intermediate_code_L146 SrcX.BIP38_intermediate_code_L149 Src.BIP38_intermediate_code_L149
  refine st_defun (I := []) _ ?_ ?_ rfl
  all_goals repeat' st_rule
macro_rules | `(tactic| st_known) => `(tactic| exact st_BIP38_intermediate_code _ (covers_sub (by assumption) (by decide)))

theorem st_BIP38_encrypt_L190 (hT : Covers T [.privateBytes]) : StS T [v!"private_key"] (BIP38_encrypt_L190 H) (Src.BIP38_encrypt_L190 H) := by
  delta SrcX.BIP38_encrypt_L190 Src.BIP38_encrypt_L190
  refine st_assign_other _ ?_ (other_call (noPoint_PrivateKey_from_bytes H))
  repeat' st_rule
macro_rules | `(tactic| st_known) => `(tactic| exact st_BIP38_encrypt_L190 _ (covers_sub (by assumption) (by decide)))

theorem st_BIP38_encrypt_L196 (hT : Covers T [.privateBytes]) : StS T [v!"private_key"] (BIP38_encrypt_L196 H) (Src.BIP38_encrypt_L196 H) := by
  delta SrcX.BIP38_encrypt_L196 Src.BIP38_encrypt_L196
  refine st_assign_other _ ?_ (other_call (noPoint_PrivateKey_from_bytes H))
  repeat' st_rule
macro_rules | `(tactic| st_known) => `(tactic| exact st_BIP38_encrypt_L196 _ (covers_sub (by assumption) (by decide)))

theorem st_BIP38_encrypt (hT : Covers T [.publicBytes, .privateBytes]) : StF T (BIP38_encrypt H) (Src.BIP38_encrypt H) := by
  delta SrcX.BIP38_encrypt Src.BIP38_encrypt SrcX.BIP38_encrypt_L180 Src.BIP38_encrypt_L180 SrcX.BIP38_encrypt_L183 Src.BIP38_encrypt_L183 SrcX.BIP38_encrypt_L184 Src.BIP38_encrypt_L184 SrcX.BIP38_encrypt_L185 Src.BIP38_encrypt_L185 SrcX.BIP38_encrypt_L188 Src.BIP38_encrypt_L188 SrcX.BIP38_encrypt_L189 Src.BIP38_encrypt_L189 SrcX.BIP38_encrypt_L193 Src.BIP38_encrypt_L193 SrcX.BIP38_encrypt_L195 Src.BIP38_encrypt_L195 SrcX.BIP38_encrypt_L199 Src.BIP38_encrypt_L199 SrcX.BIP38_encrypt_L201 Src.BIP38_encrypt_L201 SrcX.BIP38_encrypt_L206 Src.BIP38_encrypt_L206 SrcX.BIP38_encrypt_L207 Src.BIP38_encrypt_L207 SrcX.BIP38_encrypt_L208 Src.BIP38_encrypt_L208 SrcX.BIP38_encrypt_L210 Src.BIP38_encrypt_L210 SrcX.BIP38_encrypt_L211 Src.BIP38_encrypt_L211 SrcX.BIP38_encrypt_L214 Src.BIP38_encrypt_L214 SrcX.BIP38_encrypt_L218 Src.BIP38_encrypt_L218 SrcX.BIP38_encrypt_L223 Src.BIP38_encrypt_L223
  refine st_defun (I := [v!"private_key"]) _ ?_ ?_ rfl
  all_goals repeat' st_rule
macro_rules | `(tactic| st_known) => `(tactic| exact st_BIP38_encrypt _ (covers_sub (by assumption) (by decide)))

theorem st_BIP38_create_new_encrypted_wif_L264 (hT : Covers T [.intermediateHash]) : StS T [v!"public_key"] (BIP38_create_new_encrypted_wif_L264 H) (Src.BIP38_create_new_encrypted_wif_L264 H) := by
  delta SrcX.BIP38_create_new_encrypted_wif_L264 Src.BIP38_create_new_encrypted_wif_L264 SrcX.BIP38_create_new_encrypted_wif_L265 Src.BIP38_create_new_encrypted_wif_L265 SrcX.BIP38_create_new_encrypted_wif_L267 Src.BIP38_create_new_encrypted_wif_L267
  apply st_try_rule .intermediateHash hT (K := bounds)
  case h =>
    repeat' st_rule
  case hs =>
    apply sim_block
    repeat' sim_rule
  case hk =>
    intro k; cases k <;> decide
  case hc =>
    intro k; simp [Catch.matches, Rule.catches]
  case hm =>
    apply sim_block
    repeat' sim_rule
  case hm0 =>
    intro k; cases k <;> rfl
  case hb =>
    repeat' st_rule
  case hg =>
    exact raises_msg H _ rfl _
macro_rules | `(tactic| st_known) => `(tactic| exact st_BIP38_create_new_encrypted_wif_L264 _ (covers_sub (by assumption) (by decide)))

theorem st_BIP38_create_new_encrypted_wif_L304 (hT : Covers T [.publicBytes, .publicPoint]) : StS T [v!"public_key"] (BIP38_create_new_encrypted_wif_L304 H) (Src.BIP38_create_new_encrypted_wif_L304 H) := by
  delta SrcX.BIP38_create_new_encrypted_wif_L304 Src.BIP38_create_new_encrypted_wif_L304
  refine st_assign_other _ ?_ (other_call (noPoint_PublicKey_from_point H))
  repeat' st_rule
macro_rules | `(tactic| st_known) => `(tactic| exact st_BIP38_create_new_encrypted_wif_L304 _ (covers_sub (by assumption) (by decide)))

theorem st_BIP38_create_new_encrypted_wif (hT : Covers T [.publicBytes, .publicPoint, .privateBytes, .intermediateHash]) : StF T (BIP38_create_new_encrypted_wif H) (Src.BIP38_create_new_encrypted_wif H) := by
  delta SrcX.BIP38_create_new_encrypted_wif Src.BIP38_create_new_encrypted_wif SrcX.BIP38_create_new_encrypted_wif_L258 Src.BIP38_create_new_encrypted_wif_L258 SrcX.BIP38_create_new_encrypted_wif_L261 Src.BIP38_create_new_encrypted_wif_L261 SrcX.BIP38_create_new_encrypted_wif_L262 Src.BIP38_create_new_encrypted_wif_L262 SrcX.BIP38_create_new_encrypted_wif_L263 Src.BIP38_create_new_encrypted_wif_L263 SrcX.BIP38_create_new_encrypted_wif_L268 Src.BIP38_create_new_encrypted_wif_L268 SrcX.BIP38_create_new_encrypted_wif_L269 Src.BIP38_create_new_encrypted_wif_L269 SrcX.BIP38_create_new_encrypted_wif_L271 Src.BIP38_create_new_encrypted_wif_L271 SrcX.BIP38_create_new_encrypted_wif_L272 Src.BIP38_create_new_encrypted_wif_L272 SrcX.BIP38_create_new_encrypted_wif_L273 Src.BIP38_create_new_encrypted_wif_L273 SrcX.BIP38_create_new_encrypted_wif_L275 Src.BIP38_create_new_encrypted_wif_L275 SrcX.BIP38_create_new_encrypted_wif_L276 Src.BIP38_create_new_encrypted_wif_L276 SrcX.BIP38_create_new_encrypted_wif_L277 Src.BIP38_create_new_encrypted_wif_L277 SrcX.BIP38_create_new_encrypted_wif_L278 Src.BIP38_create_new_encrypted_wif_L278 SrcX.BIP38_create_new_encrypted_wif_L280 Src.BIP38_create_new_encrypted_wif_L280 SrcX.BIP38_create_new_encrypted_wif_L282 Src.BIP38_create_new_encrypted_wif_L282 SrcX.BIP38_create_new_encrypted_wif_L283 Src.BIP38_create_new_encrypted_wif_L283 SrcX.BIP38_create_new_encrypted_wif_L284 Src.BIP38_create_new_encrypted_wif_L284 SrcX.BIP38_create_new_encrypted_wif_L286 Src.BIP38_create_new_encrypted_wif_L286 SrcX.BIP38_create_new_encrypted_wif_L287 Src.BIP38_create_new_encrypted_wif_L287 SrcX.BIP38_create_new_encrypted_wif_L288 Src.BIP38_create_new_encrypted_wif_L288 SrcX.BIP38_create_new_encrypted_wif_L289 Src.BIP38_create_new_encrypted_wif_L289 SrcX.BIP38_create_new_encrypted_wif_L291 Src.BIP38_create_new_encrypted_wif_L291 SrcX.BIP38_create_new_encrypted_wif_L293 Src.BIP38_create_new_encrypted_wif_L293 SrcX.BIP38_create_new_encrypted_wif_L300 Src.BIP38_create_new_encrypted_wif_L300 SrcX.BIP38_create_new_encrypted_wif_L301 Src.BIP38_create_new_encrypted_wif_L301 SrcX.BIP38_create_new_encrypted_wif_L302 Src.BIP38_create_new_encrypted_wif_L302 SrcX.BIP38_create_new_encrypted_wif_L307 Src.BIP38_create_new_encrypted_wif_L307 SrcX.BIP38_create_new_encrypted_wif_L312 Src.BIP38_create_new_encrypted_wif_L312 SrcX.BIP38_create_new_encrypted_wif_L313 Src.BIP38_create_new_encrypted_wif_L313 SrcX.BIP38_create_new_encrypted_wif_L314 Src.BIP38_create_new_encrypted_wif_L314 SrcX.BIP38_create_new_encrypted_wif_L315 Src.BIP38_create_new_encrypted_wif_L315 SrcX.BIP38_create_new_encrypted_wif_L317 Src.BIP38_create_new_encrypted_wif_L317 SrcX.BIP38_create_new_encrypted_wif_L318 Src.BIP38_create_new_encrypted_wif_L318 SrcX.BIP38_create_new_encrypted_wif_L321 Src.BIP38_create_new_encrypted_wif_L321 SrcX.BIP38_create_new_encrypted_wif_L324 Src.BIP38_create_new_encrypted_wif_L324 SrcX.BIP38_create_new_encrypted_wif_L329 Src.BIP38_create_new_encrypted_wif_L329 SrcX.BIP38_create_new_encrypted_wif_L330 Src.BIP38_create_new_encrypted_wif_L330 SrcX.BIP38_create_new_encrypted_wif_L333 Src.BIP38_create_new_encrypted_wif_L333 SrcX.BIP38_create_new_encrypted_wif_L336 Src.BIP38_create_new_encrypted_wif_L336 SrcX.BIP38_create_new_encrypted_wif_L339 Src.BIP38_create_new_encrypted_wif_L339 SrcX.BIP38_create_new_encrypted_wif_L342 Src.BIP38_create_new_encrypted_wif_L342 SrcX.BIP38_create_new_encrypted_wif_L346 Src.BIP38_create_new_encrypted_wif_L346
  refine st_defun (I := [v!"public_key"]) _ ?_ ?_ rfl
  all_goals repeat' st_rule
macro_rules | `(tactic| st_known) => `(tactic| exact st_BIP38_create_new_encrypted_wif _ (covers_sub (by assumption) (by decide)))

theorem st_BIP38_confirm_code_L391 (hT : Covers T [.confirmationHash]) : StS T [v!"public_key"] (BIP38_confirm_code_L391 H) (Src.BIP38_confirm_code_L391 H) := by
  delta SrcX.BIP38_confirm_code_L391 Src.BIP38_confirm_code_L391 SrcX.BIP38_confirm_code_L392 Src.BIP38_confirm_code_L392 SrcX.BIP38_confirm_code_L394 Src.BIP38_confirm_code_L394
  apply st_try_rule .confirmationHash hT (K := bounds)
  case h =>
    repeat' st_rule
  case hs =>
    apply sim_block
    repeat' sim_rule
  case hk =>
    intro k; cases k <;> decide
  case hc =>
    intro k; simp [Catch.matches, Rule.catches]
  case hm =>
    apply sim_block
    repeat' sim_rule
  case hm0 =>
    intro k; cases k <;> rfl
  case hb =>
    repeat' st_rule
  case hg =>
    exact raises_msg H _ rfl _
macro_rules | `(tactic| st_known) => `(tactic| exact st_BIP38_confirm_code_L391 _ (covers_sub (by assumption) (by decide)))

theorem st_BIP38_confirm_code_L441 (hT : Covers T [.publicBytes, .publicPoint]) : StS T [v!"public_key"] (BIP38_confirm_code_L441 H) (Src.BIP38_confirm_code_L441 H) := by
  delta SrcX.BIP38_confirm_code_L441 Src.BIP38_confirm_code_L441
  refine st_assign_other _ ?_ (other_call (noPoint_PublicKey_from_point H))
  repeat' st_rule
macro_rules | `(tactic| st_known) => `(tactic| exact st_BIP38_confirm_code_L441 _ (covers_sub (by assumption) (by decide)))

theorem st_BIP38_confirm_code_L440 (hT : Covers T [.confirmationKey]) : StS T [v!"public_key"] (BIP38_confirm_code_L440 H) (Src.BIP38_confirm_code_L440 H) := by
  delta SrcX.BIP38_confirm_code_L440 Src.BIP38_confirm_code_L440 SrcX.BIP38_confirm_code_L444 Src.BIP38_confirm_code_L444 SrcX.BIP38_confirm_code_L445 Src.BIP38_confirm_code_L445 SrcX.BIP38_confirm_code_L446 Src.BIP38_confirm_code_L446 SrcX.BIP38_confirm_code_L448 Src.BIP38_confirm_code_L448
  have hC : Covers T.inner [.publicBytes, .publicPoint] := covers_inner T
  have hF : Fine bounds := fun _ _ h => h.elim
  apply st_try_key hT (K := bounds)
  case h =>
    repeat' st_rule
  case hs =>
    delta SrcX.BIP38_confirm_code_L441 Src.BIP38_confirm_code_L441
    apply sim_block
    repeat' sim_rule
  case hk =>
    intro k; cases k <;> decide
  case hm =>
    apply sim_block
    repeat' sim_rule
  case hm0 =>
    intro k; cases k <;> rfl
  case hb =>
    repeat' st_rule
  case hg =>
    exact raises_msg H _ rfl _
macro_rules | `(tactic| st_known) => `(tactic| exact st_BIP38_confirm_code_L440 _ (covers_sub (by assumption) (by decide)))

theorem st_BIP38_confirm_code (hT : Covers T [.publicBytes, .privateBytes, .confirmationHash, .confirmationKey]) : StF T (BIP38_confirm_code H) (Src.BIP38_confirm_code H) := by
  delta SrcX.BIP38_confirm_code Src.BIP38_confirm_code SrcX.BIP38_confirm_code_L386 Src.BIP38_confirm_code_L386 SrcX.BIP38_confirm_code_L389 Src.BIP38_confirm_code_L389 SrcX.BIP38_confirm_code_L390 Src.BIP38_confirm_code_L390 SrcX.BIP38_confirm_code_L395 Src.BIP38_confirm_code_L395 SrcX.BIP38_confirm_code_L396 Src.BIP38_confirm_code_L396 SrcX.BIP38_confirm_code_L398 Src.BIP38_confirm_code_L398 SrcX.BIP38_confirm_code_L399 Src.BIP38_confirm_code_L399 SrcX.BIP38_confirm_code_L400 Src.BIP38_confirm_code_L400 SrcX.BIP38_confirm_code_L401 Src.BIP38_confirm_code_L401 SrcX.BIP38_confirm_code_L403 Src.BIP38_confirm_code_L403 SrcX.BIP38_confirm_code_L404 Src.BIP38_confirm_code_L404 SrcX.BIP38_confirm_code_L405 Src.BIP38_confirm_code_L405 SrcX.BIP38_confirm_code_L406 Src.BIP38_confirm_code_L406 SrcX.BIP38_confirm_code_L408 Src.BIP38_confirm_code_L408 SrcX.BIP38_confirm_code_L409 Src.BIP38_confirm_code_L409 SrcX.BIP38_confirm_code_L410 Src.BIP38_confirm_code_L410 SrcX.BIP38_confirm_code_L411 Src.BIP38_confirm_code_L411 SrcX.BIP38_confirm_code_L413 Src.BIP38_confirm_code_L413 SrcX.BIP38_confirm_code_L415 Src.BIP38_confirm_code_L415 SrcX.BIP38_confirm_code_L416 Src.BIP38_confirm_code_L416 SrcX.BIP38_confirm_code_L417 Src.BIP38_confirm_code_L417 SrcX.BIP38_confirm_code_L418 Src.BIP38_confirm_code_L418 SrcX.BIP38_confirm_code_L419 Src.BIP38_confirm_code_L419 SrcX.BIP38_confirm_code_L421 Src.BIP38_confirm_code_L421 SrcX.BIP38_confirm_code_L422 Src.BIP38_confirm_code_L422 SrcX.BIP38_confirm_code_L423 Src.BIP38_confirm_code_L423 SrcX.BIP38_confirm_code_L424 Src.BIP38_confirm_code_L424 SrcX.BIP38_confirm_code_L426 Src.BIP38_confirm_code_L426 SrcX.BIP38_confirm_code_L427 Src.BIP38_confirm_code_L427 SrcX.BIP38_confirm_code_L430 Src.BIP38_confirm_code_L430 SrcX.BIP38_confirm_code_L433 Src.BIP38_confirm_code_L433 SrcX.BIP38_confirm_code_L436 Src.BIP38_confirm_code_L436 SrcX.BIP38_confirm_code_L450 Src.BIP38_confirm_code_L450 SrcX.BIP38_confirm_code_L455 Src.BIP38_confirm_code_L455 SrcX.BIP38_confirm_code_L456 Src.BIP38_confirm_code_L456 SrcX.BIP38_confirm_code_L457 Src.BIP38_confirm_code_L457 SrcX.BIP38_confirm_code_L458 Src.BIP38_confirm_code_L458 SrcX.BIP38_confirm_code_L459 Src.BIP38_confirm_code_L459 SrcX.BIP38_confirm_code_L460 Src.BIP38_confirm_code_L460 SrcX.BIP38_confirm_code_L461 Src.BIP38_confirm_code_L461 SrcX.BIP38_confirm_code_L462 Src.BIP38_confirm_code_L462 SrcX.BIP38_confirm_code_L469 Src.BIP38_confirm_code_L469 SrcX.BIP38_confirm_code_L470 Src.BIP38_confirm_code_L470
  refine st_defun (I := [v!"public_key"]) _ ?_ ?_ rfl
  all_goals repeat' st_rule
macro_rules | `(tactic| st_known) => `(tactic| exact st_BIP38_confirm_code _ (covers_sub (by assumption) (by decide)))

theorem st_BIP38_decrypt_L549 (hT : Covers T [.privateBytes]) : StS T [v!"public_key"] (BIP38_decrypt_L549 H) (Src.BIP38_decrypt_L549 H) := by
  delta SrcX.BIP38_decrypt_L549 Src.BIP38_decrypt_L549
  refine st_assign_other _ ?_ (other_method (by intro p hp; cases List.mem_singleton.1 hp; exact noPoint_PrivateKey_public_key H))
  repeat' st_rule
macro_rules | `(tactic| st_known) => `(tactic| exact st_BIP38_decrypt_L549 _ (covers_sub (by assumption) (by decide)))

theorem st_BIP38_decrypt_L619 (hT : Covers T [.privateBytes]) : StS T [v!"public_key"] (BIP38_decrypt_L619 H) (Src.BIP38_decrypt_L619 H) := by
  delta SrcX.BIP38_decrypt_L619 Src.BIP38_decrypt_L619
  refine st_assign_other _ ?_ (other_method (by intro p hp; cases List.mem_singleton.1 hp; exact noPoint_PrivateKey_public_key H))
  repeat' st_rule
macro_rules | `(tactic| st_known) => `(tactic| exact st_BIP38_decrypt_L619 _ (covers_sub (by assumption) (by decide)))

theorem st_BIP38_decrypt (hT : Covers T [.publicBytes, .privateBytes]) : StF T (BIP38_decrypt H) (Src.BIP38_decrypt H) := by
  delta SrcX.BIP38_decrypt Src.BIP38_decrypt SrcX.BIP38_decrypt_L503 Src.BIP38_decrypt_L503 SrcX.BIP38_decrypt_L506 Src.BIP38_decrypt_L506 SrcX.BIP38_decrypt_L507 Src.BIP38_decrypt_L507 SrcX.BIP38_decrypt_L508 Src.BIP38_decrypt_L508 SrcX.BIP38_decrypt_L509 Src.BIP38_decrypt_L509 SrcX.BIP38_decrypt_L510 Src.BIP38_decrypt_L510 SrcX.BIP38_decrypt_L512 Src.BIP38_decrypt_L512 SrcX.BIP38_decrypt_L513 Src.BIP38_decrypt_L513 SrcX.BIP38_decrypt_L514 Src.BIP38_decrypt_L514 SrcX.BIP38_decrypt_L516 Src.BIP38_decrypt_L516 SrcX.BIP38_decrypt_L518 Src.BIP38_decrypt_L518 SrcX.BIP38_decrypt_L519 Src.BIP38_decrypt_L519 SrcX.BIP38_decrypt_L520 Src.BIP38_decrypt_L520 SrcX.BIP38_decrypt_L521 Src.BIP38_decrypt_L521 SrcX.BIP38_decrypt_L522 Src.BIP38_decrypt_L522 SrcX.BIP38_decrypt_L523 Src.BIP38_decrypt_L523 SrcX.BIP38_decrypt_L525 Src.BIP38_decrypt_L525 SrcX.BIP38_decrypt_L532 Src.BIP38_decrypt_L532 SrcX.BIP38_decrypt_L535 Src.BIP38_decrypt_L535 SrcX.BIP38_decrypt_L536 Src.BIP38_decrypt_L536 SrcX.BIP38_decrypt_L537 Src.BIP38_decrypt_L537 SrcX.BIP38_decrypt_L539 Src.BIP38_decrypt_L539 SrcX.BIP38_decrypt_L540 Src.BIP38_decrypt_L540 SrcX.BIP38_decrypt_L541 Src.BIP38_decrypt_L541 SrcX.BIP38_decrypt_L543 Src.BIP38_decrypt_L543 SrcX.BIP38_decrypt_L546 Src.BIP38_decrypt_L546 SrcX.BIP38_decrypt_L547 Src.BIP38_decrypt_L547 SrcX.BIP38_decrypt_L550 Src.BIP38_decrypt_L550 SrcX.BIP38_decrypt_L555 Src.BIP38_decrypt_L555 SrcX.BIP38_decrypt_L556 Src.BIP38_decrypt_L556 SrcX.BIP38_decrypt_L558 Src.BIP38_decrypt_L558 SrcX.BIP38_decrypt_L561 Src.BIP38_decrypt_L561 SrcX.BIP38_decrypt_L562 Src.BIP38_decrypt_L562 SrcX.BIP38_decrypt_L573 Src.BIP38_decrypt_L573 SrcX.BIP38_decrypt_L575 Src.BIP38_decrypt_L575 SrcX.BIP38_decrypt_L576 Src.BIP38_decrypt_L576 SrcX.BIP38_decrypt_L577 Src.BIP38_decrypt_L577 SrcX.BIP38_decrypt_L578 Src.BIP38_decrypt_L578 SrcX.BIP38_decrypt_L580 Src.BIP38_decrypt_L580 SrcX.BIP38_decrypt_L581 Src.BIP38_decrypt_L581 SrcX.BIP38_decrypt_L582 Src.BIP38_decrypt_L582 SrcX.BIP38_decrypt_L583 Src.BIP38_decrypt_L583 SrcX.BIP38_decrypt_L585 Src.BIP38_decrypt_L585 SrcX.BIP38_decrypt_L587 Src.BIP38_decrypt_L587 SrcX.BIP38_decrypt_L588 Src.BIP38_decrypt_L588 SrcX.BIP38_decrypt_L589 Src.BIP38_decrypt_L589 SrcX.BIP38_decrypt_L590 Src.BIP38_decrypt_L590 SrcX.BIP38_decrypt_L591 Src.BIP38_decrypt_L591 SrcX.BIP38_decrypt_L593 Src.BIP38_decrypt_L593 SrcX.BIP38_decrypt_L594 Src.BIP38_decrypt_L594 SrcX.BIP38_decrypt_L595 Src.BIP38_decrypt_L595 SrcX.BIP38_decrypt_L596 Src.BIP38_decrypt_L596 SrcX.BIP38_decrypt_L598 Src.BIP38_decrypt_L598 SrcX.BIP38_decrypt_L599 Src.BIP38_decrypt_L599 SrcX.BIP38_decrypt_L602 Src.BIP38_decrypt_L602 SrcX.BIP38_decrypt_L603 Src.BIP38_decrypt_L603 SrcX.BIP38_decrypt_L607 Src.BIP38_decrypt_L607 SrcX.BIP38_decrypt_L611 Src.BIP38_decrypt_L611 SrcX.BIP38_decrypt_L612 Src.BIP38_decrypt_L612 SrcX.BIP38_decrypt_L613 Src.BIP38_decrypt_L613 SrcX.BIP38_decrypt_L616 Src.BIP38_decrypt_L616 SrcX.BIP38_decrypt_L620 Src.BIP38_decrypt_L620 SrcX.BIP38_decrypt_L621 Src.BIP38_decrypt_L621 SrcX.BIP38_decrypt_L622 Src.BIP38_decrypt_L622 SrcX.BIP38_decrypt_L623 Src.BIP38_decrypt_L623 SrcX.BIP38_decrypt_L624 Src.BIP38_decrypt_L624 SrcX.BIP38_decrypt_L625 Src.BIP38_decrypt_L625 SrcX.BIP38_decrypt_L630 Src.BIP38_decrypt_L630 SrcX.BIP38_decrypt_L631 Src.BIP38_decrypt_L631 SrcX.BIP38_decrypt_L634 Src.BIP38_decrypt_L634 SrcX.BIP38_decrypt_L635 Src.BIP38_decrypt_L635 SrcX.BIP38_decrypt_L636 Src.BIP38_decrypt_L636 SrcX.BIP38_decrypt_L637 Src.BIP38_decrypt_L637 SrcX.BIP38_decrypt_L638 Src.BIP38_decrypt_L638 SrcX.BIP38_decrypt_L639 Src.BIP38_decrypt_L639 SrcX.BIP38_decrypt_L640 Src.BIP38_decrypt_L640 SrcX.BIP38_decrypt_L651 Src.BIP38_decrypt_L651 SrcX.BIP38_decrypt_L652 Src.BIP38_decrypt_L652 SrcX.BIP38_decrypt_L654 Src.BIP38_decrypt_L654
  refine st_defun (I := [v!"public_key"]) _ ?_ ?_ rfl
  all_goals repeat' st_rule
macro_rules | `(tactic| st_known) => `(tactic| exact st_BIP38_decrypt _ (covers_sub (by assumption) (by decide)))

end Bip38.SrcX
