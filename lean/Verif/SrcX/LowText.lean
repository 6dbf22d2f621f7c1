import Verif.SrcX.Low
import Verif.SrcX.SimBip38
/-!
# External calls before a function of the repository returns a value (generated by `tools/gen_sim.py`, do not edit)

The bounds (`works`) are lower bounds, computed from the text, for one call of the function, for arguments of any kind.
-/
set_option linter.unusedVariables false
set_option linter.style.longLine false
namespace Bip38.SrcX

open Bip38.Src

theorem low_pyLen : LowF (fun _ => some 0) (pyLen) := fun _ _ => low_lift _
macro_rules | `(tactic| low_known) => `(tactic| exact low_pyLen)

theorem low_pyIsinstance : LowF (fun _ => some 0) (pyIsinstance) := fun _ _ => low_lift _
macro_rules | `(tactic| low_known) => `(tactic| exact low_pyIsinstance)

theorem low_pyIssubclass : LowF (fun _ => some 0) (pyIssubclass) := fun _ _ => low_lift _
macro_rules | `(tactic| low_known) => `(tactic| exact low_pyIssubclass)

theorem low_pyType : LowF (fun _ => some 0) (pyType) := fun _ _ => low_lift _
macro_rules | `(tactic| low_known) => `(tactic| exact low_pyType)

theorem low_pyInt (H : Host) : LowF (fun _ => some 0) (pyInt H) := fun _ _ => low_lift _
macro_rules | `(tactic| low_known) => `(tactic| exact low_pyInt _)

theorem low_pyList : LowF (fun _ => some 0) (pyList) := fun _ _ => low_lift _
macro_rules | `(tactic| low_known) => `(tactic| exact low_pyList)

theorem low_pyRange : LowF (fun _ => some 0) (pyRange) := fun _ _ => low_lift _
macro_rules | `(tactic| low_known) => `(tactic| exact low_pyRange)

theorem low_pyEnumerate : LowF (fun _ => some 0) (pyEnumerate) := fun _ _ => low_lift _
macro_rules | `(tactic| low_known) => `(tactic| exact low_pyEnumerate)

theorem low_pyDivmod : LowF (fun _ => some 0) (pyDivmod) := fun _ _ => low_lift _
macro_rules | `(tactic| low_known) => `(tactic| exact low_pyDivmod)

theorem low_pyBytes : LowF (fun _ => some 0) (pyBytes) := fun _ _ => low_lift _
macro_rules | `(tactic| low_known) => `(tactic| exact low_pyBytes)

theorem low_pyBytearray : LowF (fun _ => some 0) (pyBytearray) := fun _ _ => low_lift _
macro_rules | `(tactic| low_known) => `(tactic| exact low_pyBytearray)

theorem low_pyFromhex : LowF (fun _ => some 0) (pyFromhex) := fun _ _ => low_lift _
macro_rules | `(tactic| low_known) => `(tactic| exact low_pyFromhex)

theorem low_pyFromBytes : LowF (fun _ => some 0) (pyFromBytes) := fun _ _ => low_lift _
macro_rules | `(tactic| low_known) => `(tactic| exact low_pyFromBytes)

theorem low_pyException (c : ExcClass) : LowF (fun _ => some 0) (pyException c) := fun _ _ => low_lift _
macro_rules | `(tactic| low_known) => `(tactic| exact low_pyException _)

theorem low_xUnpack : LowF (fun _ => some 0) (xUnpack) := fun _ _ => low_lift _
macro_rules | `(tactic| low_known) => `(tactic| exact low_xUnpack)

theorem low_xPack : LowF (fun _ => some 0) (xPack) := fun _ _ => low_lift _
macro_rules | `(tactic| low_known) => `(tactic| exact low_xPack)

theorem low_noMethod : LowM (fun _ => some 0) (noMethod) := fun v a k => low_lift (Src.noMethod v a k)
macro_rules | `(tactic| low_known) => `(tactic| exact low_noMethod)

theorem low_mHex : LowM (fun _ => some 0) (mHex) := fun v a k => low_lift (Src.mHex v a k)
macro_rules | `(tactic| low_known) => `(tactic| exact low_mHex)

theorem low_mBitLength : LowM (fun _ => some 0) (mBitLength) := fun v a k => low_lift (Src.mBitLength v a k)
macro_rules | `(tactic| low_known) => `(tactic| exact low_mBitLength)

theorem low_mDecode : LowM (fun _ => some 0) (mDecode) := fun v a k => low_lift (Src.mDecode v a k)
macro_rules | `(tactic| low_known) => `(tactic| exact low_mDecode)

theorem low_mEncode : LowM (fun _ => some 0) (mEncode) := fun v a k => low_lift (Src.mEncode v a k)
macro_rules | `(tactic| low_known) => `(tactic| exact low_mEncode)

theorem low_mFind : LowM (fun _ => some 0) (mFind) := fun v a k => low_lift (Src.mFind v a k)
macro_rules | `(tactic| low_known) => `(tactic| exact low_mFind)

theorem low_mLstrip : LowM (fun _ => some 0) (mLstrip) := fun v a k => low_lift (Src.mLstrip v a k)
macro_rules | `(tactic| low_known) => `(tactic| exact low_mLstrip)

theorem low_mStartswith : LowM (fun _ => some 0) (mStartswith) := fun v a k => low_lift (Src.mStartswith v a k)
macro_rules | `(tactic| low_known) => `(tactic| exact low_mStartswith)

theorem low_mKeys : LowM (fun _ => some 0) (mKeys) := fun v a k => low_lift (Src.mKeys v a k)
macro_rules | `(tactic| low_known) => `(tactic| exact low_mKeys)

theorem low_mJoin : LowM (fun _ => some 0) (mJoin) := fun v a k => low_lift (Src.mJoin v a k)
macro_rules | `(tactic| low_known) => `(tactic| exact low_mJoin)

theorem low_xSha256 (H : Host) : LowF (once .sha256) (xSha256 H) := low_external _ _
macro_rules | `(tactic| low_known) => `(tactic| exact low_xSha256 _)

theorem low_xAlgorithms (H : Host) : Low (fun _ => some 0) (xAlgorithms H) := low_lift _
macro_rules | `(tactic| low_known) => `(tactic| exact low_xAlgorithms _)

theorem low_xHashNew (H : Host) : LowF (once .hashNew) (xHashNew H) := low_external _ _
macro_rules | `(tactic| low_known) => `(tactic| exact low_xHashNew _)

theorem low_mDigest : LowM (once .digest) (mDigest) := low_externalMethod _ fun v _ _ h => by cases v <;> first | rfl | cases h
macro_rules | `(tactic| low_known) => `(tactic| exact low_mDigest)

theorem low_xScrypt (H : Host) : LowF (once .scrypt) (xScrypt H) := low_external _ _
macro_rules | `(tactic| low_known) => `(tactic| exact low_xScrypt _)

theorem low_xNormalize (H : Host) : LowF (once .normalize) (xNormalize H) := low_external _ _
macro_rules | `(tactic| low_known) => `(tactic| exact low_xNormalize _)

theorem low_xUrandom (H : Host) : LowF (once .urandom) (xUrandom H) := low_external _ _
macro_rules | `(tactic| low_known) => `(tactic| exact low_xUrandom _)

theorem low_xAes : LowF (once .aes) (xAes) := low_external _ _
macro_rules | `(tactic| low_known) => `(tactic| exact low_xAes)

theorem low_mEncrypt (H : Host) : LowM (once .aesEncrypt) (mEncrypt H) := low_externalMethod _ fun v _ _ h => by cases v <;> first | rfl | cases h
macro_rules | `(tactic| low_known) => `(tactic| exact low_mEncrypt _)

theorem low_mDecrypt (H : Host) : LowM (once .aesDecrypt) (mDecrypt H) := low_externalMethod _ fun v _ _ h => by cases v <;> first | rfl | cases h
macro_rules | `(tactic| low_known) => `(tactic| exact low_mDecrypt _)

theorem low_xPointFromBytes (H : Host) : LowF (once .ecdsa) (xPointFromBytes H) := low_external _ _
macro_rules | `(tactic| low_known) => `(tactic| exact low_xPointFromBytes _)

theorem low_xPoint : LowF (once .ecdsa) (xPoint) := low_external _ _
macro_rules | `(tactic| low_known) => `(tactic| exact low_xPoint)

theorem low_xFromAffine : LowF (once .ecdsa) (xFromAffine) := low_external _ _
macro_rules | `(tactic| low_known) => `(tactic| exact low_xFromAffine)

theorem low_mX : LowM (once .ecdsa) (mX) := low_externalMethod _ fun v _ _ h => by cases v <;> first | rfl | cases h
macro_rules | `(tactic| low_known) => `(tactic| exact low_mX)

theorem low_mY : LowM (once .ecdsa) (mY) := low_externalMethod _ fun v _ _ h => by cases v <;> first | rfl | cases h
macro_rules | `(tactic| low_known) => `(tactic| exact low_mY)

theorem low_mToBytes (H : Host) : LowM (fun _ => some 0) (mToBytes H) := low_otherMethod _ _ _
macro_rules | `(tactic| low_known) => `(tactic| exact low_mToBytes _)

theorem low_xVerifyingFromString : LowF (once .ecdsa) (xVerifyingFromString) := low_external _ _
macro_rules | `(tactic| low_known) => `(tactic| exact low_xVerifyingFromString)

theorem low_xVerifyingFromPoint : LowF (once .ecdsa) (xVerifyingFromPoint) := low_external _ _
macro_rules | `(tactic| low_known) => `(tactic| exact low_xVerifyingFromPoint)

theorem low_xSigningFromString : LowF (once .ecdsa) (xSigningFromString) := low_external _ _
macro_rules | `(tactic| low_known) => `(tactic| exact low_xSigningFromString)

theorem low_mToString : LowM (once .ecdsa) (mToString) := low_externalMethod _ fun v _ _ h => by cases v <;> first | rfl | cases h
macro_rules | `(tactic| low_known) => `(tactic| exact low_mToString)

theorem low_mGetVerifyingKey : LowM (once .ecdsa) (mGetVerifyingKey) := low_externalMethod _ fun v _ _ h => by cases v <;> first | rfl | cases h
macro_rules | `(tactic| low_known) => `(tactic| exact low_mGetVerifyingKey)

variable (H : Host)

theorem low_Error_init (c : ExcClass) : LowF (fun _ => some 0) (Error_init H c) := lowF_of_sim (K := anything) (sim_Error_init H c)
macro_rules | `(tactic| low_known) => `(tactic| exact low_Error_init _ _)

theorem low_Error_str : LowF (works []) (Error_str H) := by
  delta SrcX.Error_str SrcX.Error_str_L32 SrcX.Error_str_L34 SrcX.Error_str_L36 SrcX.Error_str_L38 SrcX.Error_str_L35 SrcX.Error_str_L33 SrcX.Error_str_L31
  low_function
macro_rules | `(tactic| low_known) => `(tactic| exact low_Error_str _)

theorem low_const_NO_EC_MULTIPLIED_PRIVATE_KEY_PREFIX : Low (fun _ => some 0) (const_NO_EC_MULTIPLIED_PRIVATE_KEY_PREFIX H) := low_of_sim (K := anything) (sim_const_NO_EC_MULTIPLIED_PRIVATE_KEY_PREFIX H)
macro_rules | `(tactic| low_known) => `(tactic| exact low_const_NO_EC_MULTIPLIED_PRIVATE_KEY_PREFIX _)

theorem low_const_EC_MULTIPLIED_PRIVATE_KEY_PREFIX : Low (fun _ => some 0) (const_EC_MULTIPLIED_PRIVATE_KEY_PREFIX H) := low_of_sim (K := anything) (sim_const_EC_MULTIPLIED_PRIVATE_KEY_PREFIX H)
macro_rules | `(tactic| low_known) => `(tactic| exact low_const_EC_MULTIPLIED_PRIVATE_KEY_PREFIX _)

theorem low_const_NO_EC_MULTIPLIED_WIF_FLAG : Low (fun _ => some 0) (const_NO_EC_MULTIPLIED_WIF_FLAG H) := low_of_sim (K := anything) (sim_const_NO_EC_MULTIPLIED_WIF_FLAG H)
macro_rules | `(tactic| low_known) => `(tactic| exact low_const_NO_EC_MULTIPLIED_WIF_FLAG _)

theorem low_const_NO_EC_MULTIPLIED_WIF_COMPRESSED_FLAG : Low (fun _ => some 0) (const_NO_EC_MULTIPLIED_WIF_COMPRESSED_FLAG H) := low_of_sim (K := anything) (sim_const_NO_EC_MULTIPLIED_WIF_COMPRESSED_FLAG H)
macro_rules | `(tactic| low_known) => `(tactic| exact low_const_NO_EC_MULTIPLIED_WIF_COMPRESSED_FLAG _)

theorem low_const_MAGIC_LOT_AND_SEQUENCE : Low (fun _ => some 0) (const_MAGIC_LOT_AND_SEQUENCE H) := low_of_sim (K := anything) (sim_const_MAGIC_LOT_AND_SEQUENCE H)
macro_rules | `(tactic| low_known) => `(tactic| exact low_const_MAGIC_LOT_AND_SEQUENCE _)

theorem low_const_MAGIC_NO_LOT_AND_SEQUENCE : Low (fun _ => some 0) (const_MAGIC_NO_LOT_AND_SEQUENCE H) := low_of_sim (K := anything) (sim_const_MAGIC_NO_LOT_AND_SEQUENCE H)
macro_rules | `(tactic| low_known) => `(tactic| exact low_const_MAGIC_NO_LOT_AND_SEQUENCE _)

theorem low_const_MAGIC_LOT_AND_SEQUENCE_UNCOMPRESSED_FLAG : Low (fun _ => some 0) (const_MAGIC_LOT_AND_SEQUENCE_UNCOMPRESSED_FLAG H) := low_of_sim (K := anything) (sim_const_MAGIC_LOT_AND_SEQUENCE_UNCOMPRESSED_FLAG H)
macro_rules | `(tactic| low_known) => `(tactic| exact low_const_MAGIC_LOT_AND_SEQUENCE_UNCOMPRESSED_FLAG _)

theorem low_const_MAGIC_LOT_AND_SEQUENCE_COMPRESSED_FLAG : Low (fun _ => some 0) (const_MAGIC_LOT_AND_SEQUENCE_COMPRESSED_FLAG H) := low_of_sim (K := anything) (sim_const_MAGIC_LOT_AND_SEQUENCE_COMPRESSED_FLAG H)
macro_rules | `(tactic| low_known) => `(tactic| exact low_const_MAGIC_LOT_AND_SEQUENCE_COMPRESSED_FLAG _)

theorem low_const_MAGIC_NO_LOT_AND_SEQUENCE_UNCOMPRESSED_FLAG : Low (fun _ => some 0) (const_MAGIC_NO_LOT_AND_SEQUENCE_UNCOMPRESSED_FLAG H) := low_of_sim (K := anything) (sim_const_MAGIC_NO_LOT_AND_SEQUENCE_UNCOMPRESSED_FLAG H)
macro_rules | `(tactic| low_known) => `(tactic| exact low_const_MAGIC_NO_LOT_AND_SEQUENCE_UNCOMPRESSED_FLAG _)

theorem low_const_MAGIC_NO_LOT_AND_SEQUENCE_COMPRESSED_FLAG : Low (fun _ => some 0) (const_MAGIC_NO_LOT_AND_SEQUENCE_COMPRESSED_FLAG H) := low_of_sim (K := anything) (sim_const_MAGIC_NO_LOT_AND_SEQUENCE_COMPRESSED_FLAG H)
macro_rules | `(tactic| low_known) => `(tactic| exact low_const_MAGIC_NO_LOT_AND_SEQUENCE_COMPRESSED_FLAG _)

theorem low_const_CONFIRMATION_CODE_PREFIX : Low (fun _ => some 0) (const_CONFIRMATION_CODE_PREFIX H) := low_of_sim (K := anything) (sim_const_CONFIRMATION_CODE_PREFIX H)
macro_rules | `(tactic| low_known) => `(tactic| exact low_const_CONFIRMATION_CODE_PREFIX _)

theorem low_const_N : Low (fun _ => some 0) (const_N H) := low_of_sim (K := anything) (sim_const_N H)
macro_rules | `(tactic| low_known) => `(tactic| exact low_const_N _)

theorem low_const_COORDINATE_POINT_LENGTH : Low (fun _ => some 0) (const_COORDINATE_POINT_LENGTH H) := low_of_sim (K := anything) (sim_const_COORDINATE_POINT_LENGTH H)
macro_rules | `(tactic| low_known) => `(tactic| exact low_const_COORDINATE_POINT_LENGTH _)

theorem low_const_PRIVATE_KEY_LENGTH : Low (fun _ => some 0) (const_PRIVATE_KEY_LENGTH H) := low_of_sim (K := anything) (sim_const_PRIVATE_KEY_LENGTH H)
macro_rules | `(tactic| low_known) => `(tactic| exact low_const_PRIVATE_KEY_LENGTH _)

theorem low_const_UNCOMPRESSED_PRIVATE_KEY_PREFIX : Low (fun _ => some 0) (const_UNCOMPRESSED_PRIVATE_KEY_PREFIX H) := low_of_sim (K := anything) (sim_const_UNCOMPRESSED_PRIVATE_KEY_PREFIX H)
macro_rules | `(tactic| low_known) => `(tactic| exact low_const_UNCOMPRESSED_PRIVATE_KEY_PREFIX _)

theorem low_const_COMPRESSED_PRIVATE_KEY_PREFIX : Low (fun _ => some 0) (const_COMPRESSED_PRIVATE_KEY_PREFIX H) := low_of_sim (K := anything) (sim_const_COMPRESSED_PRIVATE_KEY_PREFIX H)
macro_rules | `(tactic| low_known) => `(tactic| exact low_const_COMPRESSED_PRIVATE_KEY_PREFIX _)

theorem low_const_COMPRESSED_PUBLIC_KEY_LENGTH : Low (fun _ => some 0) (const_COMPRESSED_PUBLIC_KEY_LENGTH H) := low_of_sim (K := anything) (sim_const_COMPRESSED_PUBLIC_KEY_LENGTH H)
macro_rules | `(tactic| low_known) => `(tactic| exact low_const_COMPRESSED_PUBLIC_KEY_LENGTH _)

theorem low_const_UNCOMPRESSED_PUBLIC_KEY_LENGTH : Low (fun _ => some 0) (const_UNCOMPRESSED_PUBLIC_KEY_LENGTH H) := low_of_sim (K := anything) (sim_const_UNCOMPRESSED_PUBLIC_KEY_LENGTH H)
macro_rules | `(tactic| low_known) => `(tactic| exact low_const_UNCOMPRESSED_PUBLIC_KEY_LENGTH _)

theorem low_const_EVEN_COMPRESSED_PUBLIC_KEY_PREFIX : Low (fun _ => some 0) (const_EVEN_COMPRESSED_PUBLIC_KEY_PREFIX H) := low_of_sim (K := anything) (sim_const_EVEN_COMPRESSED_PUBLIC_KEY_PREFIX H)
macro_rules | `(tactic| low_known) => `(tactic| exact low_const_EVEN_COMPRESSED_PUBLIC_KEY_PREFIX _)

theorem low_const_ODD_COMPRESSED_PUBLIC_KEY_PREFIX : Low (fun _ => some 0) (const_ODD_COMPRESSED_PUBLIC_KEY_PREFIX H) := low_of_sim (K := anything) (sim_const_ODD_COMPRESSED_PUBLIC_KEY_PREFIX H)
macro_rules | `(tactic| low_known) => `(tactic| exact low_const_ODD_COMPRESSED_PUBLIC_KEY_PREFIX _)

theorem low_const_UNCOMPRESSED_PUBLIC_KEY_PREFIX : Low (fun _ => some 0) (const_UNCOMPRESSED_PUBLIC_KEY_PREFIX H) := low_of_sim (K := anything) (sim_const_UNCOMPRESSED_PUBLIC_KEY_PREFIX H)
macro_rules | `(tactic| low_known) => `(tactic| exact low_const_UNCOMPRESSED_PUBLIC_KEY_PREFIX _)

theorem low_const_CHECKSUM_BYTE_LENGTH : Low (fun _ => some 0) (const_CHECKSUM_BYTE_LENGTH H) := low_of_sim (K := anything) (sim_const_CHECKSUM_BYTE_LENGTH H)
macro_rules | `(tactic| low_known) => `(tactic| exact low_const_CHECKSUM_BYTE_LENGTH _)

theorem low_const_WIF_TYPES : Low (fun _ => some 0) (const_WIF_TYPES H) := low_of_sim (K := anything) (sim_const_WIF_TYPES H)
macro_rules | `(tactic| low_known) => `(tactic| exact low_const_WIF_TYPES _)

theorem low_const_PUBLIC_KEY_TYPES : Low (fun _ => some 0) (const_PUBLIC_KEY_TYPES H) := low_of_sim (K := anything) (sim_const_PUBLIC_KEY_TYPES H)
macro_rules | `(tactic| low_known) => `(tactic| exact low_const_PUBLIC_KEY_TYPES _)

theorem low_const_FLAGS : Low (fun _ => some 0) (const_FLAGS H) := low_of_sim (K := anything) (sim_const_FLAGS H)
macro_rules | `(tactic| low_known) => `(tactic| exact low_const_FLAGS _)

theorem low_utils_get_bytes : LowF (works []) (utils_get_bytes H) := by
  delta SrcX.utils_get_bytes SrcX.utils_get_bytes_L26 SrcX.utils_get_bytes_L25 SrcX.utils_get_bytes_L28 SrcX.utils_get_bytes_L31 SrcX.utils_get_bytes_L33 SrcX.utils_get_bytes_L30 SrcX.utils_get_bytes_L35 SrcX.utils_get_bytes_L29 SrcX.utils_get_bytes_L27
  low_function
macro_rules | `(tactic| low_known) => `(tactic| exact low_utils_get_bytes _)

theorem low_utils_bytes_reverse : LowF (fun _ => some 0) (utils_bytes_reverse H) := lowF_of_sim (K := anything) (sim_utils_bytes_reverse H)
macro_rules | `(tactic| low_known) => `(tactic| exact low_utils_bytes_reverse _)

theorem low_utils_bytes_to_string : LowF (works []) (utils_bytes_to_string H) := by
  delta SrcX.utils_bytes_to_string SrcX.utils_bytes_to_string_L66 SrcX.utils_bytes_to_string_L65 SrcX.utils_bytes_to_string_L68 SrcX.utils_bytes_to_string_L69 SrcX.utils_bytes_to_string_L71 SrcX.utils_bytes_to_string_L67 SrcX.utils_bytes_to_string_L73 SrcX.utils_bytes_to_string_L72 SrcX.utils_bytes_to_string_L74
  low_function
macro_rules | `(tactic| low_known) => `(tactic| exact low_utils_bytes_to_string _)

theorem low_utils_bytes_to_integer : LowF (works []) (utils_bytes_to_integer H) := by
  delta SrcX.utils_bytes_to_integer SrcX.utils_bytes_to_integer_L92
  low_function
macro_rules | `(tactic| low_known) => `(tactic| exact low_utils_bytes_to_integer _)

theorem low_utils_integer_to_bytes : LowF (works []) (utils_integer_to_bytes H) := by
  delta SrcX.utils_integer_to_bytes SrcX.utils_integer_to_bytes_L114 SrcX.utils_integer_to_bytes_L115
  low_function
macro_rules | `(tactic| low_known) => `(tactic| exact low_utils_integer_to_bytes _)

theorem low_base58_base58_alphabet : Low (fun _ => some 0) (base58_base58_alphabet H) := low_of_sim (K := anything) (sim_base58_base58_alphabet H)
macro_rules | `(tactic| low_known) => `(tactic| exact low_base58_base58_alphabet _)

theorem low_base58_string_to_int : LowF (fun _ => some 0) (base58_string_to_int H) := lowF_of_sim (K := anything) (sim_base58_string_to_int H)
macro_rules | `(tactic| low_known) => `(tactic| exact low_base58_string_to_int _)

theorem low_base58_ensure_string : LowF (works []) (base58_ensure_string H) := by
  delta SrcX.base58_ensure_string SrcX.base58_ensure_string_L23 SrcX.base58_ensure_string_L25 SrcX.base58_ensure_string_L24 SrcX.base58_ensure_string_L22 SrcX.base58_ensure_string_L26
  low_function
macro_rules | `(tactic| low_known) => `(tactic| exact low_base58_ensure_string _)

theorem low_base58_encode : LowF (fun _ => some 0) (base58_encode H) := lowF_of_sim (K := anything) (sim_base58_encode H)
macro_rules | `(tactic| low_known) => `(tactic| exact low_base58_encode _)

theorem low_base58_check_encode : LowF (works [(.of .sha256, 2), (.of .digest, 2)]) (base58_check_encode H) := by
  delta SrcX.base58_check_encode SrcX.base58_check_encode_L43 SrcX.base58_check_encode_L44
  low_function
macro_rules | `(tactic| low_known) => `(tactic| exact low_base58_check_encode _)

theorem low_base58_decode : LowF (fun _ => some 0) (base58_decode H) := lowF_of_sim (K := anything) (sim_base58_decode H)
macro_rules | `(tactic| low_known) => `(tactic| exact low_base58_decode _)

theorem low_base58_check_decode : LowF (works [(.of .sha256, 2), (.of .digest, 2)]) (base58_check_decode H) := by
  delta SrcX.base58_check_decode SrcX.base58_check_decode_L69 SrcX.base58_check_decode_L70 SrcX.base58_check_decode_L72 SrcX.base58_check_decode_L74 SrcX.base58_check_decode_L71
  low_function
macro_rules | `(tactic| low_known) => `(tactic| exact low_base58_check_decode _)

theorem low_ripemd160_ML : Low (fun _ => some 0) (ripemd160_ML H) := low_of_sim (K := anything) (sim_ripemd160_ML H)
macro_rules | `(tactic| low_known) => `(tactic| exact low_ripemd160_ML _)

theorem low_ripemd160_MR : Low (fun _ => some 0) (ripemd160_MR H) := low_of_sim (K := anything) (sim_ripemd160_MR H)
macro_rules | `(tactic| low_known) => `(tactic| exact low_ripemd160_MR _)

theorem low_ripemd160_RL : Low (fun _ => some 0) (ripemd160_RL H) := low_of_sim (K := anything) (sim_ripemd160_RL H)
macro_rules | `(tactic| low_known) => `(tactic| exact low_ripemd160_RL _)

theorem low_ripemd160_RR : Low (fun _ => some 0) (ripemd160_RR H) := low_of_sim (K := anything) (sim_ripemd160_RR H)
macro_rules | `(tactic| low_known) => `(tactic| exact low_ripemd160_RR _)

theorem low_ripemd160_KL : Low (fun _ => some 0) (ripemd160_KL H) := low_of_sim (K := anything) (sim_ripemd160_KL H)
macro_rules | `(tactic| low_known) => `(tactic| exact low_ripemd160_KL _)

theorem low_ripemd160_KR : Low (fun _ => some 0) (ripemd160_KR H) := low_of_sim (K := anything) (sim_ripemd160_KR H)
macro_rules | `(tactic| low_known) => `(tactic| exact low_ripemd160_KR _)

theorem low_ripemd160_fi : LowF (fun _ => some 0) (ripemd160_fi H) := lowF_of_sim (K := anything) (sim_ripemd160_fi H)
macro_rules | `(tactic| low_known) => `(tactic| exact low_ripemd160_fi _)

theorem low_ripemd160_rol : LowF (works []) (ripemd160_rol H) := by
  delta SrcX.ripemd160_rol SrcX.ripemd160_rol_L78
  low_function
macro_rules | `(tactic| low_known) => `(tactic| exact low_ripemd160_rol _)

theorem low_ripemd160_compress : LowF (fun _ => some 0) (ripemd160_compress H) := lowF_of_sim (K := anything) (sim_ripemd160_compress H)
macro_rules | `(tactic| low_known) => `(tactic| exact low_ripemd160_compress _)

theorem low_ripemd160_ripemd160 : LowF (fun _ => some 0) (ripemd160_ripemd160 H) := lowF_of_sim (K := anything) (sim_ripemd160_ripemd160 H)
macro_rules | `(tactic| low_known) => `(tactic| exact low_ripemd160_ripemd160 _)

theorem low_crypto_ripemd160 : LowF (works []) (crypto_ripemd160 H) := by
  delta SrcX.crypto_ripemd160 SrcX.crypto_ripemd160_L27
  low_function
macro_rules | `(tactic| low_known) => `(tactic| exact low_crypto_ripemd160 _)

theorem low_crypto_sha256 : LowF (works [(.of .sha256, 1), (.of .digest, 1)]) (crypto_sha256 H) := by
  delta SrcX.crypto_sha256 SrcX.crypto_sha256_L45
  low_function
macro_rules | `(tactic| low_known) => `(tactic| exact low_crypto_sha256 _)

theorem low_crypto_double_sha256 : LowF (works [(.of .sha256, 2), (.of .digest, 2)]) (crypto_double_sha256 H) := by
  delta SrcX.crypto_double_sha256 SrcX.crypto_double_sha256_L59
  low_function
macro_rules | `(tactic| low_known) => `(tactic| exact low_crypto_double_sha256 _)

theorem low_crypto_get_checksum : LowF (works [(.of .sha256, 2), (.of .digest, 2)]) (crypto_get_checksum H) := by
  delta SrcX.crypto_get_checksum SrcX.crypto_get_checksum_L76
  low_function
macro_rules | `(tactic| low_known) => `(tactic| exact low_crypto_get_checksum _)

theorem low_crypto_hash160 : LowF (works [(.of .sha256, 1), (.of .digest, 1)]) (crypto_hash160 H) := by
  delta SrcX.crypto_hash160 SrcX.crypto_hash160_L90
  low_function
macro_rules | `(tactic| low_known) => `(tactic| exact low_crypto_hash160 _)

theorem low_Point_init : LowF (works []) (Point_init H) := by
  delta SrcX.Point_init SrcX.Point_init_L32
  low_function
macro_rules | `(tactic| low_known) => `(tactic| exact low_Point_init _)

theorem low_Point_from_coordinates : LowF (works [(.of .ecdsa, 2)]) (Point_from_coordinates H) := by
  delta SrcX.Point_from_coordinates SrcX.Point_from_coordinates_L74
  low_function
macro_rules | `(tactic| low_known) => `(tactic| exact low_Point_from_coordinates _)

theorem low_Point_from_bytes : LowF (works [(.of .ecdsa, 1)]) (Point_from_bytes H) := by
  delta SrcX.Point_from_bytes SrcX.Point_from_bytes_L47 SrcX.Point_from_bytes_L53 SrcX.Point_from_bytes_L55 SrcX.Point_from_bytes_L46
  low_function
macro_rules | `(tactic| low_known) => `(tactic| exact low_Point_from_bytes _)

theorem low_Point_underlying_object : LowF (works []) (Point_underlying_object H) := by
  delta SrcX.Point_underlying_object SrcX.Point_underlying_object_L88
  low_function
macro_rules | `(tactic| low_known) => `(tactic| exact low_Point_underlying_object _)

theorem low_Point_x : LowF (works [(.of .ecdsa, 1)]) (Point_x H) := by
  delta SrcX.Point_x SrcX.Point_x_L98
  low_function
macro_rules | `(tactic| low_known) => `(tactic| exact low_Point_x _)

theorem low_Point_y : LowF (works [(.of .ecdsa, 1)]) (Point_y H) := by
  delta SrcX.Point_y SrcX.Point_y_L108
  low_function
macro_rules | `(tactic| low_known) => `(tactic| exact low_Point_y _)

theorem low_Point_raw_encoded : LowF (works []) (Point_raw_encoded H) := by
  delta SrcX.Point_raw_encoded SrcX.Point_raw_encoded_L129 SrcX.Point_raw_encoded_L131 SrcX.Point_raw_encoded_L134 SrcX.Point_raw_encoded_L128
  low_function
macro_rules | `(tactic| low_known) => `(tactic| exact low_Point_raw_encoded _)

theorem low_Point_raw_decoded : LowF (works []) (Point_raw_decoded H) := by
  delta SrcX.Point_raw_decoded SrcX.Point_raw_decoded_L145 SrcX.Point_raw_decoded_L147 SrcX.Point_raw_decoded_L150 SrcX.Point_raw_decoded_L153 SrcX.Point_raw_decoded_L144
  low_function
macro_rules | `(tactic| low_known) => `(tactic| exact low_Point_raw_decoded _)

theorem low_Point_raw : LowF (works []) (Point_raw H) := by
  delta SrcX.Point_raw SrcX.Point_raw_L118
  low_function
macro_rules | `(tactic| low_known) => `(tactic| exact low_Point_raw _)

theorem low_Point_add : LowF (works []) (Point_add H) := by
  delta SrcX.Point_add SrcX.Point_add_L166
  low_function
macro_rules | `(tactic| low_known) => `(tactic| exact low_Point_add _)

theorem low_Point_radd : LowF (works []) (Point_radd H) := by
  delta SrcX.Point_radd SrcX.Point_radd_L179
  low_function
macro_rules | `(tactic| low_known) => `(tactic| exact low_Point_radd _)

theorem low_Point_mul : LowF (works []) (Point_mul H) := by
  delta SrcX.Point_mul SrcX.Point_mul_L192
  low_function
macro_rules | `(tactic| low_known) => `(tactic| exact low_Point_mul _)

theorem low_Point_rmul : LowF (works []) (Point_rmul H) := by
  delta SrcX.Point_rmul SrcX.Point_rmul_L205
  low_function
macro_rules | `(tactic| low_known) => `(tactic| exact low_Point_rmul _)

theorem low_PublicKey_init : LowF (works []) (PublicKey_init H) := by
  delta SrcX.PublicKey_init SrcX.PublicKey_init_L33
  low_function
macro_rules | `(tactic| low_known) => `(tactic| exact low_PublicKey_init _)

theorem low_PublicKey_from_bytes : LowF (works [(.of .ecdsa, 1)]) (PublicKey_from_bytes H) := by
  delta SrcX.PublicKey_from_bytes SrcX.PublicKey_from_bytes_L48 SrcX.PublicKey_from_bytes_L54 SrcX.PublicKey_from_bytes_L47
  low_function
macro_rules | `(tactic| low_known) => `(tactic| exact low_PublicKey_from_bytes _)

theorem low_PublicKey_from_point : LowF (works [(.of .ecdsa, 4)]) (PublicKey_from_point H) := by
  delta SrcX.PublicKey_from_point SrcX.PublicKey_from_point_L69 SrcX.PublicKey_from_point_L78 SrcX.PublicKey_from_point_L68
  low_function
macro_rules | `(tactic| low_known) => `(tactic| exact low_PublicKey_from_point _)

theorem low_PublicKey_compressed_length : LowF (works []) (PublicKey_compressed_length H) := by
  delta SrcX.PublicKey_compressed_length SrcX.PublicKey_compressed_length_L89
  low_function
macro_rules | `(tactic| low_known) => `(tactic| exact low_PublicKey_compressed_length _)

theorem low_PublicKey_uncompressed_length : LowF (works []) (PublicKey_uncompressed_length H) := by
  delta SrcX.PublicKey_uncompressed_length SrcX.PublicKey_uncompressed_length_L100
  low_function
macro_rules | `(tactic| low_known) => `(tactic| exact low_PublicKey_uncompressed_length _)

theorem low_PublicKey_underlying_object : LowF (works []) (PublicKey_underlying_object H) := by
  delta SrcX.PublicKey_underlying_object SrcX.PublicKey_underlying_object_L110
  low_function
macro_rules | `(tactic| low_known) => `(tactic| exact low_PublicKey_underlying_object _)

theorem low_PublicKey_raw_compressed : LowF (works [(.of .ecdsa, 1)]) (PublicKey_raw_compressed H) := by
  delta SrcX.PublicKey_raw_compressed SrcX.PublicKey_raw_compressed_L130
  low_function
macro_rules | `(tactic| low_known) => `(tactic| exact low_PublicKey_raw_compressed _)

theorem low_PublicKey_raw_uncompressed : LowF (works [(.of .ecdsa, 1)]) (PublicKey_raw_uncompressed H) := by
  delta SrcX.PublicKey_raw_uncompressed SrcX.PublicKey_raw_uncompressed_L140
  low_function
macro_rules | `(tactic| low_known) => `(tactic| exact low_PublicKey_raw_uncompressed _)

theorem low_PublicKey_raw : LowF (works [(.of .ecdsa, 1)]) (PublicKey_raw H) := by
  delta SrcX.PublicKey_raw SrcX.PublicKey_raw_L120
  low_function
macro_rules | `(tactic| low_known) => `(tactic| exact low_PublicKey_raw _)

theorem low_PublicKey_point : LowF (works []) (PublicKey_point H) := by
  delta SrcX.PublicKey_point SrcX.PublicKey_point_L150
  low_function
macro_rules | `(tactic| low_known) => `(tactic| exact low_PublicKey_point _)

theorem low_PrivateKey_init : LowF (works []) (PrivateKey_init H) := by
  delta SrcX.PrivateKey_init SrcX.PrivateKey_init_L30
  low_function
macro_rules | `(tactic| low_known) => `(tactic| exact low_PrivateKey_init _)

theorem low_PrivateKey_from_bytes : LowF (works [(.of .ecdsa, 1)]) (PrivateKey_from_bytes H) := by
  delta SrcX.PrivateKey_from_bytes SrcX.PrivateKey_from_bytes_L45 SrcX.PrivateKey_from_bytes_L51 SrcX.PrivateKey_from_bytes_L44
  low_function
macro_rules | `(tactic| low_known) => `(tactic| exact low_PrivateKey_from_bytes _)

theorem low_PrivateKey_length : LowF (works []) (PrivateKey_length H) := by
  delta SrcX.PrivateKey_length SrcX.PrivateKey_length_L62
  low_function
macro_rules | `(tactic| low_known) => `(tactic| exact low_PrivateKey_length _)

theorem low_PrivateKey_underlying_object : LowF (works []) (PrivateKey_underlying_object H) := by
  delta SrcX.PrivateKey_underlying_object SrcX.PrivateKey_underlying_object_L72
  low_function
macro_rules | `(tactic| low_known) => `(tactic| exact low_PrivateKey_underlying_object _)

theorem low_PrivateKey_raw : LowF (works [(.of .ecdsa, 1)]) (PrivateKey_raw H) := by
  delta SrcX.PrivateKey_raw SrcX.PrivateKey_raw_L82
  low_function
macro_rules | `(tactic| low_known) => `(tactic| exact low_PrivateKey_raw _)

theorem low_PrivateKey_public_key : LowF (works [(.of .ecdsa, 1)]) (PrivateKey_public_key H) := by
  delta SrcX.PrivateKey_public_key SrcX.PrivateKey_public_key_L92
  low_function
macro_rules | `(tactic| low_known) => `(tactic| exact low_PrivateKey_public_key _)

theorem low_wif_encode_wif : LowF (works [(.of .sha256, 4), (.of .digest, 4)]) (wif_encode_wif H) := by
  delta SrcX.wif_encode_wif SrcX.wif_encode_wif_L45 SrcX.wif_encode_wif_L44 SrcX.wif_encode_wif_L47 SrcX.wif_encode_wif_L50 SrcX.wif_encode_wif_L53
  low_function
macro_rules | `(tactic| low_known) => `(tactic| exact low_wif_encode_wif _)

theorem low_wif_decode_wif : LowF (works []) (wif_decode_wif H) := by
  delta SrcX.wif_decode_wif SrcX.wif_decode_wif_L74 SrcX.wif_decode_wif_L76 SrcX.wif_decode_wif_L75 SrcX.wif_decode_wif_L78 SrcX.wif_decode_wif_L79 SrcX.wif_decode_wif_L81 SrcX.wif_decode_wif_L80 SrcX.wif_decode_wif_L83 SrcX.wif_decode_wif_L84 SrcX.wif_decode_wif_L85 SrcX.wif_decode_wif_L86 SrcX.wif_decode_wif_L89 SrcX.wif_decode_wif_L91 SrcX.wif_decode_wif_L92 SrcX.wif_decode_wif_L90 SrcX.wif_decode_wif_L88 SrcX.wif_decode_wif_L94
  low_function
macro_rules | `(tactic| low_known) => `(tactic| exact low_wif_decode_wif _)

theorem low_wif_private_key_to_wif : LowF (works [(.of .sha256, 4), (.of .digest, 4)]) (wif_private_key_to_wif H) := by
  delta SrcX.wif_private_key_to_wif SrcX.wif_private_key_to_wif_L120 SrcX.wif_private_key_to_wif_L119 SrcX.wif_private_key_to_wif_L121 SrcX.wif_private_key_to_wif_L124
  low_function
macro_rules | `(tactic| low_known) => `(tactic| exact low_wif_private_key_to_wif _)

theorem low_wif_wif_to_private_key : LowF (works []) (wif_wif_to_private_key H) := by
  delta SrcX.wif_wif_to_private_key SrcX.wif_wif_to_private_key_L144
  low_function
macro_rules | `(tactic| low_known) => `(tactic| exact low_wif_wif_to_private_key _)

theorem low_wif_get_wif_type : LowF (works []) (wif_get_wif_type H) := by
  delta SrcX.wif_get_wif_type SrcX.wif_get_wif_type_L166
  low_function
macro_rules | `(tactic| low_known) => `(tactic| exact low_wif_get_wif_type _)

theorem low_wif_get_wif_checksum : LowF (works []) (wif_get_wif_checksum H) := by
  delta SrcX.wif_get_wif_checksum SrcX.wif_get_wif_checksum_L188
  low_function
macro_rules | `(tactic| low_known) => `(tactic| exact low_wif_get_wif_checksum _)

theorem low_P2PKHAddress_address_prefix : Low (fun _ => some 0) (P2PKHAddress_address_prefix H) := low_of_sim (K := anything) (sim_P2PKHAddress_address_prefix H)
macro_rules | `(tactic| low_known) => `(tactic| exact low_P2PKHAddress_address_prefix _)

theorem low_P2PKHAddress_alphabet : Low (fun _ => some 0) (P2PKHAddress_alphabet H) := low_of_sim (K := anything) (sim_P2PKHAddress_alphabet H)
macro_rules | `(tactic| low_known) => `(tactic| exact low_P2PKHAddress_alphabet _)

theorem low_P2PKHAddress_encode : LowF (works [(.of .sha256, 3), (.of .digest, 3)]) (P2PKHAddress_encode H) := by
  delta SrcX.P2PKHAddress_encode SrcX.P2PKHAddress_encode_L45 SrcX.P2PKHAddress_encode_L50 SrcX.P2PKHAddress_encode_L49 SrcX.P2PKHAddress_encode_L52 SrcX.P2PKHAddress_encode_L58
  low_function
macro_rules | `(tactic| low_known) => `(tactic| exact low_P2PKHAddress_encode _)

theorem low_P2PKHAddress_decode : LowF (works [(.of .sha256, 2), (.of .digest, 2)]) (P2PKHAddress_decode H) := by
  delta SrcX.P2PKHAddress_decode SrcX.P2PKHAddress_decode_L80 SrcX.P2PKHAddress_decode_L83 SrcX.P2PKHAddress_decode_L89 SrcX.P2PKHAddress_decode_L91 SrcX.P2PKHAddress_decode_L90 SrcX.P2PKHAddress_decode_L93 SrcX.P2PKHAddress_decode_L95 SrcX.P2PKHAddress_decode_L94 SrcX.P2PKHAddress_decode_L97
  low_function
macro_rules | `(tactic| low_known) => `(tactic| exact low_P2PKHAddress_decode _)

theorem low_BIP38_init : LowF (works []) (BIP38_init H) := by
  delta SrcX.BIP38_init SrcX.BIP38_init_L76 SrcX.BIP38_init_L75 SrcX.BIP38_init_L79 SrcX.BIP38_init_L83 SrcX.BIP38_init_L82 SrcX.BIP38_init_L84
  low_function
macro_rules | `(tactic| low_known) => `(tactic| exact low_BIP38_init _)

theorem low_BIP38_intermediate_code : LowF (works [(.of .sha256, 2), (.of .digest, 2), (.of .normalize, 1), (.of .scrypt, 1), (.of .ecdsa, 1), (.slow, 1)]) (BIP38_intermediate_code H) := by
  delta SrcX.BIP38_intermediate_code SrcX.BIP38_intermediate_code_L122 SrcX.BIP38_intermediate_code_L124 SrcX.BIP38_intermediate_code_L123 SrcX.BIP38_intermediate_code_L126 SrcX.BIP38_intermediate_code_L125 SrcX.BIP38_intermediate_code_L128 SrcX.BIP38_intermediate_code_L127 SrcX.BIP38_intermediate_code_L131 SrcX.BIP38_intermediate_code_L133 SrcX.BIP38_intermediate_code_L132 SrcX.BIP38_intermediate_code_L135 SrcX.BIP38_intermediate_code_L134 SrcX.BIP38_intermediate_code_L137 SrcX.BIP38_intermediate_code_L138 SrcX.BIP38_intermediate_code_L139 SrcX.BIP38_intermediate_code_L140 SrcX.BIP38_intermediate_code_L142 SrcX.BIP38_intermediate_code_L143 SrcX.BIP38_intermediate_code_L144 SrcX.BIP38_intermediate_code_L130 SrcX.BIP38_intermediate_code_L146 SrcX.BIP38_intermediate_code_L149
  low_function
macro_rules | `(tactic| low_known) => `(tactic| exact low_BIP38_intermediate_code _)

theorem low_BIP38_encrypt : LowF (works [(.of .sha256, 7), (.of .digest, 7), (.of .normalize, 1), (.of .scrypt, 1), (.of .aes, 1), (.of .aesEncrypt, 2), (.of .ecdsa, 1), (.slow, 1)]) (BIP38_encrypt H) := by
  delta SrcX.BIP38_encrypt SrcX.BIP38_encrypt_L180 SrcX.BIP38_encrypt_L184 SrcX.BIP38_encrypt_L183 SrcX.BIP38_encrypt_L185 SrcX.BIP38_encrypt_L189 SrcX.BIP38_encrypt_L190 SrcX.BIP38_encrypt_L193 SrcX.BIP38_encrypt_L195 SrcX.BIP38_encrypt_L196 SrcX.BIP38_encrypt_L199 SrcX.BIP38_encrypt_L188 SrcX.BIP38_encrypt_L201 SrcX.BIP38_encrypt_L206 SrcX.BIP38_encrypt_L207 SrcX.BIP38_encrypt_L208 SrcX.BIP38_encrypt_L210 SrcX.BIP38_encrypt_L211 SrcX.BIP38_encrypt_L214 SrcX.BIP38_encrypt_L218 SrcX.BIP38_encrypt_L223
  low_function
macro_rules | `(tactic| low_known) => `(tactic| exact low_BIP38_encrypt _)

theorem low_BIP38_create_new_encrypted_wif : LowF (works [(.of .sha256, 13), (.of .digest, 13), (.of .scrypt, 1), (.of .aes, 1), (.of .aesEncrypt, 4), (.of .ecdsa, 6), (.fast, 1)]) (BIP38_create_new_encrypted_wif H) := by
  delta SrcX.BIP38_create_new_encrypted_wif SrcX.BIP38_create_new_encrypted_wif_L258 SrcX.BIP38_create_new_encrypted_wif_L262 SrcX.BIP38_create_new_encrypted_wif_L261 SrcX.BIP38_create_new_encrypted_wif_L263 SrcX.BIP38_create_new_encrypted_wif_L265 SrcX.BIP38_create_new_encrypted_wif_L267 SrcX.BIP38_create_new_encrypted_wif_L264 SrcX.BIP38_create_new_encrypted_wif_L269 SrcX.BIP38_create_new_encrypted_wif_L268 SrcX.BIP38_create_new_encrypted_wif_L271 SrcX.BIP38_create_new_encrypted_wif_L272 SrcX.BIP38_create_new_encrypted_wif_L273 SrcX.BIP38_create_new_encrypted_wif_L276 SrcX.BIP38_create_new_encrypted_wif_L278 SrcX.BIP38_create_new_encrypted_wif_L280 SrcX.BIP38_create_new_encrypted_wif_L277 SrcX.BIP38_create_new_encrypted_wif_L275 SrcX.BIP38_create_new_encrypted_wif_L284 SrcX.BIP38_create_new_encrypted_wif_L286 SrcX.BIP38_create_new_encrypted_wif_L283 SrcX.BIP38_create_new_encrypted_wif_L289 SrcX.BIP38_create_new_encrypted_wif_L291 SrcX.BIP38_create_new_encrypted_wif_L288 SrcX.BIP38_create_new_encrypted_wif_L293 SrcX.BIP38_create_new_encrypted_wif_L287 SrcX.BIP38_create_new_encrypted_wif_L282 SrcX.BIP38_create_new_encrypted_wif_L300 SrcX.BIP38_create_new_encrypted_wif_L302 SrcX.BIP38_create_new_encrypted_wif_L301 SrcX.BIP38_create_new_encrypted_wif_L304 SrcX.BIP38_create_new_encrypted_wif_L307 SrcX.BIP38_create_new_encrypted_wif_L312 SrcX.BIP38_create_new_encrypted_wif_L313 SrcX.BIP38_create_new_encrypted_wif_L314 SrcX.BIP38_create_new_encrypted_wif_L315 SrcX.BIP38_create_new_encrypted_wif_L317 SrcX.BIP38_create_new_encrypted_wif_L318 SrcX.BIP38_create_new_encrypted_wif_L321 SrcX.BIP38_create_new_encrypted_wif_L324 SrcX.BIP38_create_new_encrypted_wif_L329 SrcX.BIP38_create_new_encrypted_wif_L330 SrcX.BIP38_create_new_encrypted_wif_L333 SrcX.BIP38_create_new_encrypted_wif_L336 SrcX.BIP38_create_new_encrypted_wif_L339 SrcX.BIP38_create_new_encrypted_wif_L342 SrcX.BIP38_create_new_encrypted_wif_L346
  low_function
macro_rules | `(tactic| low_known) => `(tactic| exact low_BIP38_create_new_encrypted_wif _)

theorem low_BIP38_confirm_code : LowF (works [(.of .sha256, 7), (.of .digest, 7), (.of .normalize, 1), (.of .scrypt, 2), (.of .aes, 1), (.of .aesDecrypt, 2), (.of .ecdsa, 6), (.slow, 1), (.fast, 1)]) (BIP38_confirm_code H) := by
  delta SrcX.BIP38_confirm_code SrcX.BIP38_confirm_code_L386 SrcX.BIP38_confirm_code_L390 SrcX.BIP38_confirm_code_L389 SrcX.BIP38_confirm_code_L392 SrcX.BIP38_confirm_code_L394 SrcX.BIP38_confirm_code_L391 SrcX.BIP38_confirm_code_L396 SrcX.BIP38_confirm_code_L395 SrcX.BIP38_confirm_code_L398 SrcX.BIP38_confirm_code_L399 SrcX.BIP38_confirm_code_L401 SrcX.BIP38_confirm_code_L400 SrcX.BIP38_confirm_code_L403 SrcX.BIP38_confirm_code_L404 SrcX.BIP38_confirm_code_L405 SrcX.BIP38_confirm_code_L406 SrcX.BIP38_confirm_code_L408 SrcX.BIP38_confirm_code_L410 SrcX.BIP38_confirm_code_L411 SrcX.BIP38_confirm_code_L413 SrcX.BIP38_confirm_code_L409 SrcX.BIP38_confirm_code_L415 SrcX.BIP38_confirm_code_L417 SrcX.BIP38_confirm_code_L416 SrcX.BIP38_confirm_code_L419 SrcX.BIP38_confirm_code_L418 SrcX.BIP38_confirm_code_L421 SrcX.BIP38_confirm_code_L422 SrcX.BIP38_confirm_code_L423 SrcX.BIP38_confirm_code_L424 SrcX.BIP38_confirm_code_L426 SrcX.BIP38_confirm_code_L427 SrcX.BIP38_confirm_code_L430 SrcX.BIP38_confirm_code_L433 SrcX.BIP38_confirm_code_L436 SrcX.BIP38_confirm_code_L441 SrcX.BIP38_confirm_code_L444 SrcX.BIP38_confirm_code_L446 SrcX.BIP38_confirm_code_L445 SrcX.BIP38_confirm_code_L448 SrcX.BIP38_confirm_code_L440 SrcX.BIP38_confirm_code_L450 SrcX.BIP38_confirm_code_L456 SrcX.BIP38_confirm_code_L457 SrcX.BIP38_confirm_code_L460 SrcX.BIP38_confirm_code_L461 SrcX.BIP38_confirm_code_L459 SrcX.BIP38_confirm_code_L462 SrcX.BIP38_confirm_code_L458 SrcX.BIP38_confirm_code_L469 SrcX.BIP38_confirm_code_L455 SrcX.BIP38_confirm_code_L470
  low_function
macro_rules | `(tactic| low_known) => `(tactic| exact low_BIP38_confirm_code _)

theorem low_BIP38_decrypt : LowF (works [(.of .sha256, 9), (.of .digest, 9), (.of .normalize, 1), (.of .scrypt, 1), (.of .aes, 1), (.of .aesDecrypt, 2), (.of .ecdsa, 1), (.slow, 1)]) (BIP38_decrypt H) := by
  delta SrcX.BIP38_decrypt SrcX.BIP38_decrypt_L503 SrcX.BIP38_decrypt_L507 SrcX.BIP38_decrypt_L506 SrcX.BIP38_decrypt_L508 SrcX.BIP38_decrypt_L510 SrcX.BIP38_decrypt_L509 SrcX.BIP38_decrypt_L512 SrcX.BIP38_decrypt_L513 SrcX.BIP38_decrypt_L514 SrcX.BIP38_decrypt_L519 SrcX.BIP38_decrypt_L520 SrcX.BIP38_decrypt_L522 SrcX.BIP38_decrypt_L523 SrcX.BIP38_decrypt_L525 SrcX.BIP38_decrypt_L521 SrcX.BIP38_decrypt_L518 SrcX.BIP38_decrypt_L532 SrcX.BIP38_decrypt_L535 SrcX.BIP38_decrypt_L536 SrcX.BIP38_decrypt_L537 SrcX.BIP38_decrypt_L539 SrcX.BIP38_decrypt_L540 SrcX.BIP38_decrypt_L541 SrcX.BIP38_decrypt_L543 SrcX.BIP38_decrypt_L547 SrcX.BIP38_decrypt_L546 SrcX.BIP38_decrypt_L549 SrcX.BIP38_decrypt_L550 SrcX.BIP38_decrypt_L556 SrcX.BIP38_decrypt_L555 SrcX.BIP38_decrypt_L558 SrcX.BIP38_decrypt_L562 SrcX.BIP38_decrypt_L561 SrcX.BIP38_decrypt_L573 SrcX.BIP38_decrypt_L576 SrcX.BIP38_decrypt_L577 SrcX.BIP38_decrypt_L578 SrcX.BIP38_decrypt_L580 SrcX.BIP38_decrypt_L582 SrcX.BIP38_decrypt_L583 SrcX.BIP38_decrypt_L585 SrcX.BIP38_decrypt_L581 SrcX.BIP38_decrypt_L587 SrcX.BIP38_decrypt_L589 SrcX.BIP38_decrypt_L588 SrcX.BIP38_decrypt_L591 SrcX.BIP38_decrypt_L590 SrcX.BIP38_decrypt_L593 SrcX.BIP38_decrypt_L594 SrcX.BIP38_decrypt_L595 SrcX.BIP38_decrypt_L596 SrcX.BIP38_decrypt_L598 SrcX.BIP38_decrypt_L599 SrcX.BIP38_decrypt_L602 SrcX.BIP38_decrypt_L603 SrcX.BIP38_decrypt_L607 SrcX.BIP38_decrypt_L611 SrcX.BIP38_decrypt_L613 SrcX.BIP38_decrypt_L612 SrcX.BIP38_decrypt_L616 SrcX.BIP38_decrypt_L619 SrcX.BIP38_decrypt_L620 SrcX.BIP38_decrypt_L621 SrcX.BIP38_decrypt_L623 SrcX.BIP38_decrypt_L624 SrcX.BIP38_decrypt_L622 SrcX.BIP38_decrypt_L625 SrcX.BIP38_decrypt_L631 SrcX.BIP38_decrypt_L634 SrcX.BIP38_decrypt_L635 SrcX.BIP38_decrypt_L638 SrcX.BIP38_decrypt_L639 SrcX.BIP38_decrypt_L637 SrcX.BIP38_decrypt_L640 SrcX.BIP38_decrypt_L636 SrcX.BIP38_decrypt_L651 SrcX.BIP38_decrypt_L630 SrcX.BIP38_decrypt_L652 SrcX.BIP38_decrypt_L654 SrcX.BIP38_decrypt_L575 SrcX.BIP38_decrypt_L516
  low_function
macro_rules | `(tactic| low_known) => `(tactic| exact low_BIP38_decrypt _)

end Bip38.SrcX
