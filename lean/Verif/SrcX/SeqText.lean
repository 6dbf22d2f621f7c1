import Verif.SrcX.Seq
import Verif.SrcX.SimBip38
/-!
# The order of the external calls of every function of the repository (generated by `tools/gen_sim.py`, do not edit)

The sequences are computed from the text, for arguments of any kind; `r` says whether `hashlib` has RIPEMD-160.
-/
set_option linter.unusedVariables false
set_option linter.unusedSectionVars false
set_option linter.style.longLine false
namespace Bip38.SrcX

open Bip38.Src Bip38.Spec

theorem sq_pyLen : SqF (Seqs.idle) (pyLen) := fun _ _ => sq_lift _
macro_rules | `(tactic| sq_known) => `(tactic| exact sq_pyLen)

theorem sq_pyIsinstance : SqF (Seqs.idle) (pyIsinstance) := fun _ _ => sq_lift _
macro_rules | `(tactic| sq_known) => `(tactic| exact sq_pyIsinstance)

theorem sq_pyIssubclass : SqF (Seqs.idle) (pyIssubclass) := fun _ _ => sq_lift _
macro_rules | `(tactic| sq_known) => `(tactic| exact sq_pyIssubclass)

theorem sq_pyType : SqF (Seqs.idle) (pyType) := fun _ _ => sq_lift _
macro_rules | `(tactic| sq_known) => `(tactic| exact sq_pyType)

theorem sq_pyInt (H : Host) : SqF (Seqs.idle) (pyInt H) := fun _ _ => sq_lift _
macro_rules | `(tactic| sq_known) => `(tactic| exact sq_pyInt _)

theorem sq_pyList : SqF (Seqs.idle) (pyList) := fun _ _ => sq_lift _
macro_rules | `(tactic| sq_known) => `(tactic| exact sq_pyList)

theorem sq_pyRange : SqF (Seqs.idle) (pyRange) := fun _ _ => sq_lift _
macro_rules | `(tactic| sq_known) => `(tactic| exact sq_pyRange)

theorem sq_pyEnumerate : SqF (Seqs.idle) (pyEnumerate) := fun _ _ => sq_lift _
macro_rules | `(tactic| sq_known) => `(tactic| exact sq_pyEnumerate)

theorem sq_pyDivmod : SqF (Seqs.idle) (pyDivmod) := fun _ _ => sq_lift _
macro_rules | `(tactic| sq_known) => `(tactic| exact sq_pyDivmod)

theorem sq_pyBytes : SqF (Seqs.idle) (pyBytes) := fun _ _ => sq_lift _
macro_rules | `(tactic| sq_known) => `(tactic| exact sq_pyBytes)

theorem sq_pyBytearray : SqF (Seqs.idle) (pyBytearray) := fun _ _ => sq_lift _
macro_rules | `(tactic| sq_known) => `(tactic| exact sq_pyBytearray)

theorem sq_pyFromhex : SqF (Seqs.idle) (pyFromhex) := fun _ _ => sq_lift _
macro_rules | `(tactic| sq_known) => `(tactic| exact sq_pyFromhex)

theorem sq_pyFromBytes : SqF (Seqs.idle) (pyFromBytes) := fun _ _ => sq_lift _
macro_rules | `(tactic| sq_known) => `(tactic| exact sq_pyFromBytes)

theorem sq_pyException (c : ExcClass) : SqF (Seqs.idle) (pyException c) := fun _ _ => sq_lift _
macro_rules | `(tactic| sq_known) => `(tactic| exact sq_pyException _)

theorem sq_xUnpack : SqF (Seqs.idle) (xUnpack) := fun _ _ => sq_lift _
macro_rules | `(tactic| sq_known) => `(tactic| exact sq_xUnpack)

theorem sq_xPack : SqF (Seqs.idle) (xPack) := fun _ _ => sq_lift _
macro_rules | `(tactic| sq_known) => `(tactic| exact sq_xPack)

theorem sq_noMethod : SqM (Seqs.idle) (noMethod) := fun v a k => sq_lift (Src.noMethod v a k)
macro_rules | `(tactic| sq_known) => `(tactic| exact sq_noMethod)

theorem sq_mHex : SqM (Seqs.idle) (mHex) := fun v a k => sq_lift (Src.mHex v a k)
macro_rules | `(tactic| sq_known) => `(tactic| exact sq_mHex)

theorem sq_mBitLength : SqM (Seqs.idle) (mBitLength) := fun v a k => sq_lift (Src.mBitLength v a k)
macro_rules | `(tactic| sq_known) => `(tactic| exact sq_mBitLength)

theorem sq_mDecode : SqM (Seqs.idle) (mDecode) := fun v a k => sq_lift (Src.mDecode v a k)
macro_rules | `(tactic| sq_known) => `(tactic| exact sq_mDecode)

theorem sq_mEncode : SqM (Seqs.idle) (mEncode) := fun v a k => sq_lift (Src.mEncode v a k)
macro_rules | `(tactic| sq_known) => `(tactic| exact sq_mEncode)

theorem sq_mFind : SqM (Seqs.idle) (mFind) := fun v a k => sq_lift (Src.mFind v a k)
macro_rules | `(tactic| sq_known) => `(tactic| exact sq_mFind)

theorem sq_mLstrip : SqM (Seqs.idle) (mLstrip) := fun v a k => sq_lift (Src.mLstrip v a k)
macro_rules | `(tactic| sq_known) => `(tactic| exact sq_mLstrip)

theorem sq_mStartswith : SqM (Seqs.idle) (mStartswith) := fun v a k => sq_lift (Src.mStartswith v a k)
macro_rules | `(tactic| sq_known) => `(tactic| exact sq_mStartswith)

theorem sq_mKeys : SqM (Seqs.idle) (mKeys) := fun v a k => sq_lift (Src.mKeys v a k)
macro_rules | `(tactic| sq_known) => `(tactic| exact sq_mKeys)

theorem sq_mJoin : SqM (Seqs.idle) (mJoin) := fun v a k => sq_lift (Src.mJoin v a k)
macro_rules | `(tactic| sq_known) => `(tactic| exact sq_mJoin)

theorem sq_xSha256 (H : Host) : SqF (stepping [.sha256]) (xSha256 H) := sq_external _ _ _ fun _ _ => rfl
macro_rules | `(tactic| sq_known) => `(tactic| exact sq_xSha256 _)

theorem sq_xAlgorithms (H : Host) : Sq (Seqs.idle) (xAlgorithms H) := sq_lift _
macro_rules | `(tactic| sq_known) => `(tactic| exact sq_xAlgorithms _)

theorem sq_xHashNew (H : Host) : SqF (stepping [.ripemd160]) (xHashNew H) := sq_external _ _ _ fun _ _ => rfl
macro_rules | `(tactic| sq_known) => `(tactic| exact sq_xHashNew _)

theorem sq_mDigest : SqM (stepping []) (mDigest) := sq_externalMethod _ _ (fun _ _ => rfl) fun v _ _ h => by cases v <;> first | rfl | cases h
macro_rules | `(tactic| sq_known) => `(tactic| exact sq_mDigest)

theorem sq_xNormalize (H : Host) : SqF (stepping [.normalize]) (xNormalize H) := sq_external _ _ _ fun _ _ => rfl
macro_rules | `(tactic| sq_known) => `(tactic| exact sq_xNormalize _)

theorem sq_xAes : SqF (stepping []) (xAes) := sq_external _ _ _ fun _ _ => rfl
macro_rules | `(tactic| sq_known) => `(tactic| exact sq_xAes)

theorem sq_mEncrypt (H : Host) : SqM (stepping [.aesEncrypt]) (mEncrypt H) := sq_externalMethod _ _ (fun _ _ => rfl) fun v _ _ h => by cases v <;> first | rfl | cases h
macro_rules | `(tactic| sq_known) => `(tactic| exact sq_mEncrypt _)

theorem sq_mDecrypt (H : Host) : SqM (stepping [.aesDecrypt]) (mDecrypt H) := sq_externalMethod _ _ (fun _ _ => rfl) fun v _ _ h => by cases v <;> first | rfl | cases h
macro_rules | `(tactic| sq_known) => `(tactic| exact sq_mDecrypt _)

theorem sq_xPointFromBytes (H : Host) : SqF (stepping []) (xPointFromBytes H) := sq_external _ _ _ fun _ _ => rfl
macro_rules | `(tactic| sq_known) => `(tactic| exact sq_xPointFromBytes _)

theorem sq_xPoint : SqF (stepping []) (xPoint) := sq_external _ _ _ fun _ _ => rfl
macro_rules | `(tactic| sq_known) => `(tactic| exact sq_xPoint)

theorem sq_xFromAffine : SqF (stepping []) (xFromAffine) := sq_external _ _ _ fun _ _ => rfl
macro_rules | `(tactic| sq_known) => `(tactic| exact sq_xFromAffine)

theorem sq_mX : SqM (stepping []) (mX) := sq_externalMethod _ _ (fun _ _ => rfl) fun v _ _ h => by cases v <;> first | rfl | cases h
macro_rules | `(tactic| sq_known) => `(tactic| exact sq_mX)

theorem sq_mY : SqM (stepping []) (mY) := sq_externalMethod _ _ (fun _ _ => rfl) fun v _ _ h => by cases v <;> first | rfl | cases h
macro_rules | `(tactic| sq_known) => `(tactic| exact sq_mY)

theorem sq_mToBytes (H : Host) : SqM (Seqs.idle) (mToBytes H) := sq_otherMethod _ _ _ fun _ _ => rfl
macro_rules | `(tactic| sq_known) => `(tactic| exact sq_mToBytes _)

theorem sq_xVerifyingFromString : SqF (stepping []) (xVerifyingFromString) := sq_external _ _ _ fun _ _ => rfl
macro_rules | `(tactic| sq_known) => `(tactic| exact sq_xVerifyingFromString)

theorem sq_xVerifyingFromPoint : SqF (stepping []) (xVerifyingFromPoint) := sq_external _ _ _ fun _ _ => rfl
macro_rules | `(tactic| sq_known) => `(tactic| exact sq_xVerifyingFromPoint)

theorem sq_xSigningFromString : SqF (stepping []) (xSigningFromString) := sq_external _ _ _ fun _ _ => rfl
macro_rules | `(tactic| sq_known) => `(tactic| exact sq_xSigningFromString)

theorem sq_mToString : SqM (stepping []) (mToString) := sq_externalMethod _ _ (fun _ _ => rfl) fun v _ _ h => by cases v <;> first | rfl | cases h
macro_rules | `(tactic| sq_known) => `(tactic| exact sq_mToString)

theorem sq_mGetVerifyingKey : SqM (stepping []) (mGetVerifyingKey) := sq_externalMethod _ _ (fun _ _ => rfl) fun v _ _ h => by cases v <;> first | rfl | cases h
macro_rules | `(tactic| sq_known) => `(tactic| exact sq_mGetVerifyingKey)

variable (H : Host) {r : Bool} (hr : H.P.hashlibRipemd160.isSome = r)
include hr

theorem sq_Error_init (c : ExcClass) : SqF Seqs.idle (Error_init H c) := sqF_of_sim (K := anything) (sim_Error_init H c) fun _ => rfl
macro_rules | `(tactic| sq_known) => `(tactic| exact sq_Error_init _ (by assumption) _)

theorem sq_Error_str : SqF (Seqs.idle) (Error_str H) := by
  delta SrcX.Error_str SrcX.Error_str_L32 SrcX.Error_str_L34 SrcX.Error_str_L36 SrcX.Error_str_L38 SrcX.Error_str_L35 SrcX.Error_str_L33 SrcX.Error_str_L31
  sq_function r
macro_rules | `(tactic| sq_known) => `(tactic| exact sq_Error_str _ (by assumption))

theorem sq_const_NO_EC_MULTIPLIED_PRIVATE_KEY_PREFIX : Sq Seqs.idle (const_NO_EC_MULTIPLIED_PRIVATE_KEY_PREFIX H) := sq_of_sim (K := anything) (sim_const_NO_EC_MULTIPLIED_PRIVATE_KEY_PREFIX H) fun _ => rfl
macro_rules | `(tactic| sq_known) => `(tactic| exact sq_const_NO_EC_MULTIPLIED_PRIVATE_KEY_PREFIX _ (by assumption))

theorem sq_const_EC_MULTIPLIED_PRIVATE_KEY_PREFIX : Sq Seqs.idle (const_EC_MULTIPLIED_PRIVATE_KEY_PREFIX H) := sq_of_sim (K := anything) (sim_const_EC_MULTIPLIED_PRIVATE_KEY_PREFIX H) fun _ => rfl
macro_rules | `(tactic| sq_known) => `(tactic| exact sq_const_EC_MULTIPLIED_PRIVATE_KEY_PREFIX _ (by assumption))

theorem sq_const_NO_EC_MULTIPLIED_WIF_FLAG : Sq Seqs.idle (const_NO_EC_MULTIPLIED_WIF_FLAG H) := sq_of_sim (K := anything) (sim_const_NO_EC_MULTIPLIED_WIF_FLAG H) fun _ => rfl
macro_rules | `(tactic| sq_known) => `(tactic| exact sq_const_NO_EC_MULTIPLIED_WIF_FLAG _ (by assumption))

theorem sq_const_NO_EC_MULTIPLIED_WIF_COMPRESSED_FLAG : Sq Seqs.idle (const_NO_EC_MULTIPLIED_WIF_COMPRESSED_FLAG H) := sq_of_sim (K := anything) (sim_const_NO_EC_MULTIPLIED_WIF_COMPRESSED_FLAG H) fun _ => rfl
macro_rules | `(tactic| sq_known) => `(tactic| exact sq_const_NO_EC_MULTIPLIED_WIF_COMPRESSED_FLAG _ (by assumption))

theorem sq_const_MAGIC_LOT_AND_SEQUENCE : Sq Seqs.idle (const_MAGIC_LOT_AND_SEQUENCE H) := sq_of_sim (K := anything) (sim_const_MAGIC_LOT_AND_SEQUENCE H) fun _ => rfl
macro_rules | `(tactic| sq_known) => `(tactic| exact sq_const_MAGIC_LOT_AND_SEQUENCE _ (by assumption))

theorem sq_const_MAGIC_NO_LOT_AND_SEQUENCE : Sq Seqs.idle (const_MAGIC_NO_LOT_AND_SEQUENCE H) := sq_of_sim (K := anything) (sim_const_MAGIC_NO_LOT_AND_SEQUENCE H) fun _ => rfl
macro_rules | `(tactic| sq_known) => `(tactic| exact sq_const_MAGIC_NO_LOT_AND_SEQUENCE _ (by assumption))

theorem sq_const_MAGIC_LOT_AND_SEQUENCE_UNCOMPRESSED_FLAG : Sq Seqs.idle (const_MAGIC_LOT_AND_SEQUENCE_UNCOMPRESSED_FLAG H) := sq_of_sim (K := anything) (sim_const_MAGIC_LOT_AND_SEQUENCE_UNCOMPRESSED_FLAG H) fun _ => rfl
macro_rules | `(tactic| sq_known) => `(tactic| exact sq_const_MAGIC_LOT_AND_SEQUENCE_UNCOMPRESSED_FLAG _ (by assumption))

theorem sq_const_MAGIC_LOT_AND_SEQUENCE_COMPRESSED_FLAG : Sq Seqs.idle (const_MAGIC_LOT_AND_SEQUENCE_COMPRESSED_FLAG H) := sq_of_sim (K := anything) (sim_const_MAGIC_LOT_AND_SEQUENCE_COMPRESSED_FLAG H) fun _ => rfl
macro_rules | `(tactic| sq_known) => `(tactic| exact sq_const_MAGIC_LOT_AND_SEQUENCE_COMPRESSED_FLAG _ (by assumption))

theorem sq_const_MAGIC_NO_LOT_AND_SEQUENCE_UNCOMPRESSED_FLAG : Sq Seqs.idle (const_MAGIC_NO_LOT_AND_SEQUENCE_UNCOMPRESSED_FLAG H) := sq_of_sim (K := anything) (sim_const_MAGIC_NO_LOT_AND_SEQUENCE_UNCOMPRESSED_FLAG H) fun _ => rfl
macro_rules | `(tactic| sq_known) => `(tactic| exact sq_const_MAGIC_NO_LOT_AND_SEQUENCE_UNCOMPRESSED_FLAG _ (by assumption))

theorem sq_const_MAGIC_NO_LOT_AND_SEQUENCE_COMPRESSED_FLAG : Sq Seqs.idle (const_MAGIC_NO_LOT_AND_SEQUENCE_COMPRESSED_FLAG H) := sq_of_sim (K := anything) (sim_const_MAGIC_NO_LOT_AND_SEQUENCE_COMPRESSED_FLAG H) fun _ => rfl
macro_rules | `(tactic| sq_known) => `(tactic| exact sq_const_MAGIC_NO_LOT_AND_SEQUENCE_COMPRESSED_FLAG _ (by assumption))

theorem sq_const_CONFIRMATION_CODE_PREFIX : Sq Seqs.idle (const_CONFIRMATION_CODE_PREFIX H) := sq_of_sim (K := anything) (sim_const_CONFIRMATION_CODE_PREFIX H) fun _ => rfl
macro_rules | `(tactic| sq_known) => `(tactic| exact sq_const_CONFIRMATION_CODE_PREFIX _ (by assumption))

theorem sq_const_N : Sq Seqs.idle (const_N H) := sq_of_sim (K := anything) (sim_const_N H) fun _ => rfl
macro_rules | `(tactic| sq_known) => `(tactic| exact sq_const_N _ (by assumption))

theorem sq_const_COORDINATE_POINT_LENGTH : Sq Seqs.idle (const_COORDINATE_POINT_LENGTH H) := sq_of_sim (K := anything) (sim_const_COORDINATE_POINT_LENGTH H) fun _ => rfl
macro_rules | `(tactic| sq_known) => `(tactic| exact sq_const_COORDINATE_POINT_LENGTH _ (by assumption))

theorem sq_const_PRIVATE_KEY_LENGTH : Sq Seqs.idle (const_PRIVATE_KEY_LENGTH H) := sq_of_sim (K := anything) (sim_const_PRIVATE_KEY_LENGTH H) fun _ => rfl
macro_rules | `(tactic| sq_known) => `(tactic| exact sq_const_PRIVATE_KEY_LENGTH _ (by assumption))

theorem sq_const_UNCOMPRESSED_PRIVATE_KEY_PREFIX : Sq Seqs.idle (const_UNCOMPRESSED_PRIVATE_KEY_PREFIX H) := sq_of_sim (K := anything) (sim_const_UNCOMPRESSED_PRIVATE_KEY_PREFIX H) fun _ => rfl
macro_rules | `(tactic| sq_known) => `(tactic| exact sq_const_UNCOMPRESSED_PRIVATE_KEY_PREFIX _ (by assumption))

theorem sq_const_COMPRESSED_PRIVATE_KEY_PREFIX : Sq Seqs.idle (const_COMPRESSED_PRIVATE_KEY_PREFIX H) := sq_of_sim (K := anything) (sim_const_COMPRESSED_PRIVATE_KEY_PREFIX H) fun _ => rfl
macro_rules | `(tactic| sq_known) => `(tactic| exact sq_const_COMPRESSED_PRIVATE_KEY_PREFIX _ (by assumption))

theorem sq_const_COMPRESSED_PUBLIC_KEY_LENGTH : Sq Seqs.idle (const_COMPRESSED_PUBLIC_KEY_LENGTH H) := sq_of_sim (K := anything) (sim_const_COMPRESSED_PUBLIC_KEY_LENGTH H) fun _ => rfl
macro_rules | `(tactic| sq_known) => `(tactic| exact sq_const_COMPRESSED_PUBLIC_KEY_LENGTH _ (by assumption))

theorem sq_const_UNCOMPRESSED_PUBLIC_KEY_LENGTH : Sq Seqs.idle (const_UNCOMPRESSED_PUBLIC_KEY_LENGTH H) := sq_of_sim (K := anything) (sim_const_UNCOMPRESSED_PUBLIC_KEY_LENGTH H) fun _ => rfl
macro_rules | `(tactic| sq_known) => `(tactic| exact sq_const_UNCOMPRESSED_PUBLIC_KEY_LENGTH _ (by assumption))

theorem sq_const_EVEN_COMPRESSED_PUBLIC_KEY_PREFIX : Sq Seqs.idle (const_EVEN_COMPRESSED_PUBLIC_KEY_PREFIX H) := sq_of_sim (K := anything) (sim_const_EVEN_COMPRESSED_PUBLIC_KEY_PREFIX H) fun _ => rfl
macro_rules | `(tactic| sq_known) => `(tactic| exact sq_const_EVEN_COMPRESSED_PUBLIC_KEY_PREFIX _ (by assumption))

theorem sq_const_ODD_COMPRESSED_PUBLIC_KEY_PREFIX : Sq Seqs.idle (const_ODD_COMPRESSED_PUBLIC_KEY_PREFIX H) := sq_of_sim (K := anything) (sim_const_ODD_COMPRESSED_PUBLIC_KEY_PREFIX H) fun _ => rfl
macro_rules | `(tactic| sq_known) => `(tactic| exact sq_const_ODD_COMPRESSED_PUBLIC_KEY_PREFIX _ (by assumption))

theorem sq_const_UNCOMPRESSED_PUBLIC_KEY_PREFIX : Sq Seqs.idle (const_UNCOMPRESSED_PUBLIC_KEY_PREFIX H) := sq_of_sim (K := anything) (sim_const_UNCOMPRESSED_PUBLIC_KEY_PREFIX H) fun _ => rfl
macro_rules | `(tactic| sq_known) => `(tactic| exact sq_const_UNCOMPRESSED_PUBLIC_KEY_PREFIX _ (by assumption))

theorem sq_const_CHECKSUM_BYTE_LENGTH : Sq Seqs.idle (const_CHECKSUM_BYTE_LENGTH H) := sq_of_sim (K := anything) (sim_const_CHECKSUM_BYTE_LENGTH H) fun _ => rfl
macro_rules | `(tactic| sq_known) => `(tactic| exact sq_const_CHECKSUM_BYTE_LENGTH _ (by assumption))

theorem sq_const_WIF_TYPES : Sq Seqs.idle (const_WIF_TYPES H) := sq_of_sim (K := anything) (sim_const_WIF_TYPES H) fun _ => rfl
macro_rules | `(tactic| sq_known) => `(tactic| exact sq_const_WIF_TYPES _ (by assumption))

theorem sq_const_PUBLIC_KEY_TYPES : Sq Seqs.idle (const_PUBLIC_KEY_TYPES H) := sq_of_sim (K := anything) (sim_const_PUBLIC_KEY_TYPES H) fun _ => rfl
macro_rules | `(tactic| sq_known) => `(tactic| exact sq_const_PUBLIC_KEY_TYPES _ (by assumption))

theorem sq_const_FLAGS : Sq Seqs.idle (const_FLAGS H) := sq_of_sim (K := anything) (sim_const_FLAGS H) fun _ => rfl
macro_rules | `(tactic| sq_known) => `(tactic| exact sq_const_FLAGS _ (by assumption))

theorem sq_utils_get_bytes : SqF (Seqs.idle) (utils_get_bytes H) := by
  delta SrcX.utils_get_bytes SrcX.utils_get_bytes_L26 SrcX.utils_get_bytes_L25 SrcX.utils_get_bytes_L28 SrcX.utils_get_bytes_L31 SrcX.utils_get_bytes_L33 SrcX.utils_get_bytes_L30 SrcX.utils_get_bytes_L35 SrcX.utils_get_bytes_L29 SrcX.utils_get_bytes_L27
  sq_function r
macro_rules | `(tactic| sq_known) => `(tactic| exact sq_utils_get_bytes _ (by assumption))

theorem sq_utils_bytes_reverse : SqF Seqs.idle (utils_bytes_reverse H) := sqF_of_sim (K := anything) (sim_utils_bytes_reverse H) fun _ => rfl
macro_rules | `(tactic| sq_known) => `(tactic| exact sq_utils_bytes_reverse _ (by assumption))

theorem sq_utils_bytes_to_string : SqF (Seqs.idle) (utils_bytes_to_string H) := by
  delta SrcX.utils_bytes_to_string SrcX.utils_bytes_to_string_L66 SrcX.utils_bytes_to_string_L65 SrcX.utils_bytes_to_string_L68 SrcX.utils_bytes_to_string_L69 SrcX.utils_bytes_to_string_L71 SrcX.utils_bytes_to_string_L67 SrcX.utils_bytes_to_string_L73 SrcX.utils_bytes_to_string_L72 SrcX.utils_bytes_to_string_L74
  sq_function r
macro_rules | `(tactic| sq_known) => `(tactic| exact sq_utils_bytes_to_string _ (by assumption))

theorem sq_utils_bytes_to_integer : SqF (Seqs.idle) (utils_bytes_to_integer H) := by
  delta SrcX.utils_bytes_to_integer SrcX.utils_bytes_to_integer_L92
  sq_function r
macro_rules | `(tactic| sq_known) => `(tactic| exact sq_utils_bytes_to_integer _ (by assumption))

theorem sq_utils_integer_to_bytes : SqF (Seqs.idle) (utils_integer_to_bytes H) := by
  delta SrcX.utils_integer_to_bytes SrcX.utils_integer_to_bytes_L114 SrcX.utils_integer_to_bytes_L115
  sq_function r
macro_rules | `(tactic| sq_known) => `(tactic| exact sq_utils_integer_to_bytes _ (by assumption))

theorem sq_base58_base58_alphabet : Sq Seqs.idle (base58_base58_alphabet H) := sq_of_sim (K := anything) (sim_base58_base58_alphabet H) fun _ => rfl
macro_rules | `(tactic| sq_known) => `(tactic| exact sq_base58_base58_alphabet _ (by assumption))

theorem sq_base58_string_to_int : SqF Seqs.idle (base58_string_to_int H) := sqF_of_sim (K := anything) (sim_base58_string_to_int H) fun _ => rfl
macro_rules | `(tactic| sq_known) => `(tactic| exact sq_base58_string_to_int _ (by assumption))

theorem sq_base58_ensure_string : SqF (Seqs.idle) (base58_ensure_string H) := by
  delta SrcX.base58_ensure_string SrcX.base58_ensure_string_L23 SrcX.base58_ensure_string_L25 SrcX.base58_ensure_string_L24 SrcX.base58_ensure_string_L22 SrcX.base58_ensure_string_L26
  sq_function r
macro_rules | `(tactic| sq_known) => `(tactic| exact sq_base58_ensure_string _ (by assumption))

theorem sq_base58_encode : SqF Seqs.idle (base58_encode H) := sqF_of_sim (K := anything) (sim_base58_encode H) fun _ => rfl
macro_rules | `(tactic| sq_known) => `(tactic| exact sq_base58_encode _ (by assumption))

theorem sq_base58_check_encode : SqF (⟨[[.sha256, .sha256]], [[.sha256, .sha256]]⟩) (base58_check_encode H) := by
  delta SrcX.base58_check_encode SrcX.base58_check_encode_L43 SrcX.base58_check_encode_L44
  sq_function r
macro_rules | `(tactic| sq_known) => `(tactic| exact sq_base58_check_encode _ (by assumption))

theorem sq_base58_decode : SqF Seqs.idle (base58_decode H) := sqF_of_sim (K := anything) (sim_base58_decode H) fun _ => rfl
macro_rules | `(tactic| sq_known) => `(tactic| exact sq_base58_decode _ (by assumption))

theorem sq_base58_check_decode : SqF (⟨[[.sha256, .sha256]], [[.sha256, .sha256]]⟩) (base58_check_decode H) := by
  delta SrcX.base58_check_decode SrcX.base58_check_decode_L69 SrcX.base58_check_decode_L70 SrcX.base58_check_decode_L72 SrcX.base58_check_decode_L74 SrcX.base58_check_decode_L71
  sq_function r
macro_rules | `(tactic| sq_known) => `(tactic| exact sq_base58_check_decode _ (by assumption))

theorem sq_ripemd160_ML : Sq Seqs.idle (ripemd160_ML H) := sq_of_sim (K := anything) (sim_ripemd160_ML H) fun _ => rfl
macro_rules | `(tactic| sq_known) => `(tactic| exact sq_ripemd160_ML _ (by assumption))

theorem sq_ripemd160_MR : Sq Seqs.idle (ripemd160_MR H) := sq_of_sim (K := anything) (sim_ripemd160_MR H) fun _ => rfl
macro_rules | `(tactic| sq_known) => `(tactic| exact sq_ripemd160_MR _ (by assumption))

theorem sq_ripemd160_RL : Sq Seqs.idle (ripemd160_RL H) := sq_of_sim (K := anything) (sim_ripemd160_RL H) fun _ => rfl
macro_rules | `(tactic| sq_known) => `(tactic| exact sq_ripemd160_RL _ (by assumption))

theorem sq_ripemd160_RR : Sq Seqs.idle (ripemd160_RR H) := sq_of_sim (K := anything) (sim_ripemd160_RR H) fun _ => rfl
macro_rules | `(tactic| sq_known) => `(tactic| exact sq_ripemd160_RR _ (by assumption))

theorem sq_ripemd160_KL : Sq Seqs.idle (ripemd160_KL H) := sq_of_sim (K := anything) (sim_ripemd160_KL H) fun _ => rfl
macro_rules | `(tactic| sq_known) => `(tactic| exact sq_ripemd160_KL _ (by assumption))

theorem sq_ripemd160_KR : Sq Seqs.idle (ripemd160_KR H) := sq_of_sim (K := anything) (sim_ripemd160_KR H) fun _ => rfl
macro_rules | `(tactic| sq_known) => `(tactic| exact sq_ripemd160_KR _ (by assumption))

theorem sq_ripemd160_fi : SqF Seqs.idle (ripemd160_fi H) := sqF_of_sim (K := anything) (sim_ripemd160_fi H) fun _ => rfl
macro_rules | `(tactic| sq_known) => `(tactic| exact sq_ripemd160_fi _ (by assumption))

theorem sq_ripemd160_rol : SqF (Seqs.idle) (ripemd160_rol H) := by
  delta SrcX.ripemd160_rol SrcX.ripemd160_rol_L78
  sq_function r
macro_rules | `(tactic| sq_known) => `(tactic| exact sq_ripemd160_rol _ (by assumption))

theorem sq_ripemd160_compress : SqF Seqs.idle (ripemd160_compress H) := sqF_of_sim (K := anything) (sim_ripemd160_compress H) fun _ => rfl
macro_rules | `(tactic| sq_known) => `(tactic| exact sq_ripemd160_compress _ (by assumption))

theorem sq_ripemd160_ripemd160 : SqF Seqs.idle (ripemd160_ripemd160 H) := sqF_of_sim (K := anything) (sim_ripemd160_ripemd160 H) fun _ => rfl
macro_rules | `(tactic| sq_known) => `(tactic| exact sq_ripemd160_ripemd160 _ (by assumption))

theorem sq_crypto_ripemd160 : SqF (⟨[rip r], [rip r]⟩) (crypto_ripemd160 H) := by
  delta SrcX.crypto_ripemd160 SrcX.crypto_ripemd160_L27
  sq_function r
macro_rules | `(tactic| sq_known) => `(tactic| exact sq_crypto_ripemd160 _ (by assumption))

theorem sq_crypto_sha256 : SqF (⟨[[.sha256]], [[.sha256]]⟩) (crypto_sha256 H) := by
  delta SrcX.crypto_sha256 SrcX.crypto_sha256_L45
  sq_function r
macro_rules | `(tactic| sq_known) => `(tactic| exact sq_crypto_sha256 _ (by assumption))

theorem sq_crypto_double_sha256 : SqF (⟨[[.sha256, .sha256]], [[.sha256, .sha256]]⟩) (crypto_double_sha256 H) := by
  delta SrcX.crypto_double_sha256 SrcX.crypto_double_sha256_L59
  sq_function r
macro_rules | `(tactic| sq_known) => `(tactic| exact sq_crypto_double_sha256 _ (by assumption))

theorem sq_crypto_get_checksum : SqF (⟨[[.sha256, .sha256]], [[.sha256, .sha256]]⟩) (crypto_get_checksum H) := by
  delta SrcX.crypto_get_checksum SrcX.crypto_get_checksum_L76
  sq_function r
macro_rules | `(tactic| sq_known) => `(tactic| exact sq_crypto_get_checksum _ (by assumption))

theorem sq_crypto_hash160 : SqF (⟨[[.sha256] ++ rip r], [[.sha256] ++ rip r]⟩) (crypto_hash160 H) := by
  delta SrcX.crypto_hash160 SrcX.crypto_hash160_L90
  sq_function r
macro_rules | `(tactic| sq_known) => `(tactic| exact sq_crypto_hash160 _ (by assumption))

theorem sq_Point_init : SqF (Seqs.idle) (Point_init H) := by
  delta SrcX.Point_init SrcX.Point_init_L32
  sq_function r
macro_rules | `(tactic| sq_known) => `(tactic| exact sq_Point_init _ (by assumption))

theorem sq_Point_from_coordinates : SqF (Seqs.idle) (Point_from_coordinates H) := by
  delta SrcX.Point_from_coordinates SrcX.Point_from_coordinates_L74
  sq_function r
macro_rules | `(tactic| sq_known) => `(tactic| exact sq_Point_from_coordinates _ (by assumption))

theorem sq_Point_from_bytes : SqF (Seqs.idle) (Point_from_bytes H) := by
  delta SrcX.Point_from_bytes SrcX.Point_from_bytes_L47 SrcX.Point_from_bytes_L53 SrcX.Point_from_bytes_L55 SrcX.Point_from_bytes_L46
  sq_function r
macro_rules | `(tactic| sq_known) => `(tactic| exact sq_Point_from_bytes _ (by assumption))

theorem sq_Point_underlying_object : SqF (Seqs.idle) (Point_underlying_object H) := by
  delta SrcX.Point_underlying_object SrcX.Point_underlying_object_L88
  sq_function r
macro_rules | `(tactic| sq_known) => `(tactic| exact sq_Point_underlying_object _ (by assumption))

theorem sq_Point_x : SqF (Seqs.idle) (Point_x H) := by
  delta SrcX.Point_x SrcX.Point_x_L98
  sq_function r
macro_rules | `(tactic| sq_known) => `(tactic| exact sq_Point_x _ (by assumption))

theorem sq_Point_y : SqF (Seqs.idle) (Point_y H) := by
  delta SrcX.Point_y SrcX.Point_y_L108
  sq_function r
macro_rules | `(tactic| sq_known) => `(tactic| exact sq_Point_y _ (by assumption))

theorem sq_Point_raw_encoded : SqF (Seqs.idle) (Point_raw_encoded H) := by
  delta SrcX.Point_raw_encoded SrcX.Point_raw_encoded_L129 SrcX.Point_raw_encoded_L131 SrcX.Point_raw_encoded_L134 SrcX.Point_raw_encoded_L128
  sq_function r
macro_rules | `(tactic| sq_known) => `(tactic| exact sq_Point_raw_encoded _ (by assumption))

theorem sq_Point_raw_decoded : SqF (Seqs.idle) (Point_raw_decoded H) := by
  delta SrcX.Point_raw_decoded SrcX.Point_raw_decoded_L145 SrcX.Point_raw_decoded_L147 SrcX.Point_raw_decoded_L150 SrcX.Point_raw_decoded_L153 SrcX.Point_raw_decoded_L144
  sq_function r
macro_rules | `(tactic| sq_known) => `(tactic| exact sq_Point_raw_decoded _ (by assumption))

theorem sq_Point_raw : SqF (Seqs.idle) (Point_raw H) := by
  delta SrcX.Point_raw SrcX.Point_raw_L118
  sq_function r
macro_rules | `(tactic| sq_known) => `(tactic| exact sq_Point_raw _ (by assumption))

theorem sq_Point_add : SqF (Seqs.idle) (Point_add H) := by
  delta SrcX.Point_add SrcX.Point_add_L166
  sq_function r
macro_rules | `(tactic| sq_known) => `(tactic| exact sq_Point_add _ (by assumption))

theorem sq_Point_radd : SqF (Seqs.idle) (Point_radd H) := by
  delta SrcX.Point_radd SrcX.Point_radd_L179
  sq_function r
macro_rules | `(tactic| sq_known) => `(tactic| exact sq_Point_radd _ (by assumption))

theorem sq_Point_mul : SqF (Seqs.idle) (Point_mul H) := by
  delta SrcX.Point_mul SrcX.Point_mul_L192
  sq_function r
macro_rules | `(tactic| sq_known) => `(tactic| exact sq_Point_mul _ (by assumption))

theorem sq_Point_rmul : SqF (Seqs.idle) (Point_rmul H) := by
  delta SrcX.Point_rmul SrcX.Point_rmul_L205
  sq_function r
macro_rules | `(tactic| sq_known) => `(tactic| exact sq_Point_rmul _ (by assumption))

theorem sq_PublicKey_init : SqF (Seqs.idle) (PublicKey_init H) := by
  delta SrcX.PublicKey_init SrcX.PublicKey_init_L33
  sq_function r
macro_rules | `(tactic| sq_known) => `(tactic| exact sq_PublicKey_init _ (by assumption))

theorem sq_PublicKey_from_bytes : SqF (Seqs.idle) (PublicKey_from_bytes H) := by
  delta SrcX.PublicKey_from_bytes SrcX.PublicKey_from_bytes_L48 SrcX.PublicKey_from_bytes_L54 SrcX.PublicKey_from_bytes_L47
  sq_function r
macro_rules | `(tactic| sq_known) => `(tactic| exact sq_PublicKey_from_bytes _ (by assumption))

theorem sq_PublicKey_from_point : SqF (Seqs.idle) (PublicKey_from_point H) := by
  delta SrcX.PublicKey_from_point SrcX.PublicKey_from_point_L69 SrcX.PublicKey_from_point_L78 SrcX.PublicKey_from_point_L68
  sq_function r
macro_rules | `(tactic| sq_known) => `(tactic| exact sq_PublicKey_from_point _ (by assumption))

theorem sq_PublicKey_compressed_length : SqF (Seqs.idle) (PublicKey_compressed_length H) := by
  delta SrcX.PublicKey_compressed_length SrcX.PublicKey_compressed_length_L89
  sq_function r
macro_rules | `(tactic| sq_known) => `(tactic| exact sq_PublicKey_compressed_length _ (by assumption))

theorem sq_PublicKey_uncompressed_length : SqF (Seqs.idle) (PublicKey_uncompressed_length H) := by
  delta SrcX.PublicKey_uncompressed_length SrcX.PublicKey_uncompressed_length_L100
  sq_function r
macro_rules | `(tactic| sq_known) => `(tactic| exact sq_PublicKey_uncompressed_length _ (by assumption))

theorem sq_PublicKey_underlying_object : SqF (Seqs.idle) (PublicKey_underlying_object H) := by
  delta SrcX.PublicKey_underlying_object SrcX.PublicKey_underlying_object_L110
  sq_function r
macro_rules | `(tactic| sq_known) => `(tactic| exact sq_PublicKey_underlying_object _ (by assumption))

theorem sq_PublicKey_raw_compressed : SqF (Seqs.idle) (PublicKey_raw_compressed H) := by
  delta SrcX.PublicKey_raw_compressed SrcX.PublicKey_raw_compressed_L130
  sq_function r
macro_rules | `(tactic| sq_known) => `(tactic| exact sq_PublicKey_raw_compressed _ (by assumption))

theorem sq_PublicKey_raw_uncompressed : SqF (Seqs.idle) (PublicKey_raw_uncompressed H) := by
  delta SrcX.PublicKey_raw_uncompressed SrcX.PublicKey_raw_uncompressed_L140
  sq_function r
macro_rules | `(tactic| sq_known) => `(tactic| exact sq_PublicKey_raw_uncompressed _ (by assumption))

theorem sq_PublicKey_raw : SqF (Seqs.idle) (PublicKey_raw H) := by
  delta SrcX.PublicKey_raw SrcX.PublicKey_raw_L120
  sq_function r
macro_rules | `(tactic| sq_known) => `(tactic| exact sq_PublicKey_raw _ (by assumption))

theorem sq_PublicKey_point : SqF (Seqs.idle) (PublicKey_point H) := by
  delta SrcX.PublicKey_point SrcX.PublicKey_point_L150
  sq_function r
macro_rules | `(tactic| sq_known) => `(tactic| exact sq_PublicKey_point _ (by assumption))

theorem sq_PrivateKey_init : SqF (Seqs.idle) (PrivateKey_init H) := by
  delta SrcX.PrivateKey_init SrcX.PrivateKey_init_L30
  sq_function r
macro_rules | `(tactic| sq_known) => `(tactic| exact sq_PrivateKey_init _ (by assumption))

theorem sq_PrivateKey_from_bytes : SqF (Seqs.idle) (PrivateKey_from_bytes H) := by
  delta SrcX.PrivateKey_from_bytes SrcX.PrivateKey_from_bytes_L45 SrcX.PrivateKey_from_bytes_L51 SrcX.PrivateKey_from_bytes_L44
  sq_function r
macro_rules | `(tactic| sq_known) => `(tactic| exact sq_PrivateKey_from_bytes _ (by assumption))

theorem sq_PrivateKey_length : SqF (Seqs.idle) (PrivateKey_length H) := by
  delta SrcX.PrivateKey_length SrcX.PrivateKey_length_L62
  sq_function r
macro_rules | `(tactic| sq_known) => `(tactic| exact sq_PrivateKey_length _ (by assumption))

theorem sq_PrivateKey_underlying_object : SqF (Seqs.idle) (PrivateKey_underlying_object H) := by
  delta SrcX.PrivateKey_underlying_object SrcX.PrivateKey_underlying_object_L72
  sq_function r
macro_rules | `(tactic| sq_known) => `(tactic| exact sq_PrivateKey_underlying_object _ (by assumption))

theorem sq_PrivateKey_raw : SqF (Seqs.idle) (PrivateKey_raw H) := by
  delta SrcX.PrivateKey_raw SrcX.PrivateKey_raw_L82
  sq_function r
macro_rules | `(tactic| sq_known) => `(tactic| exact sq_PrivateKey_raw _ (by assumption))

theorem sq_PrivateKey_public_key : SqF (Seqs.idle) (PrivateKey_public_key H) := by
  delta SrcX.PrivateKey_public_key SrcX.PrivateKey_public_key_L92
  sq_function r
macro_rules | `(tactic| sq_known) => `(tactic| exact sq_PrivateKey_public_key _ (by assumption))

theorem sq_wif_encode_wif : SqF (⟨[[.sha256, .sha256, .sha256, .sha256]], [[.sha256, .sha256, .sha256, .sha256]]⟩) (wif_encode_wif H) := by
  delta SrcX.wif_encode_wif SrcX.wif_encode_wif_L45 SrcX.wif_encode_wif_L44 SrcX.wif_encode_wif_L47 SrcX.wif_encode_wif_L50 SrcX.wif_encode_wif_L53
  sq_function r
macro_rules | `(tactic| sq_known) => `(tactic| exact sq_wif_encode_wif _ (by assumption))

theorem sq_wif_decode_wif : SqF (Seqs.idle) (wif_decode_wif H) := by
  delta SrcX.wif_decode_wif SrcX.wif_decode_wif_L74 SrcX.wif_decode_wif_L76 SrcX.wif_decode_wif_L75 SrcX.wif_decode_wif_L78 SrcX.wif_decode_wif_L79 SrcX.wif_decode_wif_L81 SrcX.wif_decode_wif_L80 SrcX.wif_decode_wif_L83 SrcX.wif_decode_wif_L84 SrcX.wif_decode_wif_L85 SrcX.wif_decode_wif_L86 SrcX.wif_decode_wif_L89 SrcX.wif_decode_wif_L91 SrcX.wif_decode_wif_L92 SrcX.wif_decode_wif_L90 SrcX.wif_decode_wif_L88 SrcX.wif_decode_wif_L94
  sq_function r
macro_rules | `(tactic| sq_known) => `(tactic| exact sq_wif_decode_wif _ (by assumption))

theorem sq_wif_private_key_to_wif : SqF (⟨[[.sha256, .sha256, .sha256, .sha256]], [[.sha256, .sha256, .sha256, .sha256]]⟩) (wif_private_key_to_wif H) := by
  delta SrcX.wif_private_key_to_wif SrcX.wif_private_key_to_wif_L120 SrcX.wif_private_key_to_wif_L119 SrcX.wif_private_key_to_wif_L121 SrcX.wif_private_key_to_wif_L124
  sq_function r
macro_rules | `(tactic| sq_known) => `(tactic| exact sq_wif_private_key_to_wif _ (by assumption))

theorem sq_wif_wif_to_private_key : SqF (Seqs.idle) (wif_wif_to_private_key H) := by
  delta SrcX.wif_wif_to_private_key SrcX.wif_wif_to_private_key_L144
  sq_function r
macro_rules | `(tactic| sq_known) => `(tactic| exact sq_wif_wif_to_private_key _ (by assumption))

theorem sq_wif_get_wif_type : SqF (Seqs.idle) (wif_get_wif_type H) := by
  delta SrcX.wif_get_wif_type SrcX.wif_get_wif_type_L166
  sq_function r
macro_rules | `(tactic| sq_known) => `(tactic| exact sq_wif_get_wif_type _ (by assumption))

theorem sq_wif_get_wif_checksum : SqF (Seqs.idle) (wif_get_wif_checksum H) := by
  delta SrcX.wif_get_wif_checksum SrcX.wif_get_wif_checksum_L188
  sq_function r
macro_rules | `(tactic| sq_known) => `(tactic| exact sq_wif_get_wif_checksum _ (by assumption))

theorem sq_P2PKHAddress_address_prefix : Sq Seqs.idle (P2PKHAddress_address_prefix H) := sq_of_sim (K := anything) (sim_P2PKHAddress_address_prefix H) fun _ => rfl
macro_rules | `(tactic| sq_known) => `(tactic| exact sq_P2PKHAddress_address_prefix _ (by assumption))

theorem sq_P2PKHAddress_alphabet : Sq Seqs.idle (P2PKHAddress_alphabet H) := sq_of_sim (K := anything) (sim_P2PKHAddress_alphabet H) fun _ => rfl
macro_rules | `(tactic| sq_known) => `(tactic| exact sq_P2PKHAddress_alphabet _ (by assumption))

theorem sq_P2PKHAddress_encode : SqF (⟨[[.sha256] ++ rip r ++ [.sha256, .sha256]], [[.sha256] ++ rip r ++ [.sha256, .sha256]]⟩) (P2PKHAddress_encode H) := by
  delta SrcX.P2PKHAddress_encode SrcX.P2PKHAddress_encode_L45 SrcX.P2PKHAddress_encode_L50 SrcX.P2PKHAddress_encode_L49 SrcX.P2PKHAddress_encode_L52 SrcX.P2PKHAddress_encode_L58
  sq_function r
macro_rules | `(tactic| sq_known) => `(tactic| exact sq_P2PKHAddress_encode _ (by assumption))

theorem sq_P2PKHAddress_decode : SqF (⟨[[.sha256, .sha256]], [[.sha256, .sha256]]⟩) (P2PKHAddress_decode H) := by
  delta SrcX.P2PKHAddress_decode SrcX.P2PKHAddress_decode_L80 SrcX.P2PKHAddress_decode_L83 SrcX.P2PKHAddress_decode_L89 SrcX.P2PKHAddress_decode_L91 SrcX.P2PKHAddress_decode_L90 SrcX.P2PKHAddress_decode_L93 SrcX.P2PKHAddress_decode_L95 SrcX.P2PKHAddress_decode_L94 SrcX.P2PKHAddress_decode_L97
  sq_function r
macro_rules | `(tactic| sq_known) => `(tactic| exact sq_P2PKHAddress_decode _ (by assumption))

theorem sq_BIP38_init : SqF (Seqs.idle) (BIP38_init H) := by
  delta SrcX.BIP38_init SrcX.BIP38_init_L76 SrcX.BIP38_init_L75 SrcX.BIP38_init_L79 SrcX.BIP38_init_L83 SrcX.BIP38_init_L82 SrcX.BIP38_init_L84
  sq_function r
macro_rules | `(tactic| sq_known) => `(tactic| exact sq_BIP38_init _ (by assumption))

theorem sq_BIP38_intermediate_code : SqF (⟨[[.normalize, .scrypt 16384 8 8 32, .sha256, .sha256], [.urandom 8, .normalize, .scrypt 16384 8 8 32, .sha256, .sha256], [.normalize, .scrypt 16384 8 8 32, .sha256, .sha256, .sha256, .sha256], [.urandom 8, .normalize, .scrypt 16384 8 8 32, .sha256, .sha256, .sha256, .sha256]], [[.normalize, .scrypt 16384 8 8 32, .sha256, .sha256, .sha256, .sha256], [.urandom 8, .normalize, .scrypt 16384 8 8 32, .sha256, .sha256, .sha256, .sha256]]⟩) (BIP38_intermediate_code H) := by
  delta SrcX.BIP38_intermediate_code SrcX.BIP38_intermediate_code_L122 SrcX.BIP38_intermediate_code_L124 SrcX.BIP38_intermediate_code_L123 SrcX.BIP38_intermediate_code_L126 SrcX.BIP38_intermediate_code_L125 SrcX.BIP38_intermediate_code_L128 SrcX.BIP38_intermediate_code_L127 SrcX.BIP38_intermediate_code_L131 SrcX.BIP38_intermediate_code_L133 SrcX.BIP38_intermediate_code_L132 SrcX.BIP38_intermediate_code_L135 SrcX.BIP38_intermediate_code_L134 SrcX.BIP38_intermediate_code_L137 SrcX.BIP38_intermediate_code_L138 SrcX.BIP38_intermediate_code_L139 SrcX.BIP38_intermediate_code_L140 SrcX.BIP38_intermediate_code_L142 SrcX.BIP38_intermediate_code_L143 SrcX.BIP38_intermediate_code_L144 SrcX.BIP38_intermediate_code_L130 SrcX.BIP38_intermediate_code_L146 SrcX.BIP38_intermediate_code_L149
  sq_function r
macro_rules | `(tactic| sq_known) => `(tactic| exact sq_BIP38_intermediate_code _ (by assumption))

theorem sq_BIP38_encrypt : SqF (⟨[[.sha256] ++ rip r ++ [.sha256, .sha256, .sha256, .sha256, .normalize, .scrypt 16384 8 8 64, .aesEncrypt, .aesEncrypt, .sha256, .sha256]], [[.sha256] ++ rip r ++ [.sha256, .sha256, .sha256, .sha256, .normalize, .scrypt 16384 8 8 64, .aesEncrypt, .aesEncrypt, .sha256, .sha256]]⟩) (BIP38_encrypt H) := by
  delta SrcX.BIP38_encrypt SrcX.BIP38_encrypt_L180 SrcX.BIP38_encrypt_L184 SrcX.BIP38_encrypt_L183 SrcX.BIP38_encrypt_L185 SrcX.BIP38_encrypt_L189 SrcX.BIP38_encrypt_L190 SrcX.BIP38_encrypt_L193 SrcX.BIP38_encrypt_L195 SrcX.BIP38_encrypt_L196 SrcX.BIP38_encrypt_L199 SrcX.BIP38_encrypt_L188 SrcX.BIP38_encrypt_L201 SrcX.BIP38_encrypt_L206 SrcX.BIP38_encrypt_L207 SrcX.BIP38_encrypt_L208 SrcX.BIP38_encrypt_L210 SrcX.BIP38_encrypt_L211 SrcX.BIP38_encrypt_L214 SrcX.BIP38_encrypt_L218 SrcX.BIP38_encrypt_L223
  sq_function r
macro_rules | `(tactic| sq_known) => `(tactic| exact sq_BIP38_encrypt _ (by assumption))

theorem sq_BIP38_create_new_encrypted_wif : SqF (⟨[[.sha256, .sha256, .sha256, .sha256, .sha256] ++ rip r ++ [.sha256, .sha256, .sha256, .sha256, .scrypt 1024 1 1 64, .aesEncrypt, .aesEncrypt, .sha256, .sha256, .aesEncrypt, .aesEncrypt, .sha256, .sha256], [.urandom 24, .sha256, .sha256, .sha256, .sha256, .sha256] ++ rip r ++ [.sha256, .sha256, .sha256, .sha256, .scrypt 1024 1 1 64, .aesEncrypt, .aesEncrypt, .sha256, .sha256, .aesEncrypt, .aesEncrypt, .sha256, .sha256]], [[.sha256, .sha256, .sha256, .sha256, .sha256] ++ rip r ++ [.sha256, .sha256, .sha256, .sha256, .scrypt 1024 1 1 64, .aesEncrypt, .aesEncrypt, .sha256, .sha256, .aesEncrypt, .aesEncrypt, .sha256, .sha256], [.urandom 24, .sha256, .sha256, .sha256, .sha256, .sha256] ++ rip r ++ [.sha256, .sha256, .sha256, .sha256, .scrypt 1024 1 1 64, .aesEncrypt, .aesEncrypt, .sha256, .sha256, .aesEncrypt, .aesEncrypt, .sha256, .sha256]]⟩) (BIP38_create_new_encrypted_wif H) := by
  delta SrcX.BIP38_create_new_encrypted_wif SrcX.BIP38_create_new_encrypted_wif_L258 SrcX.BIP38_create_new_encrypted_wif_L262 SrcX.BIP38_create_new_encrypted_wif_L261 SrcX.BIP38_create_new_encrypted_wif_L263 SrcX.BIP38_create_new_encrypted_wif_L265 SrcX.BIP38_create_new_encrypted_wif_L267 SrcX.BIP38_create_new_encrypted_wif_L264 SrcX.BIP38_create_new_encrypted_wif_L269 SrcX.BIP38_create_new_encrypted_wif_L268 SrcX.BIP38_create_new_encrypted_wif_L271 SrcX.BIP38_create_new_encrypted_wif_L272 SrcX.BIP38_create_new_encrypted_wif_L273 SrcX.BIP38_create_new_encrypted_wif_L276 SrcX.BIP38_create_new_encrypted_wif_L278 SrcX.BIP38_create_new_encrypted_wif_L280 SrcX.BIP38_create_new_encrypted_wif_L277 SrcX.BIP38_create_new_encrypted_wif_L275 SrcX.BIP38_create_new_encrypted_wif_L284 SrcX.BIP38_create_new_encrypted_wif_L286 SrcX.BIP38_create_new_encrypted_wif_L283 SrcX.BIP38_create_new_encrypted_wif_L289 SrcX.BIP38_create_new_encrypted_wif_L291 SrcX.BIP38_create_new_encrypted_wif_L288 SrcX.BIP38_create_new_encrypted_wif_L293 SrcX.BIP38_create_new_encrypted_wif_L287 SrcX.BIP38_create_new_encrypted_wif_L282 SrcX.BIP38_create_new_encrypted_wif_L300 SrcX.BIP38_create_new_encrypted_wif_L302 SrcX.BIP38_create_new_encrypted_wif_L301 SrcX.BIP38_create_new_encrypted_wif_L304 SrcX.BIP38_create_new_encrypted_wif_L307 SrcX.BIP38_create_new_encrypted_wif_L312 SrcX.BIP38_create_new_encrypted_wif_L313 SrcX.BIP38_create_new_encrypted_wif_L314 SrcX.BIP38_create_new_encrypted_wif_L315 SrcX.BIP38_create_new_encrypted_wif_L317 SrcX.BIP38_create_new_encrypted_wif_L318 SrcX.BIP38_create_new_encrypted_wif_L321 SrcX.BIP38_create_new_encrypted_wif_L324 SrcX.BIP38_create_new_encrypted_wif_L329 SrcX.BIP38_create_new_encrypted_wif_L330 SrcX.BIP38_create_new_encrypted_wif_L333 SrcX.BIP38_create_new_encrypted_wif_L336 SrcX.BIP38_create_new_encrypted_wif_L339 SrcX.BIP38_create_new_encrypted_wif_L342 SrcX.BIP38_create_new_encrypted_wif_L346
  sq_function_aes r
macro_rules | `(tactic| sq_known) => `(tactic| exact sq_BIP38_create_new_encrypted_wif _ (by assumption))

theorem sq_BIP38_confirm_code : SqF (⟨[[.sha256, .sha256, .normalize, .scrypt 16384 8 8 32, .scrypt 1024 1 1 64, .aesDecrypt, .aesDecrypt, .sha256] ++ rip r ++ [.sha256, .sha256, .sha256, .sha256], [.sha256, .sha256, .normalize, .scrypt 16384 8 8 32, .sha256, .sha256, .scrypt 1024 1 1 64, .aesDecrypt, .aesDecrypt, .sha256] ++ rip r ++ [.sha256, .sha256, .sha256, .sha256]], [[.sha256, .sha256, .normalize, .scrypt 16384 8 8 32, .scrypt 1024 1 1 64, .aesDecrypt, .aesDecrypt, .sha256] ++ rip r ++ [.sha256, .sha256, .sha256, .sha256], [.sha256, .sha256, .normalize, .scrypt 16384 8 8 32, .sha256, .sha256, .scrypt 1024 1 1 64, .aesDecrypt, .aesDecrypt, .sha256] ++ rip r ++ [.sha256, .sha256, .sha256, .sha256]]⟩) (BIP38_confirm_code H) := by
  delta SrcX.BIP38_confirm_code SrcX.BIP38_confirm_code_L386 SrcX.BIP38_confirm_code_L390 SrcX.BIP38_confirm_code_L389 SrcX.BIP38_confirm_code_L392 SrcX.BIP38_confirm_code_L394 SrcX.BIP38_confirm_code_L391 SrcX.BIP38_confirm_code_L396 SrcX.BIP38_confirm_code_L395 SrcX.BIP38_confirm_code_L398 SrcX.BIP38_confirm_code_L399 SrcX.BIP38_confirm_code_L401 SrcX.BIP38_confirm_code_L400 SrcX.BIP38_confirm_code_L403 SrcX.BIP38_confirm_code_L404 SrcX.BIP38_confirm_code_L405 SrcX.BIP38_confirm_code_L406 SrcX.BIP38_confirm_code_L408 SrcX.BIP38_confirm_code_L410 SrcX.BIP38_confirm_code_L411 SrcX.BIP38_confirm_code_L413 SrcX.BIP38_confirm_code_L409 SrcX.BIP38_confirm_code_L415 SrcX.BIP38_confirm_code_L417 SrcX.BIP38_confirm_code_L416 SrcX.BIP38_confirm_code_L419 SrcX.BIP38_confirm_code_L418 SrcX.BIP38_confirm_code_L421 SrcX.BIP38_confirm_code_L422 SrcX.BIP38_confirm_code_L423 SrcX.BIP38_confirm_code_L424 SrcX.BIP38_confirm_code_L426 SrcX.BIP38_confirm_code_L427 SrcX.BIP38_confirm_code_L430 SrcX.BIP38_confirm_code_L433 SrcX.BIP38_confirm_code_L436 SrcX.BIP38_confirm_code_L441 SrcX.BIP38_confirm_code_L444 SrcX.BIP38_confirm_code_L446 SrcX.BIP38_confirm_code_L445 SrcX.BIP38_confirm_code_L448 SrcX.BIP38_confirm_code_L440 SrcX.BIP38_confirm_code_L450 SrcX.BIP38_confirm_code_L456 SrcX.BIP38_confirm_code_L457 SrcX.BIP38_confirm_code_L460 SrcX.BIP38_confirm_code_L461 SrcX.BIP38_confirm_code_L459 SrcX.BIP38_confirm_code_L462 SrcX.BIP38_confirm_code_L458 SrcX.BIP38_confirm_code_L469 SrcX.BIP38_confirm_code_L455 SrcX.BIP38_confirm_code_L470
  sq_function r
macro_rules | `(tactic| sq_known) => `(tactic| exact sq_BIP38_confirm_code _ (by assumption))

theorem sq_BIP38_decrypt : SqF (⟨[[.normalize, .scrypt 16384 8 8 64, .aesDecrypt, .aesDecrypt, .sha256] ++ rip r ++ [.sha256, .sha256, .sha256, .sha256, .sha256, .sha256, .sha256, .sha256], [.normalize, .scrypt 16384 8 8 32, .scrypt 1024 1 1 64, .aesDecrypt, .aesDecrypt, .sha256, .sha256, .sha256] ++ rip r ++ [.sha256, .sha256, .sha256, .sha256, .sha256, .sha256, .sha256, .sha256], [.normalize, .scrypt 16384 8 8 32, .sha256, .sha256, .scrypt 1024 1 1 64, .aesDecrypt, .aesDecrypt, .sha256, .sha256, .sha256] ++ rip r ++ [.sha256, .sha256, .sha256, .sha256, .sha256, .sha256, .sha256, .sha256]], [[.normalize, .scrypt 16384 8 8 64, .aesDecrypt, .aesDecrypt, .sha256] ++ rip r ++ [.sha256, .sha256, .sha256, .sha256, .sha256, .sha256, .sha256, .sha256], [.normalize, .scrypt 16384 8 8 32, .scrypt 1024 1 1 64, .aesDecrypt, .aesDecrypt, .sha256, .sha256, .sha256] ++ rip r ++ [.sha256, .sha256, .sha256, .sha256, .sha256, .sha256, .sha256, .sha256], [.normalize, .scrypt 16384 8 8 32, .sha256, .sha256, .scrypt 1024 1 1 64, .aesDecrypt, .aesDecrypt, .sha256, .sha256, .sha256] ++ rip r ++ [.sha256, .sha256, .sha256, .sha256, .sha256, .sha256, .sha256, .sha256]]⟩) (BIP38_decrypt H) := by
  delta SrcX.BIP38_decrypt SrcX.BIP38_decrypt_L503 SrcX.BIP38_decrypt_L507 SrcX.BIP38_decrypt_L506 SrcX.BIP38_decrypt_L508 SrcX.BIP38_decrypt_L510 SrcX.BIP38_decrypt_L509 SrcX.BIP38_decrypt_L512 SrcX.BIP38_decrypt_L513 SrcX.BIP38_decrypt_L514 SrcX.BIP38_decrypt_L519 SrcX.BIP38_decrypt_L520 SrcX.BIP38_decrypt_L522 SrcX.BIP38_decrypt_L523 SrcX.BIP38_decrypt_L525 SrcX.BIP38_decrypt_L521 SrcX.BIP38_decrypt_L518 SrcX.BIP38_decrypt_L532 SrcX.BIP38_decrypt_L535 SrcX.BIP38_decrypt_L536 SrcX.BIP38_decrypt_L537 SrcX.BIP38_decrypt_L539 SrcX.BIP38_decrypt_L540 SrcX.BIP38_decrypt_L541 SrcX.BIP38_decrypt_L543 SrcX.BIP38_decrypt_L547 SrcX.BIP38_decrypt_L546 SrcX.BIP38_decrypt_L549 SrcX.BIP38_decrypt_L550 SrcX.BIP38_decrypt_L556 SrcX.BIP38_decrypt_L555 SrcX.BIP38_decrypt_L558 SrcX.BIP38_decrypt_L562 SrcX.BIP38_decrypt_L561 SrcX.BIP38_decrypt_L573 SrcX.BIP38_decrypt_L576 SrcX.BIP38_decrypt_L577 SrcX.BIP38_decrypt_L578 SrcX.BIP38_decrypt_L580 SrcX.BIP38_decrypt_L582 SrcX.BIP38_decrypt_L583 SrcX.BIP38_decrypt_L585 SrcX.BIP38_decrypt_L581 SrcX.BIP38_decrypt_L587 SrcX.BIP38_decrypt_L589 SrcX.BIP38_decrypt_L588 SrcX.BIP38_decrypt_L591 SrcX.BIP38_decrypt_L590 SrcX.BIP38_decrypt_L593 SrcX.BIP38_decrypt_L594 SrcX.BIP38_decrypt_L595 SrcX.BIP38_decrypt_L596 SrcX.BIP38_decrypt_L598 SrcX.BIP38_decrypt_L599 SrcX.BIP38_decrypt_L602 SrcX.BIP38_decrypt_L603 SrcX.BIP38_decrypt_L607 SrcX.BIP38_decrypt_L611 SrcX.BIP38_decrypt_L613 SrcX.BIP38_decrypt_L612 SrcX.BIP38_decrypt_L616 SrcX.BIP38_decrypt_L619 SrcX.BIP38_decrypt_L620 SrcX.BIP38_decrypt_L621 SrcX.BIP38_decrypt_L623 SrcX.BIP38_decrypt_L624 SrcX.BIP38_decrypt_L622 SrcX.BIP38_decrypt_L625 SrcX.BIP38_decrypt_L631 SrcX.BIP38_decrypt_L634 SrcX.BIP38_decrypt_L635 SrcX.BIP38_decrypt_L638 SrcX.BIP38_decrypt_L639 SrcX.BIP38_decrypt_L637 SrcX.BIP38_decrypt_L640 SrcX.BIP38_decrypt_L636 SrcX.BIP38_decrypt_L651 SrcX.BIP38_decrypt_L630 SrcX.BIP38_decrypt_L652 SrcX.BIP38_decrypt_L654 SrcX.BIP38_decrypt_L575 SrcX.BIP38_decrypt_L516
  sq_function r
macro_rules | `(tactic| sq_known) => `(tactic| exact sq_BIP38_decrypt _ (by assumption))

end Bip38.SrcX
