{
 "C16": {
  "extra": []
 },
 "C04": {
  "note": "The naive claim (foreign characters are refused) is false of the code: C04_foreign_character_refuted; the theorems say what happens for every ASCII text."
 },
 "C09": {
  "note": "Finding: a wrong checksum is accepted (C09_wrong_checksum_refuted); the statement of the property is what the code does."
 },
 "C10": {
  "note": "Finding: a wrong compression marker is accepted (C10_wrong_marker_refuted)."
 },
 "C17": {
  "note": "The unconditional round trip is false (C17_refuted: keys below 2^248 cannot be decrypted); proved: round trip exactly when the key has a non-zero first byte."
 },
 "C18": {
  "note": "The claim that encrypt always returns is false (C18_refuted); proved: it returns exactly when both masked halves have a non-zero first byte."
 },
 "C22": {
  "note": "Finding: the checksum of an encrypted WIF is not verified (C22_refuted)."
 },
 "C26": {
  "note": "As documented it is false: lot 0 with sequence 1 is let through (C26_refuted); the exact set of accepted arguments is proved."
 },
 "C29": {
  "note": "The unconditional round trip is false (C29_refuted); proved: exact condition under which decrypt inverts create_new_encrypted_wif."
 },
 "C30": {
  "note": "The unconditional claim is false (C30_refuted); proved: exact condition under which confirm_code confirms."
 },
 "C32": {
  "note": "Finding: seeds of other lengths are accepted and lost (C32_refuted_short, C32_refuted_long)."
 },
 "C34": {
  "note": "Finding: unknown flag bytes are read as other flags (C34_illegal_refuted); the meaning of all 256 flag bytes is proved."
 },
 "C37": {
  "note": "Finding: the alphabet stored by the constructor is never used (C37_refuted for Ripple)."
 },
 "C42": {
  "note": "Finding: points off the curve are accepted by Point.from_bytes (C42_point_on_curve_refuted)."
 },
 "C45": {
  "note": "Finding: on old ecdsa releases Point.from_bytes never reads the compressed form that raw_encoded writes (C45_old_compressed_refuted)."
 },
 "C78": {
  "note": "Finding: not true of encrypt and decrypt when the class is changed during the call (C78_encrypt_refuted, C78_decrypt_refuted)."
 },
 "C76": {
  "note": "Finding: every public_key_type other than \"compressed\" silently means uncompressed (C76_public_key_type)."
 },
 "C20": {
  "extra": [
   "Bip38.Props.C40_noEc_iff",
   "Bip38.Props.C40_ec_iff"
  ]
 },
 "C79": {
  "note": "The RIPEMD-160 finding is C79_ripemd160_refused; C79_quiet links the two models."
 }
}