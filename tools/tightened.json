{
 "1/4": {
  "claims": [
   "C06",
   "C48"
  ],
  "tightened": [
   "C48_get_bytes"
  ],
  "note": "the helper lemma failed, but no theorem said directly that bytes are returned unchanged; C48_get_bytes added, fails under the repeated edit 2/0"
 },
 "1/16": {
  "tightened": [
   "C01_alphabets"
  ],
  "note": "C01 ranged over all alphabets and did not mention which ones are used; C01_alphabets added"
 },
 "1/77": {
  "note": "C25 not reached because its imports failed first; the edit repeated as 2/2 fails C25"
 },
 "1/91": {
  "claims": [
   "C49"
  ],
  "tightened": [
   "C49_unknown_network"
  ],
  "note": "survived; C49_unknown_network added"
 },
 "1/103": {
  "note": "C24 not reached because its imports failed first; see the repeated edits in run 2"
 },
 "1/104": {
  "note": "C24 not reached because its imports failed first; see the repeated edits in run 2"
 },
 "1/126": {
  "note": "C24 not reached because its imports failed first; see the repeated edits in run 2"
 },
 "1/175": {
  "note": "C24 not reached because its imports failed first; see the repeated edits in run 2"
 },
 "2/0": {
  "claims": [
   "C48"
  ]
 },
 "2/9": {
  "note": "zmul_toPt is the lemma C43 rests on; the driver did not resolve the namespace of C43 (Bip38.Props)"
 },
 "2/15": {
  "claims": [
   "C44"
  ]
 },
 "2/18": {
  "claims": [
   "C44"
  ]
 },
 "2/19": {
  "claims": [
   "C11",
   "C26",
   "C33"
  ]
 },
 "2/65": {
  "note": "equivalent edit: the second prefix check repeats the first"
 },
 "2/67": {
  "claims": [
   "C77"
  ],
  "tightened": [
   "C77_address"
  ],
  "note": "survived: no theorem mentioned the default public_key_type; C77 (calls without optional arguments) added"
 },
 "3/2": {
  "note": "the edit leaves an unused variable in the model, which then does not compile; repeated in another form as 7/0"
 },
 "3/31": {
  "note": "the edit leaves an unused variable in the model, which then does not compile; repeated in another form as 7/1"
 },
 "3/33": {
  "note": "the edit leaves an unused variable in the model, which then does not compile; repeated in another form as 7/2"
 },
 "3/37": {
  "claims": [
   "C39"
  ],
  "tightened": [
   "C39_bytes_shown",
   "C39_bytes_printable"
  ],
  "note": "failed an example only; the two theorems added, repeated as 7/3"
 },
 "3/38": {
  "claims": [
   "C39"
  ],
  "tightened": [
   "C39_bytes_shown",
   "C39_bytes_printable"
  ],
  "note": "failed an example only; the two theorems added, repeated as 7/4"
 },
 "3/39": {
  "claims": [
   "C39"
  ],
  "tightened": [
   "C39_bytes_shown",
   "C39_bytes_printable"
  ],
  "note": "survived; the two theorems added, repeated as 7/5"
 },
 "3/40": {
  "note": "equivalent in the model: every call with an expected value gives got explicitly; the default of the class in the repository is in C87_error and C81_error_text"
 },
 "5/11": {
  "tightened": [
   "C75_answers"
  ],
  "note": "survived: no theorem of C75 said which answer a call of intermediate_code in a program is; C75_answers added"
 },
 "5/13": {
  "tightened": [
   "C75_assigned"
  ],
  "note": "survived: no theorem spoke of setting the alphabet; C75_assigned added"
 },
 "5/15": {
  "tightened": [
   "C76_text_or_false"
  ],
  "note": "failed an example only: the hypotheses used the truth value of the model; now stated by explicit objects"
 },
 "5/16": {
  "tightened": [
   "C76_refused"
  ],
  "note": "failed an example only: the hypotheses used the truth value of the model; now stated by explicit objects"
 },
 "5/17": {
  "tightened": [
   "C76_constructor"
  ],
  "note": "survived: the statement used the model's text of a type; now an independent relation TypeShown"
 },
 "5/18": {
  "tightened": [
   "C76_create_type",
   "C76_wif_type"
  ],
  "note": "survived: the statement used the model's text of an object; now an independent relation Shown"
 },
 "6/1": {
  "note": "C78_undisturbed and C78_finishes rest on the lemmas that failed; the driver could not continue past them"
 },
 "6/2": {
  "note": "C78_undisturbed and C78_finishes rest on the lemmas that failed; the driver could not continue past them"
 },
 "6/3": {
  "note": "C78_undisturbed and C78_finishes rest on the lemmas that failed; the driver could not continue past them"
 },
 "6/9": {
  "note": "C78_undisturbed and C78_finishes rest on the lemmas that failed; the driver could not continue past them"
 },
 "6/28": {
  "note": "equivalent edit: the fuel is the length of the bytes, so the branch is not reached with bytes left"
 },
 "7/0": {
  "note": "the edit leaves an unused variable in the model, which then does not compile; repeated in another form as 8/6"
 },
 "7/15": {
  "note": "C79 and C80 rest on the lemmas that failed (decrypt follows its list of external calls); the driver could not continue past them"
 },
 "T/150": {
  "note": "equivalent edit: the second prefix check repeats the first, so its message is never shown"
 },
 "T/313": {
  "note": "equivalent edit: the second prefix check repeats the first, so its message is never shown"
 },
 "T/323": {
  "note": "equivalent edit: compress calls fi with 0..4 only, so the assertion is not reached"
 }
}