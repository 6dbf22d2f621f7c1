# Formal model of meherett/python-bip38 in Lean 4

The repository is read as text only (nothing of it is executed). `lean/Verif` contains a model of its Python code, written
function by function, small independent specifications, and the proofs. `properties.jsonl` lists the properties,
`MANIFEST.json` maps each of them to its theorems, `seeded/LOG.jsonl` records the wrong programs tried against the theorems.

## Layout (`lean/Verif/`)

| module | contents |
|---|---|
| `Py.lean` | Python run-time conventions: `bytes`, `str`, exceptions as values (`Except Exc`), slices |
| `Model/Exceptions.lean` | `bip38/exceptions.py` |
| `Model/Utils.lean` | `bip38/utils.py` |
| `Model/Base58.lean` | `bip38/libs/base58.py` |
| `Model/Const.lean` | `bip38/const.py` |
| `Model/Coins.lean` (generated by `tools/gen_coins.py` from the text of the repository) | `bip38/cryptocurrencies.py` |
| `Model/Ripemd160.lean` | `bip38/libs/ripemd160.py` |
| `Model/Crypto.lean` | `bip38/crypto.py`, and the record `Prims` of external primitives |
| `Model/Secp256k1.lean`, `Model/Point.lean` | `bip38/secp256k1/{private_key,public_key,point}.py` and the part of the `ecdsa` package they call |
| `Model/Wif.lean` | `bip38/wif.py` |
| `Model/P2pkh.lean` | `bip38/p2pkh_address.py` |
| `Model/Bip38.lean` | `bip38/bip38.py` |
| `Model/Base58Any.lean`, `Model/Bip38Any.lean`, `Model/Bip38Num.lean`, `Model/Bip38Kind.lean` | the same functions on arguments of any kind (text, bytes, `None`, other objects; numbers, networks and types given as other objects) |
| `Model/World.lean` | a program that constructs `BIP38` objects, calls them and changes attributes of classes and objects (C75) |
| `Model/Threads.lean` | calls as programs that read shared attributes one by one, threads and schedules (C78) |
| `Model/External.lean` | the methods of `bip38/bip38.py` with every call of an external function as a recorded event that may raise (C79, C80); proved equal to `Model/Bip38.lean` when nothing raises |
| `Src/Sem.lean`, `Src/Builtin.lean` | meaning of the fragment of Python the repository is written in (values, expressions, statements, calls, exceptions, `while` as a least fixed point), and of the built-in and external functions it calls (C81..C89, C91) |
| `Src/{Exceptions,Const,Utils,Base58,Ripemd160,Crypto,Point,PublicKey,PrivateKey,Wif,P2pkhAddress,Bip38}.lean` (generated by `tools/gen_src.py` from the text of the repository) | the functions of the repository, statement by statement, as terms of that language |
| `Py/Syntax.lean` | lexer, trees and parser of the part of Python that the repository is written in (C81..C86) |
| `Py/Meaning.lean` | from the tree of a module to what it defines, in terms of `Src/Sem.lean`: scopes, imports, classes, functions (C81..C86) |
| `Py/Text.lean` | proofs that only the kernel computes |
| `Py/Classes.lean`, `Py/Tops.lean` | from the tree to class statements (C97) and to the module level of a file (C96) |
| `Py/Of*.lean` (generated by `tools/gen_text.py`) | all files of `bip38/`, character by character, and that they define the functions of `Src/*.lean` (C81..C86), the classes of `Src/Cryptocurrencies.lean` (C97), the module level and the names in `Model/ImportText.lean` (C96) |
| `Py/Only.lean`, `Py/OnlyOf.lean` (the latter written by `tools/gen_only.py`) | that no other definitions are those of a text |
| `Py/Program.lean`, `Py/OnlyProgram.lean` (the latter written by `tools/gen_only.py`) | the files together: one meaning of all texts (`C86_characters_program`) |
| `PyX/*.lean` (written by `tools/gen_text.py` and `tools/gen_only.py`) | `Py/Meaning.lean` and the theorems of `Py/Of*.lean` again, with the constructs of `SrcX` (C92) |
| `Src/Eq*.lean`, `Src/Lemmas.lean`, `Src/Values.lean` | running these terms equals the functions of `Model/`; Python values of arguments and results |
| `SrcX/Sem.lean`, `SrcX/Builtin.lean` | a second meaning of the same fragment, with every call of an external function as an event that may raise (C92..C95) |
| `SrcX/{Exceptions,..,Bip38}.lean` (generated by `tools/gen_sim.py` from `Src/`) | the same text, term by term, with these constructs |
| `SrcX/Sim.lean`, `SrcX/SimText.lean`, `SrcX/SimBip38.lean` (the latter two generated by `tools/gen_sim.py`) | the text with faults follows the text without; bounds of the external calls |
| `Model/Import.lean`, `Model/ImportText.lean` (the latter generated by `tools/gen_import.py`), `Spec/Import.lean` | the import machinery of CPython, the statements at module level of every file, and what their names stand for (C96) |
| `Src/Class.lean`, `Src/Cryptocurrencies.lean` (the latter generated by `tools/gen_classes.py`) | class statements, and those of `cryptocurrencies.py` (C97) |
| `SrcX/Low.lean`, `SrcX/LowText.lean` (the latter generated by `tools/gen_sim.py`) | lower bounds of the external calls before a value is returned (C95) |
| `SrcX/Stop.lean`, `SrcX/StopText.lean` (the latter generated by `tools/gen_sim.py`), `Spec/Ends.lean` | what becomes of a fault, also of one that is caught (C98) |
| `Spec/Steps.lean`, `Lemmas/Steps.lean` | the sequence of external calls of a run, on `Model/External.lean` (C99) |
| `SrcX/Seq.lean`, `SrcX/SeqText.lean` (the latter generated by `tools/gen_sim.py`), `Spec/Order.lean` | the same on the text, for arguments of any kind (C99) |
| `SrcX/Same.lean`, `SrcX/SameText.lean` | a logic of two runs of the text that agree in the public variables (C99) |
| `Std/*.lean` | SHA-256, PBKDF2/scrypt, AES-256 and an identity "NFC" written out in Lean: an instance of `Prims` that is proved lawful (`Bip38.Std.prims_lawful`) |
| `Spec/Vectors.lean`, `Props/Vectors*.lean` | The published vectors of `tests/data/values.json` for one run of each operation, computed by the kernel with the real SHA-256, RIPEMD-160, AES-256 and curve; the four values of scrypt they need are tabulated (computed outside Lean with `hashlib.scrypt`). They check that model and code agree there; they are examples, not claims |
| `Spec/*.lean` | small independent specifications used in the statements (Base58 text, numerals, hex text, WIF payload, curve, BIP38 records, RIPEMD-160 on 32-bit words, table of first characters, toy primitives for examples) |
| `Lemmas/*.lean` | helper lemmas |
| `Props/*.lean` | the property theorems `Cnn_...`, with non-vacuity examples beside them |

## Trusted base

* Lean's kernel (the gate also replays every module through it).
* The axioms `propext`, `Classical.choice`, `Quot.sound`, and no others. No axiom is declared, nothing is left
  unproved, no compiled code is trusted; big-number facts (primality certificates, `N*G = 0`, tables) use `decide +kernel`,
  that is, kernel reduction.
* The faithfulness of the model to the Python text. Every definition cites the lines it models. The model is executable; in a scratch
  copy it was compiled with `Std.prims` as primitives and reproduced all 66 vectors of `tests/data/values.json` (that run is a test
  of faithfulness and no part of the proofs).
* For C81..C89 and C91..C95, which are about the text itself: `Py/Syntax.lean` and `Py/Meaning.lean` (how Python reads a file: tokens, indentation,
  precedence, scopes, imports, classes) and `Src/Sem.lean`, `Src/Builtin.lean` (what the constructs and built-in functions do). `tools/gen_src.py`,
  which wrote the terms of `Src/*.lean`, is not trusted: `C81_characters_..` to `C86_characters_..` prove, in the kernel, that the
  characters of the twelve files, which stand word for word in `Py/Of*.lean` (`XText`, to be compared with `/repo`), define exactly these terms. They are stated as a fixed point (the
  definitions mean themselves under the names that they define, as Python looks names up when a function is called), and as `↔`: no other list of definitions is one
  (`Py/Only.lean`, `Py/OnlyOf.lean`: names and kinds are read off the tree, then each definition is determined by those before it, whatever the others are). `Program` (`Py/Program.lean`) puts the files together, so that what a file imports is what
  the texts of the other files mean, and the methods of a class are those its text defines; `C86_characters_program`: it holds of one list of definitions, that of `Src/*.lean`. Left out of these files: the class `TestFrameworkKey` (a unit
  test) and the check of the sizes of `struct` in `libs/ripemd160.py`; `cryptocurrencies.py` is C97; what `bip38/secp256k1/__init__.py` hands on is C96. These replace the
  trust in the hand-written `Model/*.lean`: C86 proves that the six methods of
  `bip38.py`, as written in the repository, compute what `Model/Bip38.lean` says, for all arguments, so the theorems about the model are
  theorems about the text. Not covered there: subclasses and replaced module globals (names are resolved where they are defined),
  annotations. A run that leaves the fragment has no result, as has one that does not end;
  the theorems show that neither happens, except for the loop of C82. For C92..C95, C98 and C99 `SrcX/Sem.lean` and `SrcX/Builtin.lean` instead of those of `Src`, and `PyX/Meaning.lean`, which is `Py/Meaning.lean` with the constructs of `SrcX` (`C92_characters_..`) (which calls are
  external; the operators `+` and `*` on points of `ecdsa`, `struct` and the built-in functions of Python are not).
* For C96 and C97: `Py/Tops.lean`, `Py/Classes.lean`, `Model/Import.lean`, `Src/Class.lean`. `tools/gen_classes.py` and `tools/gen_import.py` are not trusted for
  what they read from the files: `C97_characters`, `C96_characters` and `C96_characters_names` prove that the characters of the 17 files say it.
  C96 also checks, for every name of every module, that `tools/gen_src.py` resolved it as Python does (the table `links`, which `tools/gen_import.py` writes). Not covered by C96: `importlib.reload`,
  deleting from `sys.modules`, two threads importing at once, replaced `sys.path` entries.
* The reading of Python's and the packages' semantics stated in `Py.lean`, `Model/Crypto.lean` and `Model/Secp256k1.lean`.

### Parameters

`hashlib.sha256`, `hashlib`'s RIPEMD-160 (present or absent), `scrypt.hash`, the block functions of `pyaes` and
`unicodedata.normalize("NFC", .)` are the fields of a record `Prims`. Theorems hold for *every* `Prims` satisfying
`Prims.Lawful`: output lengths, and AES decryption inverts encryption on 16-byte blocks under a 32-byte key. No
property assumes collision resistance, randomness or any other cryptographic strength: where a user's expectation needs one (e.g. "a wrong
passphrase does not decrypt"), the theorem names the exact coincidence that would be necessary. `Std.prims` (real algorithms) and three toy
instances show the assumptions are satisfiable. `os.urandom` results are explicit arguments, so statements hold for all
random bytes. The elliptic curve is *not* a parameter: secp256k1 is defined concretely and tied to Mathlib's group law.

### Modelled

All functions and methods of `base58.py`, `ripemd160.py`, `utils.py`, `crypto.py`, `const.py`, `exceptions.py`, `wif.py`, `p2pkh_address.py`,
`bip38.py`, the coin table, and of `private_key.py`, `public_key.py`, `point.py`, with the exceptions below; and of the `ecdsa` package: point
addition, scalar multiplication (as iterated addition over the bits), `from_bytes` of signing and verifying keys in the encodings used,
square roots modulo p, the acceptance checks with their exceptions.

### Not modelled

* The texts in `bip38/info.py` (only their names, C96), `setup.py`, docstrings; of type annotations only the names they read when a module is
  imported (C96); the class `Secp256k1`, which nothing uses, beyond its import.
* `underlying_object()`/`name()` accessors, which hand out the object of the `ecdsa` package or a constant.
* `string_to_int`/`encode` on objects other than `bytes`, `str` and `None` (a `bytearray` behaves as `bytes`); see `Model/Base58Any.lean`.
* The texts of exceptions raised by Python itself or by other packages (class modelled, text only an approximation): `UnicodeEncodeError`,
  `KeyError`, `OverflowError`, `TypeError`, `bytes.fromhex`. The texts of all exceptions raised by the library are modelled completely, with their
  `expected`, `got` and `detail` parts.
* Lone surrogates in Python strings (`Char` excludes them; the `UnicodeEncodeError` that `scrypt` raises for them in a passphrase is a fault of
  C79); arguments of types other than those the signatures allow, except where listed
  (`Data.other`, `CoinArg`, `Model/Base58Any.lean`, `Model/Bip38Any.lean`); objects for `lot`/`sequence` whose `bool()` or `str()` raise.
* Timing (except the number and cost parameters of the external calls, C80), printing; memory exhaustion and signals outside of external calls
  (in them they are faults of C79).
* Concurrency below the granularity of `Model/Threads.lean`: there reads of attributes and actions are atomic; changing the entries of a `NETWORKS`
  dictionary in place between the lookups of one expression, and interruptions of the constructor, are not modelled.

## Findings (behaviour of the code that contradicts what a user expects; each is proved)

| where | what | theorems |
|---|---|---|
| `integer_to_bytes` without byte count | drops leading zero bytes; `encrypt`/`create_new_encrypted_wif` raise `ValueError` when a masked 16-byte half starts with 0 (about 1 in 128 calls of `encrypt`) | C18, C33, C60 |
| `decrypt` | a private key below 2^248 can be encrypted but never decrypted: `Secp256k1Error` | C17 |
| `decrypt` (EC) | fails or reports another seed when the seed, the key or an inner block starts with 0 | C29 |
| texts of errors | `confirm_code` reports "expected: 102" for a code that must have 51 bytes; prefix errors of `confirm_code` show a length as the expected prefix; an unknown network is reported by its type `<class 'str'>` and not by its name; `encode_wif` reports "expected: 64" and the number of bytes for a `bytes` key | C67, C24, C07 |
| `confirm_code` | `PassphraseError` for the right passphrase iff byte 0 or 16 of an x coordinate is 0 | C30 |
| `base58.decode` | a foreign ASCII character counts as digit -1 instead of an error | C04 |
| `base58.encode` | never ends with an alphabet of one character; `ZeroDivisionError` with an empty one | C82 |
| `decode_wif` | neither checksum nor compression marker is verified | C09, C10 |
| `decode_wif` | a user-made network whose WIF prefix is another's plus one byte: its uncompressed WIFs are read on the other network as compressed WIFs of another key | C08 |
| `decrypt` | the checksum of the encrypted WIF is not verified | C22 |
| `decrypt`/`confirm_code` (EC) | any flag byte is accepted; unknown ones are read as 0 | C34 |
| `intermediate_code` | `lot=0` or `sequence=0` is silently treated as absent (but `sequence="0"` is used) | C26, C27, C74 |
| `create_new_encrypted_wif` | seeds of other lengths than 24 are accepted; longer ones are not recoverable | C32 |
| `BIP38.alphabet` | stored, never used: Ripple addresses come out in the Bitcoin alphabet | C37, C56 |
| `Point.from_bytes` | no curve check; the fallback for old `ecdsa` cannot read compressed points | C42, C45 |
| `integer_to_bytes(signed=True)` | byte count computed without the sign bit: `OverflowError` for 128..255 and so on | C47 |
| `encode_wif(None)` | `TypeError` while building the error text | C49 |
| `P2PKHAddress.encode` | every `public_key_type` other than `"compressed"` (`None`, `"Compressed"`, `"wif-compressed"`) silently gives the address of the uncompressed key | C76 |
| `encrypt`, `decrypt` in threads | the prefixes of the class are read three and two times: if another thread replaces `NETWORKS` meanwhile, the result can mix old and new prefixes | C78 |
| `ripemd160` | where `hashlib` lists RIPEMD-160 but refuses it (OpenSSL 3 without legacy provider) every address raises `ValueError`, although an implementation is bundled | C79 |
| `confirm_code`, `create_new_encrypted_wif` | a `ValueError` of `hashlib` while a code is verified is reported as an invalid code | C79, C98 |
| coin table | Dogecoin, Ravencoin, Divi, Stratis: two networks share a WIF prefix | C58 |

## Method per property

Statements use the model's API functions and definitions of `Spec/`; they do not mention helper lemmas. "Symbolic execution" below
means rewriting a `do` block step by step (`Lemmas/Create.py_bind`), each step with its own lemma.

| property | how it is proved |
|---|---|
| C01 Base58 decode inverts encode | induction on the digit list of the carry loops (`Lemmas/Base58`): the loop computes the positional numeral of `Spec/Base58`, leading zeros are counted separately |
| C02 Base58 encode inverts decode on well-formed text | the same numeral, uniqueness of digits |
| C03 Base58Check round trip and soundness | C01 plus `take`/`drop` at `length - 4`; the error case by exclusion |
| C04 Base58 decode and characters outside the alphabet | the loop with `find` returning -1 evaluated over the integers; explicit colliding text |
| C05 Integer/bytes conversion is lossless | positional notation on byte lists, `Nat.size`/bit length |
| C06 Hex text round trip | induction on characters and bytes; white-space grammar as an inductive predicate in `Spec/Hex` |
| C07 WIF round trip | rewriting with C01, prefix cancellation |
| C08 WIF of one network is refused on a network with another prefix | `List.append_inj` on payloads of different prefixes; prefixes as shortest base-256 numerals (injective, last byte split off) |
| C09 The checksum of a WIF is not verified | equivalence of the decision chain with the payload grammar; then a constructed text for every key and checksum |
| C10 The compression marker of a WIF is not verified | as C09 with an arbitrary 33rd byte |
| C11 Recognisable text shape of every produced code | numeric interval of the payload value divided by powers of 58 (`Spec/Starts`), kernel arithmetic for the bounds |
| C12 P2PKH address round trip | C03 for any valid alphabet, plus slicing |
| C13 P2PKH address decode is sound | both directions of the decision chain |
| C14 Private keys: exactly the scalars 1..N-1 in 32 bytes are accepted | case analysis of length and range |
| C15 Public key serialisations round trip | square roots modulo p (p = 3 mod 4, Fermat), uniqueness of the root with given parity |
| C16 Scalar multiplication laws used by EC-multiply | p and N prime by Pocklington certificates in kernel arithmetic; affine formulas equal to Mathlib's `WeierstrassCurve.Affine.Point` addition; N*G = 0 by kernel computation; the curve has exactly N points: at most 2p+1 (abscissa and parity), divisible by N, odd because -7 is no cube (`Lemmas/CurveOrder`) |
| C17 When decrypt inverts encrypt (no EC multiply) | symbolic execution; key lemma: `integer_to_bytes(a xor b)` is byte-wise xor with leading zeros stripped |
| C18 When encrypt returns a value | the same lemma, exact condition on the first bytes |
| C19 encrypt writes the BIP38 record of the key | symbolic execution of encrypt, record of `Spec/Bip38` |
| C20 decrypt never returns a key that does not match the record | inversion of a successful run of decrypt in both branches |
| C21 decrypt details are mutually consistent | as C20, the detail record against `Spec/Bip38.KeyDetail` |
| C22 The checksum of an encrypted WIF is not verified | both branches only slice up to byte 39 |
| C23 decrypt refuses malformed records before using the passphrase | first steps of decrypt |
| C24 Network selection | case analysis of `selectNetwork` and the membership test |
| C25 Only the NFC form of a passphrase matters | `nfc` occurs only through `scryptPassphrase` |
| C26 intermediate_code input validation | case analysis over `Option Int` |
| C27 lot 0 and sequence 0 are silently dropped | both branches reduce to `noLotFactor`; the 44-byte code fails the length test |
| C28 Intermediate code layout | symbolic execution of intermediate_code |
| C29 When decrypt inverts create_new_encrypted_wif | create followed by decrypt, using C16 (commutation of scalar factors) and the stripping lemma |
| C30 When confirm_code confirms what create_new_encrypted_wif produced | create followed by confirm, as C29 |
| C31 lot and sequence survive the trip | uniqueness of quotient and remainder by 4096 |
| C32 The seed length is not checked | explicit runs for a 1-byte and a 25-byte seed; in general by lengths |
| C33 create_new_encrypted_wif input validation | step-by-step error analysis of create |
| C34 Flag byte semantics | the table of 256 bytes by kernel decision, lifted to all byte values by `forall_byte` |
| C35 confirm_code is sound | inversion of a successful run of confirm_code |
| C36 Every class of the coin table is usable | kernel decision over the finite coin table (the table is the whole domain) |
| C37 A coin's own Base58 alphabet is not used | none of the functions reads the field `alphabet`; first character from C11 |
| C38 Pure-Python RIPEMD-160 equals the standard function | simulation relation between unbounded integers and 32-bit words, through all 80 steps and all blocks |
| C39 Error text always carries the message | string lemmas on the rendering function; bytes: induction over the byte list against the relation Shows (Spec/BytesRepr) |
| C40 A wrong passphrase cannot decrypt | equivalence of success with the existence of a matching key; list of exception classes by execution |
| C41 Encrypted keys are bound to their network | C20 with the unique key of the record |
| C42 Points built from bytes are not checked | unfolding, plus a counterexample off the curve |
| C43 Points form the secp256k1 group | transport along the bijection with Mathlib's point group; group order N prime |
| C44 Public keys and points correspond | case analysis of the ecdsa checks |
| C45 Fallback code for old ecdsa releases | model of the fallback branches; comparison |
| C46 Random bytes are used only where an argument is missing | `bytesOrRandom` occurs once in each function |
| C47 Byte counts chosen by integer_to_bytes | bit length against powers of 256 |
| C48 Arguments given as bytes, text or nothing | case analysis of the argument type |
| C49 WIF functions on any prefix and any network name | as C07 with a variable prefix length |
| C50 Hash functions of the API | case analysis of the argument type |
| C51 An encrypted key determines the private key | record cancellation, AES injectivity from its left inverse |
| C52 A created record determines its seed | record cancellation, AES injectivity, xor cancellation |
| C53 Encrypting a decrypted key reproduces the text | decrypt inversion followed by encrypt execution |
| C54 An address determines prefix and key hash | base58 injectivity, serialisation injectivity (C15) |
| C55 detail=True only adds information | both calls share every step up to the last |
| C56 Networks act only through their prefixes | functions of the two prefixes only, by rewriting |
| C57 Creating a decrypted EC record again reproduces it | EC decrypt inversion followed by create execution |
| C58 Which networks of a coin can read each other's WIFs and addresses | kernel decision over all pairs of networks, then C08/C12 |
| C59 Well-known first characters | generated table of value intervals; soundness of the interval check proved in `Lemmas/Starts` |
| C60 Every outcome of encrypt | exhaustive case distinction of the execution of encrypt |
| C61 Decrypting or confirming on another network | same key on both networks by uniqueness; then the final comparison |
| C62 What an intermediate code determines | record cancellation of C28 |
| C63 A confirmation code confirms one key | record cancellation, AES injectivity, point injectivity (C16) |
| C64 Encrypted keys and confirmation codes written by other BIP38 programs | a separate specification of the records of the standard (`Spec/Standard`, 16-byte xor, no stripping); execution of decrypt/confirm_code on them; finding `strip` |
| C65 What create_new_encrypted_wif writes is the standard | the record of C33 equals the one of `Spec/Standard` when all four blocks have 16 bytes |
| C66 Every outcome of decrypt | execution of decrypt by cases, each failing step with class and message |
| C67 Every outcome of confirm_code | execution of confirm_code by cases |
| C68 Every outcome of create_new_encrypted_wif | execution of create_new_encrypted_wif by cases; the four block conditions as byte inequalities |
| C69 Every outcome of intermediate_code | execution of intermediate_code by cases, with the rendered texts; completeness of the cases by omega |
| C70 Texts of errors hold no secrets | case distinction of C60, C66 - C69 over every failing call |
| C71 A private key survives every history | labelled transition system over the API (Spec/History.lean); invariant by induction on the number of steps; C61, C17, C07 for the single steps |
| C72 Base58 helpers on arguments of any kind | strict UTF-8 decoder proved to be the inverse of encoding (induction on the bytes, arithmetic per length of character); case distinction |
| C73 Texts and passphrases of any kind | the methods on `Data` arguments (Model/Bip38Any.lean); step-by-step comparison with the text versions up to the first use of the passphrase; C60, C66, C67, C69 for the rest |
| C74 Lot and sequence numbers of any kind | `intermediate_code` over abstract number objects (`NumArg`: bool, int, str results); reduction to the integer version, symbolic execution, injectivity of Base58Check |
| C75 Objects in a program that changes classes and objects | a world of classes and objects with attribute changes (Model/World.lean); invariant over sequences of actions by induction; comparison of two runs step by step up to the lookup of the prefixes |
| C76 Network names, WIF types and public key types of any kind | the functions over abstract objects (`ObjArg`: bool, hash, type and text), Model/Bip38Kind.lean; reduction to the text versions |
| C77 Calls without optional arguments | the model's default arguments are those of the signatures; C07, C12, C24, C49, C55, C59 instantiated |
| C78 Objects shared by threads | calls as programs of reads of shared attributes (Model/Threads.lean), proved equal to the sequential model when run alone; a counting predicate for reads that may change, induction over schedules |
| C79 External functions that raise | the methods once more in a monad that records every external call and lets it raise by an arbitrary schedule (Model/External.lean); a simulation predicate between a run and the outcome of the other model, closed under bind, proved statement by statement; exact run for the refused RIPEMD-160 |
| C80 Work of a call | the same predicate carries the list of work items; malformed inputs by showing that the statements before the first call raise; the first two calls of a guess by running the model up to them and monotonicity of the log |
| C81 The text of utils.py, crypto.py and exceptions.py | the text of the modules as Lean terms, one combinator per construct (written by tools/gen_src.py; that they are what the characters of the files mean is proved: a lexer, a parser and the rules of scopes in Lean, Verif/Py, run by the kernel on the text) and run by the semantics of Src/Sem.lean; symbolic execution statement by statement (tactic ev) shows the run equals the model's function (Src/EqUtils, EqCrypto); then C05, C06, C39 apply |
| C82 The text of libs/base58.py | the same; the while and for loops by induction on the number and on the text (Src/EqBase58); non-termination by partial correctness of the least fixed point |
| C83 The text of libs/ripemd160.py | the same; invariants of the rounds and blocks (Src/EqRipemd160), then C38 |
| C84 The text of secp256k1/*.py | the same (Src/EqSecp), then C14, C15, C16, C41..C45 |
| C85 The text of wif.py and p2pkh_address.py | the same (Src/EqWif, EqP2pkh), then C07, C09, C10, C12 |
| C86 The text of bip38.py | the same for the six methods (Src/EqBase .. EqDecrypt), using the equations of all functions they call; the twelve files (and `secp256k1/__init__.py`) together have one meaning, found file by file (Py/OnlyProgram) |
| C87 Positional, keyword and default arguments | an explicit relation between arguments and parameters (Spec/Call.lean); the binding function of the semantics satisfies it or raises, by induction over the parameters; each function's signature by reduction |
| C88 Which exceptions a caller has to expect | C86 and the exception lists of C24, C26, C33, C40, C60 |
| C89 Whole flows on the text | C86 with C17, C29, C30, C31 |
| C90 How often encryption fails | the exact conditions of C60, C68, C17 with the key derivation replaced by a constant; counting of functions Fin 64 -> byte with two restricted values (the second by a set that depends on the others) |
| C91 Arguments of any kind, on the text | symbolic execution as for C86 up to the statement that uses the object (Src/EqKinds, EqAny); then C73, C74, C76 for the consequences |
| C92 Faults of external functions, on the text | a second meaning of the same terms in which each external call is an event that may raise (SrcX/Sem.lean, SrcX/Builtin.lean); for each construct a rule that carries the relation "follows the text without faults, within these bounds" from the parts to the whole (SrcX/Sim.lean); the rules applied to the text of every function (SrcX/SimText.lean, generated by tools/gen_sim.py); `while` by partial correctness of both least fixed points |
| C93 How often external functions are called, on the text | the bounds of the same relation, added up along the text |
| C94 What external functions are called with, on the text | the same relation also carries the calls that are allowed; a rule for calls whose arguments are constants of the text |
| C95 No value without the work, on the text | for each construct a rule that carries a lower bound of the answered calls, one for going on and one for returning, from the parts to the whole (SrcX/Low.lean); the rules applied to the text of every function (SrcX/LowText.lean, generated by tools/gen_sim.py); together with C93 exact numbers |
| C96 Importing the package, in every history of imports | a model of CPython's import (Model/Import.lean) on the statements at module level of all files (Model/ImportText.lean, generated by tools/gen_import.py); an invariant of `sys.modules` (complete modules hold the objects the text says, taken from complete modules), kept by every statement, by induction over the nesting of imports with a rank that decreases along `from .. import`; histories by induction |
| C97 The text of cryptocurrencies.py | the class statements as terms (Src/Cryptocurrencies.lean, generated by tools/gen_classes.py), attribute look-up along the base classes (Src/Class.lean); the table by evaluation in the kernel, derived classes by induction over the chain of bases |
| C98 What becomes of a fault, also of one that is caught, on the text | a third relation between the text with faults and without (Spec/Ends.lean), carried by the same kind of rules (SrcX/Stop.lean) from the parts of each function to the whole (SrcX/StopText.lean, generated); the nine `try` statements by lemmas on their handlers; that `Point.raw` is not reached from `bip38.py` by an invariant (the variables `private_key` and `public_key` hold no `Point`); the two hash findings by running the statements up to the `try` |
| C99 Which external functions are called does not depend on secrets | the sequence of steps as a list computed from public data (Spec/Steps.lean); a relation "follows this plan", carried through the `do` blocks of Model/External.lean (Lemmas/Steps.lean); pairs of calls by comparing their plans; on the text: for each construct the set of possible sequences from those of its parts, with initial parts for runs that raise (SrcX/Seq.lean, SrcX/SeqText.lean, generated), compared with the plans in the kernel; that `aes.encrypt` is the method of pyaes by an invariant of the variable; two runs that agree in public arguments: a relational logic over the constructs of the text (SrcX/Same.lean), public variables tracked statement by statement (SrcX/SameText.lean) |

## Wrong programs tried against the theorems

`seeded/LOG.jsonl` has one line per edit; `tools/mutation_results` keeps the raw results, `tools/gen_log.py` makes the one of the other.
1047 edits were tried:

| runs | what was edited | edits | killed | survived |
|---|---|---|---|---|
| 1 | definitions of the model | 192 | 191 | 1 |
| 2 | definitions of the model | 97 | 95 | 2 |
| 3 | definitions of the model | 60 | 58 | 2 |
| 4 | definitions of the model | 26 | 26 | 0 |
| 5 | definitions of the model | 46 | 42 | 4 |
| 6 | definitions of the model | 31 | 30 | 1 |
| 7 | definitions of the model | 29 | 29 | 0 |
| 8 | definitions of the model | 16 | 16 | 0 |
| T | Python text, by program | 459 (9 not translatable) | 447 | 3 |
| X | Python text: faults, calls and their arguments (C92-C95) | 18 (1 not translatable) | 17 | 0 |
| Y | Python text: what becomes of faults, order of calls (C98, C99) | 14 (1 not translatable) | 13 | 0 |
| I | Python text: imports, classes, networks (C96, C97) | 22 | 22 | 0 |
| C | the characters in Lean, by program (C81-C86) | 27 | 27 | 0 |
| S | lexer, parser and meaning of Python, program as a whole | 10 | 10 | 0 |

Runs 1-9 edit a definition of the Lean model by hand and rebuild all theorems; examples alone do not count as a kill.
Runs T edit the Python text by program (a constant one up or down, a comparison negated, two arguments swapped, a name replaced by another of the same function, a call or a `raise` dropped, a keyword argument left out, a bound of a slice dropped, a string changed, an operator replaced); X, Y and I by hand, as a realistic bug would.
After an edit of the text, `tools/gen_src.py` translates it again, so that the edit reaches the theorems through the same path as the code itself; where the edited text leaves the part of Python that the translation takes, there is no model and nothing to prove (noted in the row).
Run C edits the characters of the files as they stand in `Verif/Py/Of*.lean` and keeps everything else, so that no translation is involved; run S edits the lexer, the parser, the meaning
(`Verif/Py/{Syntax,Meaning,Classes,Tops}.lean`) and the program as a whole (`Verif/Py/Program.lean`), and rebuilds the theorems about the characters.
For these runs `theorems_failed` lists the theorems that no longer build because the lemma that failed is below them.

The edits that survive are equivalent to the original on every execution (a fuel bound that is never reached, a message that no call can reach, the failing branch of `fi` for a round that does not occur), or the row says which claim now covers them.
