# Formal model of meherett/python-bip38 in Lean 4

The repository is read as text only (nothing of it is executed). `lean/Verif` contains a model of its Python code, written
function by function, small independent specifications, and the proofs. `properties.jsonl` lists the properties,
`MANIFEST.json` maps each of them to its theorems, `seeded/LOG.jsonl` records the wrong programs tried against the theorems.

## Layout (`lean/Verif/`)

| module | contents |
|---|---|
| `Py.lean` | Python run-time conventions: `bytes`, `str`, exceptions as values (`Except Exc`), slices |
| `Model/Exceptions.lean` | `bip38/exceptions.py` |
| `Model/Utils.lean` | `bip38/utils.py` |
| `Model/Base58.lean` | `bip38/libs/base58.py` |
| `Model/Const.lean` | `bip38/const.py` |
| `Model/Coins.lean` (generated by `tools/gen_coins.py` from the text of the repository) | `bip38/cryptocurrencies.py` |
| `Model/Ripemd160.lean` | `bip38/libs/ripemd160.py` |
| `Model/Crypto.lean` | `bip38/crypto.py`, and the record `Prims` of external primitives |
| `Model/Secp256k1.lean`, `Model/Point.lean` | `bip38/secp256k1/{private_key,public_key,point}.py` and the part of the `ecdsa` package they call |
| `Model/Wif.lean` | `bip38/wif.py` |
| `Model/P2pkh.lean` | `bip38/p2pkh_address.py` |
| `Model/Bip38.lean` | `bip38/bip38.py` |
| `Model/Base58Any.lean`, `Model/Bip38Any.lean`, `Model/Bip38Num.lean`, `Model/Bip38Kind.lean` | the same functions on arguments of any kind (text, bytes, `None`, other objects; numbers, networks and types given as other objects) |
| `Model/World.lean` | a program that constructs `BIP38` objects, calls them and changes attributes of classes and objects (C75) |
| `Model/Threads.lean` | calls as programs that read shared attributes one by one, threads and schedules (C78) |
| `Model/External.lean` | the methods of `bip38/bip38.py` with every call of an external function as a recorded event that may raise (C79, C80); proved equal to `Model/Bip38.lean` when nothing raises |
| `Src/Sem.lean`, `Src/Builtin.lean` | meaning of the fragment of Python the repository is written in (values, expressions, statements, calls, exceptions, `while` as a least fixed point), and of the built-in and external functions it calls (C81..C89, C91) |
| `Src/{Exceptions,Const,Utils,Base58,Ripemd160,Crypto,Point,PublicKey,PrivateKey,Wif,P2pkhAddress,Bip38}.lean` (generated by `tools/gen_src.py` from the text of the repository) | the functions of the repository, statement by statement, as terms of that language |
| `Py/Syntax.lean` | lexer, trees and parser of the part of Python that the repository is written in (C81..C86) |
| `Py/Meaning.lean` | from the tree of a module to what it defines, in terms of `Src/Sem.lean`: scopes, imports, classes, functions (C81..C86) |
| `Py/Text.lean` | proofs that only the kernel computes |
| `Py/Classes.lean`, `Py/Tops.lean` | from the tree to class statements (C97) and to the module level of a file (C96) |
| `Py/Of*.lean` (generated by `tools/gen_text.py`) | all files of `bip38/`, character by character, and that they define the functions of `Src/*.lean` (C81..C86), the classes of `Src/Cryptocurrencies.lean` (C97), the module level and the names in `Model/ImportText.lean` (C96) |
| `Py/Only.lean`, `Py/OnlyOf.lean` (the latter written by `tools/gen_only.py`) | that no other definitions are those of a text |
| `Py/Program.lean`, `Py/OnlyProgram.lean` (the latter written by `tools/gen_only.py`) | the files together: one meaning of all texts (`C86_characters_program`) |
| `PyX/*.lean` (written by `tools/gen_text.py` and `tools/gen_only.py`) | `Py/Meaning.lean` and the theorems of `Py/Of*.lean` again, with the constructs of `SrcX` (C92) |
| `Src/Eq*.lean`, `Src/Lemmas.lean`, `Src/Values.lean` | running these terms equals the functions of `Model/`; Python values of arguments and results |
| `SrcX/Sem.lean`, `SrcX/Builtin.lean` | a second meaning of the same fragment, with every call of an external function as an event that may raise (C92..C95) |
| `SrcX/{Exceptions,..,Bip38}.lean` (generated by `tools/gen_sim.py` from `Src/`) | the same text, term by term, with these constructs |
| `SrcX/Sim.lean`, `SrcX/SimText.lean`, `SrcX/SimBip38.lean` (the latter two generated by `tools/gen_sim.py`) | the text with faults follows the text without; bounds of the external calls |
| `Model/Import.lean`, `Model/ImportText.lean` (the latter generated by `tools/gen_import.py`), `Spec/Import.lean` | the import machinery of CPython, the statements at module level of every file, and what their names stand for (C96) |
| `Src/Class.lean`, `Src/Cryptocurrencies.lean` (the latter generated by `tools/gen_classes.py`) | class statements, and those of `cryptocurrencies.py` (C97) |
| `SrcX/Low.lean`, `SrcX/LowText.lean` (the latter generated by `tools/gen_sim.py`) | lower bounds of the external calls before a value is returned (C95) |
| `SrcX/Stop.lean`, `SrcX/StopText.lean` (the latter generated by `tools/gen_sim.py`), `Spec/Ends.lean` | what becomes of a fault, also of one that is caught (C98) |
| `Spec/Steps.lean`, `Lemmas/Steps.lean` | the sequence of external calls of a run, on `Model/External.lean` (C99) |
| `SrcX/Seq.lean`, `SrcX/SeqText.lean` (the latter generated by `tools/gen_sim.py`), `Spec/Order.lean` | the same on the text, for arguments of any kind (C99) |
| `SrcX/Same.lean`, `SrcX/SameText.lean` | a logic of two runs of the text that agree in the public variables (C99) |
| `Std/*.lean` | SHA-256, PBKDF2/scrypt, AES-256 and an identity "NFC" written out in Lean: an instance of `Prims` that is proved lawful (`Bip38.Std.prims_lawful`) |
| `Spec/Vectors.lean`, `Props/Vectors*.lean` | The published vectors of `tests/data/values.json` for one run of each operation, computed by the kernel with the real SHA-256, RIPEMD-160, AES-256 and curve; the four values of scrypt they need are tabulated (computed outside Lean with `hashlib.scrypt`). They check that model and code agree there; they are examples, not claims |
| `Spec/*.lean` | small independent specifications used in the statements (Base58 text, numerals, hex text, WIF payload, curve, BIP38 records, RIPEMD-160 on 32-bit words, table of first characters, toy primitives for examples) |
| `Lemmas/*.lean` | helper lemmas |
| `Props/*.lean` | the property theorems `Cnn_...`, with non-vacuity examples beside them |

## Trusted base

* Lean's kernel (the gate also replays every module through it).
* The axioms `propext`, `Classical.choice`, `Quot.sound`, and no others. No axiom is declared, nothing is left
  unproved, no compiled code is trusted; big-number facts (primality certificates, `N*G = 0`, tables) use `decide +kernel`,
  that is, kernel reduction.
* The faithfulness of the model to the Python text. Every definition cites the lines it models. The model is executable; in a scratch
  copy it was compiled with `Std.prims` as primitives and reproduced all 66 vectors of `tests/data/values.json` (that run is a test
  of faithfulness and no part of the proofs).
* For C81..C89 and C91..C95, which are about the text itself: `Py/Syntax.lean` and `Py/Meaning.lean` (how Python reads a file: tokens, indentation,
  precedence, scopes, imports, classes) and `Src/Sem.lean`, `Src/Builtin.lean` (what the constructs and built-in functions do). `tools/gen_src.py`,
  which wrote the terms of `Src/*.lean`, is not trusted: `C81_characters_..` to `C86_characters_..` prove, in the kernel, that the
  characters of the twelve files, which stand word for word in `Py/Of*.lean` (`XText`, to be compared with `/repo`), define exactly these terms. They are stated as a fixed point (the
  definitions mean themselves under the names that they define, as Python looks names up when a function is called), and as `↔`: no other list of definitions is one
  (`Py/Only.lean`, `Py/OnlyOf.lean`: names and kinds are read off the tree, then each definition is determined by those before it, whatever the others are). `Program` (`Py/Program.lean`) puts the files together, so that what a file imports is what
  the texts of the other files mean, and the methods of a class are those its text defines; `C86_characters_program`: it holds of one list of definitions, that of `Src/*.lean`. Left out of these files: the class `TestFrameworkKey` (a unit
  test) and the check of the sizes of `struct` in `libs/ripemd160.py`; `cryptocurrencies.py` is C97; what `bip38/secp256k1/__init__.py` hands on is C96. These replace the
  trust in the hand-written `Model/*.lean`: C86 proves that the six methods of
  `bip38.py`, as written in the repository, compute what `Model/Bip38.lean` says, for all arguments, so the theorems about the model are
  theorems about the text. Not covered there: subclasses and replaced module globals (names are resolved where they are defined),
  annotations. A run that leaves the fragment has no result, as has one that does not end;
  the theorems show that neither happens, except for the loop of C82. For C92..C95, C98 and C99 `SrcX/Sem.lean` and `SrcX/Builtin.lean` instead of those of `Src`, and `PyX/Meaning.lean`, which is `Py/Meaning.lean` with the constructs of `SrcX` (`C92_characters_..`) (which calls are
  external; the operators `+` and `*` on points of `ecdsa`, `struct` and the built-in functions of Python are not).
* For C96 and C97: `Py/Tops.lean`, `Py/Classes.lean`, `Model/Import.lean`, `Src/Class.lean`. `tools/gen_classes.py` and `tools/gen_import.py` are not trusted for
  what they read from the files: `C97_characters`, `C96_characters` and `C96_characters_names` prove that the characters of the 17 files say it.
  C96 also checks, for every name of every module, that `tools/gen_src.py` resolved it as Python does (the table `links`, which `tools/gen_import.py` writes). Not covered by C96: `importlib.reload`,
  deleting from `sys.modules`, two threads importing at once, replaced `sys.path` entries.
* The reading of Python's and the packages' semantics stated in `Py.lean`, `Model/Crypto.lean` and `Model/Secp256k1.lean`.

### Parameters

`hashlib.sha256`, `hashlib`'s RIPEMD-160 (present or absent), `scrypt.hash`, the block functions of `pyaes` and
`unicodedata.normalize("NFC", .)` are the fields of a record `Prims`. Theorems hold for *every* `Prims` satisfying
`Prims.Lawful`: output lengths, and AES decryption inverts encryption on 16-byte blocks under a 32-byte key. No
property assumes collision resistance, randomness or any other cryptographic strength: where a user's expectation needs one (e.g. "a wrong
passphrase does not decrypt"), the theorem names the exact coincidence that would be necessary. `Std.prims` (real algorithms) and three toy
instances show the assumptions are satisfiable. `os.urandom` results are explicit arguments, so statements hold for all
random bytes. The elliptic curve is *not* a parameter: secp256k1 is defined concretely and tied to Mathlib's group law.

### Modelled

All functions and methods of `base58.py`, `ripemd160.py`, `utils.py`, `crypto.py`, `const.py`, `exceptions.py`, `wif.py`, `p2pkh_address.py`,
`bip38.py`, the coin table, and of `private_key.py`, `public_key.py`, `point.py`, with the exceptions below; and of the `ecdsa` package: point
addition, scalar multiplication (as iterated addition over the bits), `from_bytes` of signing and verifying keys in the encodings used,
square roots modulo p, the acceptance checks with their exceptions.

### Not modelled

* The texts in `bip38/info.py` (only their names, C96), `setup.py`, docstrings; of type annotations only the names they read when a module is
  imported (C96); the class `Secp256k1`, which nothing uses, beyond its import.
* `underlying_object()`/`name()` accessors, which hand out the object of the `ecdsa` package or a constant.
* `string_to_int`/`encode` on objects other than `bytes`, `str` and `None` (a `bytearray` behaves as `bytes`); see `Model/Base58Any.lean`.
* The texts of exceptions raised by Python itself or by other packages (class modelled, text only an approximation): `UnicodeEncodeError`,
  `KeyError`, `OverflowError`, `TypeError`, `bytes.fromhex`. The texts of all exceptions raised by the library are modelled completely, with their
  `expected`, `got` and `detail` parts.
* Lone surrogates in Python strings (`Char` excludes them; the `UnicodeEncodeError` that `scrypt` raises for them in a passphrase is a fault of
  C79); arguments of types other than those the signatures allow, except where listed
  (`Data.other`, `CoinArg`, `Model/Base58Any.lean`, `Model/Bip38Any.lean`); objects for `lot`/`sequence` whose `bool()` or `str()` raise.
* Timing (except the number and cost parameters of the external calls, C80), printing; memory exhaustion and signals outside of external calls
  (in them they are faults of C79).
* Concurrency below the granularity of `Model/Threads.lean`: there reads of attributes and actions are atomic; changing the entries of a `NETWORKS`
  dictionary in place between the lookups of one expression, and interruptions of the constructor, are not modelled.

## Findings (behaviour of the code that contradicts what a user expects; each is proved)

| where | what | theorems |
|---|---|---|
| `integer_to_bytes` without byte count | drops leading zero bytes; `encrypt`/`create_new_encrypted_wif` raise `ValueError` when a masked 16-byte half starts with 0 (about 1 in 128 calls of `encrypt`) | C18, C33, C60 |
| `decrypt` | a private key below 2^248 can be encrypted but never decrypted: `Secp256k1Error` | C17 |
| `decrypt` (EC) | fails or reports another seed when the seed, the key or an inner block starts with 0 | C29 |
| texts of errors | `confirm_code` reports "expected: 102" for a code that must have 51 bytes; prefix errors of `confirm_code` show a length as the expected prefix; an unknown network is reported by its type `<class 'str'>` and not by its name; `encode_wif` reports "expected: 64" and the number of bytes for a `bytes` key | C67, C24, C07 |
| `confirm_code` | `PassphraseError` for the right passphrase iff byte 0 or 16 of an x coordinate is 0 | C30 |
| `base58.decode` | a foreign ASCII character counts as digit -1 instead of an error | C04 |
| `base58.encode` | never ends with an alphabet of one character; `ZeroDivisionError` with an empty one | C82 |
| `decode_wif` | neither checksum nor compression marker is verified | C09, C10 |
| `decode_wif` | a user-made network whose WIF prefix is another's plus one byte: its uncompressed WIFs are read on the other network as compressed WIFs of another key | C08 |
| `decrypt` | the checksum of the encrypted WIF is not verified | C22 |
| `decrypt`/`confirm_code` (EC) | any flag byte is accepted; unknown ones are read as 0 | C34 |
| `intermediate_code` | `lot=0` or `sequence=0` is silently treated as absent (but `sequence="0"` is used) | C26, C27, C74 |
| `create_new_encrypted_wif` | seeds of other lengths than 24 are accepted; longer ones are not recoverable | C32 |
| `BIP38.alphabet` | stored, never used: Ripple addresses come out in the Bitcoin alphabet | C37, C56 |
| `Point.from_bytes` | no curve check; the fallback for old `ecdsa` cannot read compressed points | C42, C45 |
| `integer_to_bytes(signed=True)` | byte count computed without the sign bit: `OverflowError` for 128..255 and so on | C47 |
| `encode_wif(None)` | `TypeError` while building the error text | C49 |
| `P2PKHAddress.encode` | every `public_key_type` other than `"compressed"` (`None`, `"Compressed"`, `"wif-compressed"`) silently gives the address of the uncompressed key | C76 |
| `encrypt`, `decrypt` in threads | the prefixes of the class are read three and two times: if another thread replaces `NETWORKS` meanwhile, the result can mix old and new prefixes | C78 |
| `ripemd160` | where `hashlib` lists RIPEMD-160 but refuses it (OpenSSL 3 without legacy provider) every address raises `ValueError`, although an implementation is bundled | C79 |
| `confirm_code`, `create_new_encrypted_wif` | a `ValueError` of `hashlib` while a code is verified is reported as an invalid code | C79, C98 |
| coin table | Dogecoin, Ravencoin, Divi, Stratis: two networks share a WIF prefix | C58 |

## Method per property

Statements use the model's API functions and definitions of `Spec/`; they do not mention helper lemmas. "Symbolic execution" below
means rewriting a `do` block step by step (`Lemmas/Create.py_bind`), each step with its own lemma.

