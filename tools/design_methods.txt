C01|induction on the digit list of the carry loops (`Lemmas/Base58`): the loop computes the positional numeral of `Spec/Base58`, leading zeros are counted separately
C02|the same numeral, uniqueness of digits
C03|C01 plus `take`/`drop` at `length - 4`; the error case by exclusion
C04|the loop with `find` returning -1 evaluated over the integers; explicit colliding text
C05|positional notation on byte lists, `Nat.size`/bit length
C06|induction on characters and bytes; white-space grammar as an inductive predicate in `Spec/Hex`
C07|rewriting with C01, prefix cancellation
C08|`List.append_inj` on payloads of different prefixes; prefixes as shortest base-256 numerals (injective, last byte split off)
C09|equivalence of the decision chain with the payload grammar; then a constructed text for every key and checksum
C10|as C09 with an arbitrary 33rd byte
C11|numeric interval of the payload value divided by powers of 58 (`Spec/Starts`), kernel arithmetic for the bounds
C12|C03 for any valid alphabet, plus slicing
C13|both directions of the decision chain
C14|case analysis of length and range
C15|square roots modulo p (p = 3 mod 4, Fermat), uniqueness of the root with given parity
C16|p and N prime by Pocklington certificates in kernel arithmetic; affine formulas equal to Mathlib's `WeierstrassCurve.Affine.Point` addition; N*G = 0 by kernel computation; the curve has exactly N points: at most 2p+1 (abscissa and parity), divisible by N, odd because -7 is no cube (`Lemmas/CurveOrder`)
C17|symbolic execution; key lemma: `integer_to_bytes(a xor b)` is byte-wise xor with leading zeros stripped
C18|the same lemma, exact condition on the first bytes
C19|symbolic execution of encrypt, record of `Spec/Bip38`
C20|inversion of a successful run of decrypt in both branches
C21|as C20, the detail record against `Spec/Bip38.KeyDetail`
C22|both branches only slice up to byte 39
C23|first steps of decrypt
C24|case analysis of `selectNetwork` and the membership test
C25|`nfc` occurs only through `scryptPassphrase`
C26|case analysis over `Option Int`
C27|both branches reduce to `noLotFactor`; the 44-byte code fails the length test
C28|symbolic execution of intermediate_code
C29|create followed by decrypt, using C16 (commutation of scalar factors) and the stripping lemma
C30|create followed by confirm, as C29
C31|uniqueness of quotient and remainder by 4096
C32|explicit runs for a 1-byte and a 25-byte seed; in general by lengths
C33|step-by-step error analysis of create
C34|the table of 256 bytes by kernel decision, lifted to all byte values by `forall_byte`
C35|inversion of a successful run of confirm_code
C36|kernel decision over the finite coin table (the table is the whole domain)
C37|none of the functions reads the field `alphabet`; first character from C11
C38|simulation relation between unbounded integers and 32-bit words, through all 80 steps and all blocks
C39|string lemmas on the rendering function; bytes: induction over the byte list against the relation Shows (Spec/BytesRepr)
C40|equivalence of success with the existence of a matching key; list of exception classes by execution
C41|C20 with the unique key of the record
C42|unfolding, plus a counterexample off the curve
C43|transport along the bijection with Mathlib's point group; group order N prime
C44|case analysis of the ecdsa checks
C45|model of the fallback branches; comparison
C46|`bytesOrRandom` occurs once in each function
C47|bit length against powers of 256
C48|case analysis of the argument type
C49|as C07 with a variable prefix length
C50|case analysis of the argument type
C51|record cancellation, AES injectivity from its left inverse
C52|record cancellation, AES injectivity, xor cancellation
C53|decrypt inversion followed by encrypt execution
C54|base58 injectivity, serialisation injectivity (C15)
C55|both calls share every step up to the last
C56|functions of the two prefixes only, by rewriting
C57|EC decrypt inversion followed by create execution
C58|kernel decision over all pairs of networks, then C08/C12
C59|generated table of value intervals; soundness of the interval check proved in `Lemmas/Starts`
C60|exhaustive case distinction of the execution of encrypt
C61|same key on both networks by uniqueness; then the final comparison
C62|record cancellation of C28
C63|record cancellation, AES injectivity, point injectivity (C16)
C64|a separate specification of the records of the standard (`Spec/Standard`, 16-byte xor, no stripping); execution of decrypt/confirm_code on them; finding `strip`
C65|the record of C33 equals the one of `Spec/Standard` when all four blocks have 16 bytes
C66|execution of decrypt by cases, each failing step with class and message
C67|execution of confirm_code by cases
C68|execution of create_new_encrypted_wif by cases; the four block conditions as byte inequalities
C69|execution of intermediate_code by cases, with the rendered texts; completeness of the cases by omega
C70|case distinction of C60, C66 - C69 over every failing call
C71|labelled transition system over the API (Spec/History.lean); invariant by induction on the number of steps; C61, C17, C07 for the single steps
C72|strict UTF-8 decoder proved to be the inverse of encoding (induction on the bytes, arithmetic per length of character); case distinction
C73|the methods on `Data` arguments (Model/Bip38Any.lean); step-by-step comparison with the text versions up to the first use of the passphrase; C60, C66, C67, C69 for the rest
C74|`intermediate_code` over abstract number objects (`NumArg`: bool, int, str results); reduction to the integer version, symbolic execution, injectivity of Base58Check
C75|a world of classes and objects with attribute changes (Model/World.lean); invariant over sequences of actions by induction; comparison of two runs step by step up to the lookup of the prefixes
C76|the functions over abstract objects (`ObjArg`: bool, hash, type and text), Model/Bip38Kind.lean; reduction to the text versions
C77|the model's default arguments are those of the signatures; C07, C12, C24, C49, C55, C59 instantiated
C78|calls as programs of reads of shared attributes (Model/Threads.lean), proved equal to the sequential model when run alone; a counting predicate for reads that may change, induction over schedules
C79|the methods once more in a monad that records every external call and lets it raise by an arbitrary schedule (Model/External.lean); a simulation predicate between a run and the outcome of the other model, closed under bind, proved statement by statement; exact run for the refused RIPEMD-160
C80|the same predicate carries the list of work items; malformed inputs by showing that the statements before the first call raise; the first two calls of a guess by running the model up to them and monotonicity of the log
C81|the text of the modules as Lean terms, one combinator per construct (written by tools/gen_src.py; that they are what the characters of the files mean is proved: a lexer, a parser and the rules of scopes in Lean, Verif/Py, run by the kernel on the text) and run by the semantics of Src/Sem.lean; symbolic execution statement by statement (tactic ev) shows the run equals the model's function (Src/EqUtils, EqCrypto); then C05, C06, C39 apply
C82|the same; the while and for loops by induction on the number and on the text (Src/EqBase58); non-termination by partial correctness of the least fixed point
C83|the same; invariants of the rounds and blocks (Src/EqRipemd160), then C38
C84|the same (Src/EqSecp), then C14, C15, C16, C41..C45
C85|the same (Src/EqWif, EqP2pkh), then C07, C09, C10, C12
C86|the same for the six methods (Src/EqBase .. EqDecrypt), using the equations of all functions they call; the twelve files (and `secp256k1/__init__.py`) together have one meaning, found file by file (Py/OnlyProgram)
C87|an explicit relation between arguments and parameters (Spec/Call.lean); the binding function of the semantics satisfies it or raises, by induction over the parameters; each function's signature by reduction
C88|C86 and the exception lists of C24, C26, C33, C40, C60
C89|C86 with C17, C29, C30, C31
C90|the exact conditions of C60, C68, C17 with the key derivation replaced by a constant; counting of functions Fin 64 -> byte with two restricted values (the second by a set that depends on the others)
C91|symbolic execution as for C86 up to the statement that uses the object (Src/EqKinds, EqAny); then C73, C74, C76 for the consequences
C92|a second meaning of the same terms in which each external call is an event that may raise (SrcX/Sem.lean, SrcX/Builtin.lean); for each construct a rule that carries the relation "follows the text without faults, within these bounds" from the parts to the whole (SrcX/Sim.lean); the rules applied to the text of every function (SrcX/SimText.lean, generated by tools/gen_sim.py); `while` by partial correctness of both least fixed points
C93|the bounds of the same relation, added up along the text
C94|the same relation also carries the calls that are allowed; a rule for calls whose arguments are constants of the text
C95|for each construct a rule that carries a lower bound of the answered calls, one for going on and one for returning, from the parts to the whole (SrcX/Low.lean); the rules applied to the text of every function (SrcX/LowText.lean, generated by tools/gen_sim.py); together with C93 exact numbers
C96|a model of CPython's import (Model/Import.lean) on the statements at module level of all files (Model/ImportText.lean, generated by tools/gen_import.py); an invariant of `sys.modules` (complete modules hold the objects the text says, taken from complete modules), kept by every statement, by induction over the nesting of imports with a rank that decreases along `from .. import`; histories by induction
C97|the class statements as terms (Src/Cryptocurrencies.lean, generated by tools/gen_classes.py), attribute look-up along the base classes (Src/Class.lean); the table by evaluation in the kernel, derived classes by induction over the chain of bases
C98|a third relation between the text with faults and without (Spec/Ends.lean), carried by the same kind of rules (SrcX/Stop.lean) from the parts of each function to the whole (SrcX/StopText.lean, generated); the nine `try` statements by lemmas on their handlers; that `Point.raw` is not reached from `bip38.py` by an invariant (the variables `private_key` and `public_key` hold no `Point`); the two hash findings by running the statements up to the `try`
C99|the sequence of steps as a list computed from public data (Spec/Steps.lean); a relation "follows this plan", carried through the `do` blocks of Model/External.lean (Lemmas/Steps.lean); pairs of calls by comparing their plans; on the text: for each construct the set of possible sequences from those of its parts, with initial parts for runs that raise (SrcX/Seq.lean, SrcX/SeqText.lean, generated), compared with the plans in the kernel; that `aes.encrypt` is the method of pyaes by an invariant of the variable; two runs that agree in public arguments: a relational logic over the constructs of the text (SrcX/Same.lean), public variables tracked statement by statement (SrcX/SameText.lean)
