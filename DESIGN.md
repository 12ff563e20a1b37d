# Design: a Lean 4 model of passwd-manager

Code under study: `/repo` (C++, read as text only, never built or run). Everything below is about a *model* of
that code; the only tie between model and code is the reading, so every model definition cites file and lines.

## 1. Layout

* `lean/Verif/Model/*.lean`  – model, function by function, computable, each definition cites `/repo` lines.
* `lean/Verif/Spec/*.lean`   – small specifications in which the properties are stated (no model helpers).
* `lean/Verif/Lemmas/*.lean` – helper lemmas.
* `lean/Verif/Props/*.lean`  – the property theorems (`Cxx_...`), each beside an `example` that meets its hypotheses.
* `MANIFEST.json` maps property ids to theorem names; `seeded/LOG.jsonl` logs mutation experiments.

## 2. Modelling decisions (apply everywhere)

* **Outcomes.** `Res α = ok a | exn e | fatal f`. `exn` is a C++ exception (by class: invalid_argument,
  length_error, runtime_error, logic_error, or a thrown pointer), `fatal` is an outcome the program cannot
  observe: `terminate` (exception leaving a `noexcept` function), `abort` (failed `assert`, the default build keeps
  asserts), `ub` (undefined behaviour: null dereference, out-of-bounds write) and `diverge` (non-terminating loop).
* **Bytes.** Two levels. In memory (`Model/Heap.lean`): blocks, objects with pointer, capacity, length and ownership,
  allocation that may fail, undefined behaviour for every access outside a live block. As values (`Model/Bytes.lean`):
  `(data, cap)`. `C02_refines_values` shows that the first implements the second for every operation used properly;
  the rest of the model uses values.
* **Hash.** SHA-256/384/512 (OpenSSL) are arbitrary functions from byte strings to byte strings of length 32/48/64,
  passed as a structure argument; only C90 and the validation use `sha2`, the functions of FIPS 180-4 as written out in
  Model/Sha2. No collision resistance is assumed anywhere: where it
  would be needed the theorem states "the same validator" instead of "the same password".
* **Random numbers, clocks, stream buffering, file system failures** are arguments (oracles) and universally
  quantified.
* **Integers.** `UInt8`/`UInt64` where wrap-around is observable, explicit `% 2^32` where the code truncates, `Nat`
  otherwise. Memory exhaustion (`bad_alloc`) is modelled in `Model/Heap.lean` only.
* **Log output** (`plog`) is modelled in `Model/Log.lean` only, for C93. Error *texts* (`what`) are not modelled; error codes are.

## 3. Trusted base

* The Lean 4.33.0 kernel. Axioms: at most `propext`, `Classical.choice`, `Quot.sound` (checked with
  `#print axioms`, see `lean/Verif/Audit.lean`). No own axioms, no `sorry`, no native evaluation.
* Faithfulness of the reading of the C++ text. Semantics of the C++ library used as assumed in comments next to the
  definitions: `readsome` returns at most what was asked and at most what remains, `peek` on a non-exhausted stream
  makes at least one byte available; `std::filesystem::path::extension`; `std::string::find`.
* Conversion of a number without enumerator to one of the enumerations of `base.h` keeps the number. These enumerations
  have no fixed underlying type, so C++17 leaves the conversion undefined outside their range; the parser
  (`dataheader.cpp` l.313, 325, 349, 358) relies on it for damaged files, and gcc and clang keep the number.
* The hash functions return 32/48/64 bytes; `RAND_bytes` either fills the buffer or reports failure.

## 4. Plan per property

* **C01** – `fromLong`/`toLong` over UInt64 and List UInt8; induction on base-256 digits. `getLongLen` is the length of the short encoding (`C01_length`).
* **C02** – Raw buffer model with UB on out-of-bounds write; invariant by induction over operation lists. `consumeBytes` breaks it (keeps the old capacity with a smaller buffer): negation with a witness history, `_partial` for histories without it.
* **C03** – List-level law on `Bytes.add`/`sub`.
* **C04** – Direct, for all start/end.
* **C05** – Explicit decoder and round trip.
* **C06** – Stream = remaining bytes + schedule of `readsome` sizes; loop with fuel; show fuel always suffices and the result is schedule independent.
* **C07** – Digit folding loop modelled on character lists; compare with decimal value spec.
* **C08** – Direct.
* **C09** – Model every loop with its timeout checks; spec = iterate of `x ↦ H(x ++ salt i)`.
* **C10** – Corollary of the recurrences.
* **C11** – Loops with an arbitrary clock oracle; induction on the iteration count.
* **C12** – Timed loops with fuel and arbitrary clock; invariant relating the running value to the untimed recurrence.
* **C13** – The switch has no `break`: proved to throw for every mode (negation); no partial positive claim is possible except that an error (not a wrong result) comes out.
* **C14** – `addStringToBytes` capacity condition is modelled; show it always holds (decimal text of a 64-bit number has at most 20 digits).
* **C15** – Byte-list model incl. the two bytes of `§`.
* **C16** – Model Format + ChainHashData; per-mode proof for all contents.
* **C17** – Invariant by induction over additions.
* **C18** – For all oracle bytes; then `performChainHash` succeeds.
* **C19** – ChainHash over a heap cell shared with the caller: one direction holds for all histories, the other fails when the data is completed after the description was built (negation + `_partial`).
* **C20** – Functional model of both chains; refinement to a stream-cipher spec `xor-like add`; round trip by induction over blocks.
* **C21** – Corollary of the refinement.
* **C22** – Corollary of the refinement: state after any sequence of additions depends on the concatenation only.
* **C23** – Via C06.
* **C24** – False: `std::min<int>` on sizes; negation for every single addition of at least 2^31 bytes; `_partial` below.
* **C25** – Prefix law on the spec function, transported by refinement.
* **C26** – Spec is the recurrence itself.
* **C27** – Direct.
* **C28** – False: counter never incremented; negation + what is true.
* **C29** – False: first block always terminates the process; negation for every input. The rest of the code is checked with the capacity of the seed as a parameter.
* **C30** – Stream parser modelled step by step; compositional parser/printer lemmas.
* **C31** – From the serialiser; the table of smallest and largest sizes in the documentation from the bounds of the invariant, with witnesses for each entry.
* **C32** – Invariant over operation histories of the header object.
* **C33** – Inversion of the parser.
* **C34** – False: witnesses for each crash class; `_partial`: exact class of inputs that crash.
* **C35** – False: memory parser does not advance over free-length parts; negation + `_partial` for other modes.
* **C36** – False above 2^32; `_partial` below.
* **C37** – False unless 255 bytes long; negation + `_partial`.
* **C38** – False; negation + exact condition.
* **C39** – Histories of setters.
* **C40** – Direct from the model of `calcHeaderBytes`.
* **C41** – API state machine with file system; case analysis over all states and calls.
* **C42** – Invariant with history (ghost) over all call sequences.
* **C43** – Direct + creation lemma.
* **C44** – Composition of C20, C30, C43.
* **C45** – Field-wise reset, then history equivalence.
* **C46** – Frame theorem over histories.
* **C47** – Direct, from the model of the write path.
* **C48** – Write modelled as truncate + byte-wise extension with crash points; negation; `_partial`: other files unaffected and complete writes are fine.
* **C49** – Oracle for short writes; negation; `_partial` for non-failing disks.
* **C50** – False: results are pushed into a temporary copy; negation + what is true. A listing that answers, and a listing that fails, leaves sessions and disk as they are, wherever it stands in a history (C50_no_effect, C50_no_effect_many).
* **C51** – False: unsigned wrap of the remaining time; negation + `_partial`.
* **C52** – Direct for all clocks.
* **C53** – False: converting constructor throws inside `noexcept`; negation for all settings. The code behind it (api.cpp l.142-222) is modelled in `Model/HeaderTime` with the timed chain hashing as a parameter: with the one of the code it terminates too, with one that works as meant it makes the header of the same settings with the iterations done in the time, up to 10⁹ of them.
* **C54** – False (C53, C34, null arguments); `_partial` for the remaining calls on well-formed files.
* **C55** – Composition like C44.
* **C56** – First part composition; enc blocks: negation.
* **C57** – Histories; after decryption false (negation).
* **C58** – Histories on ErrorStruct; `returnMove` lacks the moved check (negation + `_partial`).
* **C59** – Histories on Timer with clock oracle; total time false due to integer average (negation + `_partial`).
* **C60** – Range holds; upper bound never reached when bounds differ (negation).
* **C61** – Rejection loop with oracle and fuel.
* **C62** – Model of `FileHandler::update`.
* **C63** – Model of path extension and checks.
* **C64** – RNG oracle with failure; every path ends in `terminate`/error, never in a header.
* **C65** – File is not part of the build; modelled as text. Negation for every list with an entry, exact description of loading, `_partial` for the empty list.
* **C66** – File is not part of the build; modelled as text, with the iteration order of the map and the unstable sort as arguments; refinement of the map to the list of entries added.
* **C67** – Memory-level model of the container: ownership invariant by induction over operation lists; negation by assignment to a moved-from object.
* **C68** – Read path with 32-bit read sizes; exact result below 2^32 bytes, negation above; stale empty files: negation.
* **C69** – Descriptions and data objects as a store with references; the run time is an option (uninitialised); invariants by induction over programs.
* **C70** – Messages as byte strings; injectivity from distinct fixed beginnings; negations by explicit coincidences.
* **C71** – Modes as 32-bit numbers, each switch modelled on its own; complete case distinction.
* **C72** – Negation over all histories: save, reopen, save again, compare the two files byte by byte.
* **C73** – Negation for all files and all changes of the data section, and for every older version put back (`C73_violated_rollback`, after every history that leaves a session with decrypted data); a changed length is noticed.
* **C74** – Chart written down from the comments in api.h, independent of the model; induction over histories.
* **C75** – The parser result for every content, combined with path validation.
* **C76** – Refinement: an ideal vault (Spec/Vault: slots with locked boxes, phases, one rule per answer) and a simulation relation between it and session plus disk (Lemmas/Vault); every call of the model is matched by a step of the ideal vault. Durability is then proved on the ideal vault alone. Listings: a history with them is followed as the history without them (Spec/Listless, C76_listings; likewise C80_listings, C81_listings).
* **C77** – File is not part of the build; modelled as text with the console as a byte list and fuel for the loops. Questions are specified on the list of lines (first acceptable line); `stoi` against a grammar of numbers. Negations: trailing text, endless password question.
* **C78** – Console as in C77, file system as in C63. Negations: emptied file, unusable name, endless question.
* **C79** – Model/Many: several API objects on one disk. Frame lemma: a call on a disk that is one disk on the session's paths and another elsewhere (Lemmas/Isolation, `call_over`); runs by induction; `C79_ideal` and `C79_durable` carry C76 over to disks shared with others.
* **C80** – Spec/Faults: the ideal vault of C76 plus the paths under which something foreign lies, with one rule for each kind of fault; changes by other programs may put anything under a path. The simulation of C76 is generalised over the set of foreign paths (Lemmas/Vault) and extended by the failing branches of every call that opens a file (Lemmas/Faults). `C80_faultless`: without a reason for a fault the rules are those of C76. Backups: a file is determined by its bytes (`filed_unique`).
* **C81** – Spec/Sharing: one ideal vault with faults and one phase for each session. The simulation of C80 holds for every session at once (Lemmas/Sharing, `StandsAll`): a call of one session moves its own phase and keeps the links of the others, as it leaves alone what they are reading (`share_call`); runs by induction (`share_run`).
* **C82** – Lost update: the runs are followed through the shared ideal vault of C81, so that it is proved for all data and after all histories; turns by induction on the list of turns. Old headers: concrete run.
* **C83** – Model/Overlap breaks every call up into single accesses to the disk (`Prog`), by the same lines of code as Model/Api. Spec/Overlap says which paths a call looks at and may change, when two calls clash, and what the calls one after the other are. Proof: a call alone equals the call of Model/Api; an access stays within the paths; invariant: a second run, in which each call is over as soon as it starts, is where the first will be when the calls going on are over. Races: concrete runs, compared with all orders of the calls.
* **C84** – `ChainHashData.eq` in Model/ChainHash. Histories of attempted additions as in C17. Proof: a complete block of a mode has only one division into parts (all parts but the last have fixed length). The mode is not compared: negation with witness.
* **C85** – Model/DecResult: the struct and its public accesses. Spec/DecResult: a shelf with one place for the content and one for the header. Simulation by induction over the list of accesses; two witnesses where the struct departs from the shelf.
* **C86** – Model/Names: the disk has places, a function says which place a name means, and it may change; calls are the sequences of accesses of Model/Overlap, going to places. Spec/Names: the history for somebody who takes every name for a file of its own. Proof: each call changes at most one path and then looks at no other, so it behaves as on the disk seen through the names; histories by induction, with the effects on other names of a changed place as changes by other programs. Hence all theorems on histories with changes by other programs apply.
* **C87** – Model/Main: the two branches of main as sequences of calls of Model/Api, with the exceptions that end the program. Proof: the single calls by the simulation lemmas of C76 and C80 with only one file that counts; that nothing else changes, from the frame of each call, without assumptions.
* **C88** – Model/DataHeader (EncDataBlock). Spec/Leak: two ways to read blocks from the file and the public hash function alone. Proof: the loops of the constructor by induction give contents plus key stream (as for C37); the rest is arithmetic of bytes.
* **C89** – Spec/Collision: the inputs of the hash function in a check, from the description of the chain hash alone. Proof: induction over the rounds for the first place where two chains with the same result meet (the inputs of one round have the same salt, so they differ exactly if the intermediate results do); the header of the session is the one in the file by the history (C17).
* **C90** – Model/Sha2: the functions of FIPS 180-4 (padding, message schedule, rounds, digest), since the sources call OpenSSL for them. Spec/Sha2: the steps of a computation as (state, block) pairs and a collision as two different pairs with the same words in the result. Proof: Merkle-Damgård from the last block backwards; the padding with the length makes the last blocks of inputs of different length differ, and the blocks give back the input. With C89 every collision of the hash function in the two checks becomes one of the compression function.
* **C91** – Model/Attacker: the search loop (64-bit counters), one try, the harness; the endless loop over lengths as far as it gets up to a length. Spec/Attacker: the order of guessing and the passwords guessed by counting in 64 bits, as positions in base 90. Proof: combination number i is the password with that number (base-90 digits), induction over combinations and over lengths for the first one that opens the file; a try is the check of Spec (as in C43).
* **C92** – Model/HeaderGen: the generator statement by statement; requests to the random source are numbered, the loop looking for a chain hash mode has fuel. Proof: a rule of the kind 'returns under T, and the result has P' for sequences of statements, used for each part; the bytes determine a header (bytes_injective), which gives the exact statements about the parsers; the table of lengths and modes by evaluation of all 256 * 4 cases.
* **C93** – Model/Log: the functions that handle passwords, keys or data, with their log statements; lines of the file handler and the parser are arbitrary functions of the disk and the path. Spec/Log: `blur` removes the secrets from a session, a call and an answer; `trace` is what others see; `guess` tests a password with the lines of the log. Proof: a relation between two runs that differ in secrets (same lines as long as what others see is the same), carried through every function, then induction over histories; that logging changes nothing by erasing the lines; what the lines tell during the creation of a header by following the statements. Model/MainLog: the line of the demonstration program about the decrypted data; proof along the run of C87.
* **C94** – Spec/Flaw: an inductive list of the flaws, each with its error, in terms of the bytes alone (`HeaderStart` as in C34). Proof: each flaw by evaluating the parser up to it (Lemmas/HeaderFlaw, `rdHeader_flaw`); conversely every byte string is split from the left into the parts of the format until a flaw, a deadly damage or the end of the header is met (`flaw_or`); uniqueness from the parser being a function. Streams by the simulation of C33.
* **C95** – Spec/Secrecy: the inputs hashed for the key stream (`keyInputs`) and those hashed on the way (`pathInputs`), in terms of Spec/Cipher alone. Proof: changing the hash function at the key inputs leaves the key inputs as they are if none lies on the way (induction over blocks, `keyPair_agree`), so the ciphertext is data plus chosen pad (`pad_encryption`); the pad is then chosen to fit. Files through `Api.open_holds` and `check_congr` of C89; several versions by induction over the versions. The negation from C26 and `enc_diff`.
* **C96** – Spec/Cost: `Asker`, a decision tree whose questions are inputs of the hash function. Proof by an adversary argument (Lemmas/Cost): the check is itself such a tree in which every question has an answer that makes the next question a new one (`Free`, by counting: fewer than 2^64 inputs are known and the inputs depend injectively on the hash before); so if one of its inputs was not asked, the hash function can be changed outside the questions asked such that the check comes out the other way (`unknown_input`), while the program answers as before.
* **C97** – Stated with Spec/Cipher: the content and the data of the file are related by `IsEncryption` with the decrypted salt. The negation by evaluating the first byte for a concrete password hash and salt in the kernel; what holds instead from `Api.open_holds` and `cryptOut_dec`.
* **C98** – Model/Handler: the object over its life, with the members it keeps when `update` throws. Proof: `update` in terms of the constructor; induction over the uses of an object, and over the calls of a session (`call_sizes`); the negations for all objects and files by unfolding.
* **C99** – Model/HeaderParse (memory parser). Proof: each step of the parser delivers values, stops with errors of a fixed set, throws only standard exceptions and is fatal only by a failed assertion (`Tame`, closed under the connectives; invariant: valid chain hashes have data); the first steps are computed exactly.
* **C100** – Spec/Random: which calls are meant to draw random bytes, and histories that differ in nothing else. Proof: the parsers with two working sources run in step, the headers differing in the salt drawn at the start, which every step carries along and the stored salt replaces (Lemmas/Randomless, `bind_salted`); calls by cases, histories by induction. Answers of header creation from `create_spec`. Failing sources by evaluating the parser up to the constructor (Lemmas/RandomDead).
* **C101** – Spec/Pace: histories that differ in deliveries and clocks only. Proof (Lemmas/Pace): streams with the same bytes left are read alike (`readData_same`), hence headers, data and listings; a chain hash run with any two clocks and limits gives the same result or one of the two gives up (`SameInTime`, induction over the rounds, closed under the connectives); calls by cases, histories by induction.
* **C102** – Spec/SamePassword: chain hashes with the same salt in every round, headers made with the same choices. Proof (Props/SamePassword): from the last round to the first, equal hashes come from equal inputs or show a collision, and equal inputs of equal length split into equal hashes and equal salts (`chain_pair`). The salts of the modes 2, 3 and 4 determine the data block (`salts_block`, by the injectivity of decimal and big-endian numbers). Violated for mode 1, which has no salts, through two arbitrary successful calls; and for mode 5 by shifting the start of the polynomial by one and adapting its coefficients modulo 2^64 (`quad_shift`).
* **C103** – Model/Links: names, links and numbered files; Spec/Links: when two paths lead to the same file, disks without links. Proof (Lemmas/Links): storing something under a path shows under exactly the paths that lead to the same file and keeps which paths do (`view_store`, `same_store`, by induction over the number of links followed); every access of a call but removing leaves files behind only where it could reach one (`Follows`, closed under the connectives); hence a call goes to the files as it goes to the paths of a disk that looks like them (`Within.linked`, induction over the accesses). Deleting by cases. On disks without links the whole run refines that of Model/Many (`plain_call`, induction over the history). Counterexamples by running the model.
* **C104** – Model/Told: every call again with the text (`errorInfo`) its answer carries; without the texts it is Model/Api (`C104_same`, so that everything shown there holds here). Spec/Told: paths, names of methods, states and header fields as they should be said. Proof (Lemmas/ToldTexts, Lemmas/ToldCalls): every step of the parser stops with a code and a text that belong together (`Stops`, closed under the connectives); every call answers one of the allowed pairs (`call_text`, by cases); refusals by cases over states and calls. Spec/Report describes a header as a sequence of named fields and finds the first one that is missing or wrong; Lemmas/Report shows by an invariant over the parser (`Keeps`: what is still to be said about the rest of the stream is what is to be said about the file) that the parser says exactly that.
* **C105** – Model/AppHeader: the end of `App::askForHeader` with the lines it prints (a small writer monad in which output survives exceptions), on top of the present header and chain-hash classes; the file is read as text like the rest of `app.cpp`. Violated: the last line but one is the hash of the password in hexadecimal, so that an onlooker has the key (`C105_violated`) and can decrypt whatever is encrypted with it, for every salt (`C105_violated_open`: one function of hash function, screen, salt and ciphertext that returns every plaintext); with the present classes no answers lead to a header, since nothing states the size of the file (`C105_violated_header`, for all answers). Proved: apart from the last two lines the screen does not depend on password, randomness or time (`C105_rest_partial`); refused answers show nothing (`C105_refused_partial`).
* **C106** – Model/AppRun: constructor and `App::run` around the questions of C77, the start of C78 and the set-up of C105; calls that no longer exist are arguments. Proof: `getFirstBytes` answers by C68, the set-up never ends with a header by C105, what the start does to the disk by cases.
* **C107** – Model/BlockChain; Spec/Garble: what is hashed from block to block, when hashes or sums of hashes meet, and what it means that a block is garbled. Proof (Props/Garble): if the pair `(h_i, s_i)` differs, so does the next one, unless the inputs of one of the two hashes collide or `s_i + d_i` is the same for different pairs (`apart_step`, as the sums are invertible in each argument); by induction the pairs differ for ever (`apart_from`), so the keys do (`keys_differ`), which shows in every whole block (`garbled_of_keys`). Changed blocks of the encrypted data come from changed blocks of the data (C25). `C107_sums` shows that equal sums cannot be left out: addition of hashes is weaker than hashing them together, since finding equal sums of two hashes is not finding a collision.
* **C108** – Model/Bench: the measuring thread and the benchmark as two programs over atomic variables; a schedule says who makes the next step. Spec/Bench: fair schedules, the measurements made, largest, smallest, average. Violated: a request to end made before the thread clears the flag is lost (`Lost` is kept by every step), for all schedules. Proof of what holds: phases, each left by a step of one of the two (`eventually`, with fairness); the numbers by induction over the measurements.
* **C109** – Model/BenchUtils: `fgets`, the loop over the lines, `parseLine`; Spec/BenchUtils: the lines of such a file. Proof: `fgets` takes exactly a line that is short enough (`fgets_line`), other lines are passed over (`physLoop_pass`, by induction), the digits of the line looked for survive the cut three bytes before its end.

## 5. What is modelled and what is not

| file in /repo | model | not modelled |
|---|---|---|
| src/bytes.cpp, include/bytes.h | Model/Bytes (values), Model/Heap (memory) | `toHex` only as values |
| src/utility.cpp | Model/Util | – |
| src/hash_modes.cpp, sha256/384/512.cpp, include/hash.h | Model/Hash, Model/Modes: sizes, names and selection; the functions are parameters. Model/Sha2: SHA-2 after FIPS 180-4 | that OpenSSL computes SHA-2 |
| src/pwfunc.cpp, include/pwfunc.h | Model/PwFunc, all routines with and without time limit | – |
| src/chainhash_modes.cpp, chainhash_data.cpp, format.cpp and headers | Model/ChainHash, Model/Shared and Model/SharedTimed (data shared between a caller and a description), Model/Modes (numbers, names, formats) | – |
| src/block*.cpp, blockchain*.cpp and headers | Model/BlockChain, Model/BlockChainStream | – |
| src/dataheader.cpp, include/dataheader.h | Model/DataHeader, Model/HeaderParse (stream and memory parser, step by step) | – |
| include/settings.h, base.h, api.h (settings) | Model/Settings | – |
| src/filehandler.cpp | Model/FileSys: paths, nodes, permissions, directory sizes, delivery of `readsome`, short writes; Model/Handler: objects over their life | concurrent changes during one call (see Model/Overlap) |
| src/api.cpp, include/api.h | Model/Api: all states and public calls; Model/Crash: the same save with the points at which power may fail; Model/DecResult: the unused result struct; Model/HeaderTime: the part of header creation by run time that is never reached | destruction of states through a base class without virtual destructor (undefined by the letter) |
| src/timer.cpp | Model/Timer | – |
| src/rng.cpp | Model/Rng, Model/Heap | quality of randomness |
| include/error.h | Model/Error, Model/ErrorMessage; Model/Told: the texts the answers of all calls carry | texts of exceptions (`what`) |
| include/file_data.h | Model/Api | – |
| src/file_modes.cpp | Model/DataHeader, Model/Modes | – |
| src/password_data.cpp | Model/PasswordData, read as text (not in the build, does not compile against the present `Bytes`) | – |
| several API objects (include/api.h has no static data members) | Model/Many: calls to any number of objects in any order, with changes by other programs in between; Model/Overlap: calls that overlap in time, as sequences of accesses to the disk; Model/Names: several names for one file, names that change their meaning; Model/Links: symbolic links to files, and files with several names, where removing differs | reads and writes of one open file that are split by others; memory shared between threads (there is none); several names in overlapping calls |
| src/app.cpp | Model/App, read as text (not in the build; uses members of `ChainHash` and `FileHandler` that no longer exist): questions, start; Model/AppHeader: summary, password hash, header and what is printed (C105); Model/AppRun: `run` and the constructor (C106) | texts of the questions; remembering the path (C77_answers_usable connects the answers with C15) |
| src/main.cpp | Model/Main, read as text (does not compile: calls the API no longer has are read as those of today, `getEncryptedData` as `encryptData`, and the password check and the header answer with a truth value); Model/MainLog: the line about the decrypted data | the other log lines, the log file, the time measured |
| log statements (include/logger.h, `operator<<`) | Model/Log: those of the functions that see passwords, keys or data, and of the calls | lines written right before setters and getters throw; wording of the lines of the file handler and the parsers; what `plog` adds to a line |
| benchmarks/bench_utils.h, `MemoryThread` of the benchmarks | Model/BenchUtils, Model/Bench | `getMemoryUsage` (not used); the benchmarks themselves, their files |
| tests/Attacker | Model/Attacker, read as text (switched off in the build; reads header fields that are private today) | printed texts |
| tests/dataheader_generator.h | Model/HeaderGen | – |

Where the outside is non-deterministic (stream deliveries, clocks, random bytes, permissions, free disk space, iteration
order of hash maps, `std::sort`) the model takes it as an argument and theorems quantify over it.

### Validation of the model

`lean/Verif/Validation` carries the project's own unit tests (/repo/tests) over to the model, with the SHA-2 of Model/Sha2 in
place of OpenSSL: hash vectors, chain hashes, password rules, timer, formats, `Bytes`, chain hash data, blocks, the header object
and the file handler. All of them pass in the model. These are tests of the model on single cases, not proofs, and no claim of
the manifest rests on them. Not carried over: tests of pointers, of C++ types (`typeid`) and of the statistics of the random
numbers; loops over random cases are one case each.

## 6. Disagreements found

The code does not have these properties; each line names the theorem with the witness (or the theorem proving it for all
inputs) and what is true instead is proved in the `_partial` theorems of the same property.

* **C02/C67** `consumeBytes` keeps the old capacity with a smaller buffer; sizes wrap at 2^64 in `addSize` and the
  extending copy; assigning to a moved-from container frees the buffer of its new owner; an assignment that runs out of
  memory leaves a freed buffer behind; `addrandom` of a negative count with 4 GiB stored writes behind the buffer
  (`C02_violated`, `C02_assign_not_atomic`, `C02_addrandom_overflow`, `C67_violated`). By reading (not proved), none of these is reached from the
  rest of the program: `consumeBytes` is not used outside of tests, and moved-from containers are not reused.
* **C13** The switch over the modes in the timed chain hash has no `break`: every mode ends in the `default` error
  (`C13_timed_never_succeeds`). **C53** builds on it and in addition always dies in a `noexcept` function
  (`C53_terminates`). Repairing the construction of the result alone does not help: the timed chain hashing throws next, inside the
  same `noexcept` function (`C53_second_flaw`). With both repaired a header is made (`C53_repaired_partial`), unless more than 10⁹
  iterations fit into the time; then storing the result throws and the process dies as well (`C53_third_flaw`).
* **C14** A constant salt of 4 GiB terminates the process (`C14_giant_salt_terminates`).
* **C19** A description whose data is completed after it was handed over stays invalid (`C19_late_completion_unnoticed`).
* **C22** Asking an untouched chain for its result is undefined (`C22_no_piece_undefined`).
* **C24** `std::min<int>` over sizes: a single addition of 2^31 bytes or more never succeeds (`C24_big_never_succeeds`).
* **C28** The height of a chain is never counted (`C28_height_always_zero`).
* **C29** The streaming chain terminates the process on first use (`C29_streaming_terminates`), as the seed of the first salt has
  no room; if it had, data that do not fill whole blocks would still end the process (`C29_violated_ragged`).
* **C34** Crafted headers kill the parser: `C34_killed_iff_partial` is the exact set, `C34_violated` a member.
  The documentation allows data blocks of 0 bytes; they can be written, and then kill the parser.
* **C35** The memory parser does not advance over parts of free length (`C35_violated`, exact condition in
  `C35_agree_iff_partial`).
* **C36** Header and data size are added in 32 bits (`C36_wraps`).
* **C37** Encrypted data blocks of fewer than 255 bytes are refused (`C37_violated`). Also the documentation says that
  the stored salt is XORed with the password hash; the code stores and uses it directly. **C38** The type of an
  encrypted data block comes back shifted (`C38_violated`).
* **C41** Incomplete settings are reported before the wrong state (`C41_settings_checked_first`).
* **C43** Without a time limit the code still subtracts clock readings; the theorem assumes they stay below 2^64 ms.
* **C48** The file is emptied before it is written: an interrupted save loses old and new content
  (`C48_violated_empty`, `C48_violated_torn`).
* **C49** The result of writing is never checked: a full disk is reported as success (`C49_violated`).
* **C50** Listing relevant files collects into a copy and always returns nothing (`C50_always_empty`); listing a plain
  file or an unreadable directory terminates the process. A regular file in the place of the default directory is taken for
  it, and listing it then ends the process (`C50_violated_default`).
* **C51** If the first chain hash ends after the limit, the remaining time wraps to almost 2^64 ms
  (`C51_overrun_ignored`).
* **C54** What kills a session: crafted files, paths whose status cannot be determined, null arguments, a failing random
  source, refused removal, run-time based headers, data blocks without content (`C54_violated`, `C54_*_dies`).
* **C56** Encrypted data blocks cannot be decrypted after the salt was changed (`C56_violated_blocks`); also they cannot
  be made for the salt a new header gets, as it is chosen after them.
* **C57** After decrypting, `getFileData` always says nothing is there (`C57_nothing_after_decrypting`).
* **C58** `returnMove` does not check whether the value was moved out before (`C58_violated`).
* **C59** The total time is average times laps and loses up to 2 ms per lap (`C59_violated`).
* **C60** The upper bound never occurs (`C60_violated`).
* **C63** A path whose status cannot be determined terminates the process (`C63_unreachable`). A directory whose size is
  reported as 0 passes for an empty file (`C62_directory`).
* **C65** Saving a password list is undefined or throws, and loading anything but an empty file is undefined or fails
  (`C65_never`, `C65_load_exactly`). Removing and editing entries are empty functions.
* **C68** Of files of 2^32 bytes or more only the first (size mod 2^32) bytes are returned (`C68_violated_big`); a file
  that was empty when selected is reported as empty whatever it contains by now (`C68_violated_stale`).
* **C69** The default constructor of `ChainHashTimed` leaves the run time uninitialised, and the validity check and
  copies read it (`C69_violated_uninitialised`); data completed late goes unnoticed (`C69_violated_late`).
* **C70** With additional information messages of different errors coincide (`C70_violated_ambiguous`,
  `C70_violated_echo`); fifteen codes never show it (`C70_violated_hidden`).
* **C72** Saving again without changing the salt encrypts with the same key stream (`C72_violated_key_stream`): two versions
  of a file give away the difference of the data, in the first block always.
* **C73** Nothing authenticates the data: a changed data section, salt or data block is not noticed
  (`C73_violated_data`, `C73_violated_header`), nor is an older version of the file put back in its place (`C73_violated_rollback`).
* **C75** `FileHandler` never asks whether a path is a regular file: a directory `x.enc` is selected as an empty file where the
  system reports the size 0 for it (`C75_violated_directory`). `isValidPath` is `noexcept` and calls the throwing
  `std::filesystem::exists`: a path whose status cannot be determined ends the process (filehandler.cpp l.33;
  `C75_violated_unreachable`).
* **C77** The mode questions take any line that begins with a number (`C77_violated_text`); if the input ends without an
  acceptable password the question is repeated for ever (`C77_violated_endless`).
* **C78** A file that may be written but not read is taken for missing and emptied (`C78_violated_emptied`); the name ".enc"
  is taken, but refused later (`C78_violated_name`); without input the question is repeated for ever
  (`C78_violated_endless`).
* **C82** Nothing tells a session that the file has changed since it was opened. Of two sessions that have it open the one that
  saves later undoes the other without a word (`C82_violated_lost_update`). A session that has selected the file keeps
  its old header: it accepts the old password and shows data nobody saved (`C82_violated_stale`).
* **C83** Nothing keeps calls apart that run at the same time; the code first looks and then acts. Two sessions that create the same
  file are both told that they created it (`C83_violated_create`); two that save to the same file both report success and leave
  a mixture of both that nobody can open (`C83_violated_save`); who selects a file while it is being saved finds it empty, and may
  give it a new header (`C83_violated_read`); a file deleted while it is being saved is there again afterwards
  (`C83_violated_delete`), or a save that reports success leaves nothing (`C83_violated_lost`).
* **C84** Chain-hash data of different modes compare equal if the bytes are the same (`C84_violated_modes`); incomplete data do not
  equal themselves (`C84_violated_self`).
* **C85** Content set in a decoding result after the first was taken cannot be fetched (`C85_violated_refill`); a missing header
  throws another exception than all other refusals (`C85_violated_header`).
* **C86** The code keeps the path as it was given (by default relative, `data/enc`) and looks it up anew at each call. After a change
  of the current directory a session deletes or overwrites a file of the same name in another directory
  (`C86_violated_delete`, `C86_violated_save`). Nothing tells two names of one file apart from two files (`C86_violated_alias`).
  The ending is checked on the whole path, but the system gets it only up to the first zero byte: `notes.txt\0.enc` passes the check
  and creates `notes.txt` (`C86_violated_ending`, `C86_violated_zero_byte`).
* **C87** The demonstration program logs "Wrote to file successfully" on a full disk, with nothing left of the file
  (`C87_violated_full`). It does not compile against the present classes.
* **C88** All encrypted data blocks of a header are encrypted with the same key stream (`C88_violated_difference`,
  `C88_violated_known`). The key of this stream is the hash of the password hash; if the second chain hash is the plain one with one
  iteration, the header contains the key as its validator (`C88_violated_validator`).
* Converting bytes of a file to the enumerations of `base.h` before checking them is undefined in C++17 for numbers outside
  their range (see the trusted base); for the type of an encrypted data block it happens after decryption too.
* Further observations without a property of their own: docs/doc.md says that the salt in the file is encrypted with the password hash; the
  code stores and uses the salt as it was drawn (`C72_fresh_salt_partial`, `C26`); `logout(file_mode)` ignores its argument (`C45_mode_ignored`);
  a file without data decrypts even when it vanished after selection; `App::run` discards
  the header it asked for.
* **C91** The attacker meant to measure the strength of passwords leaves out nearly all passwords of eleven and more characters
  (`C91_violated_long`, `C91_violated_never`), returns the validator instead of the hash of the password, so that its success is
  not recognised (`C91_violated_result`), and reads an uninitialised result (`C91_violated_memory`).
* **C92** The generator of test headers never makes a quadratic chain hash, SHA-512 only on request, never 255 blocks or a block of
  255 bytes unasked (`C92_violated_kinds`; the same cause as C60), and can make a number of iterations of zero
  (`C92_violated_iterations`).
* **C93** Creating a header logs the hash mode, both chain hashes with salts and the validator (dataheader.cpp l.11, l.43, l.55,
  l.74): with the log alone passwords can be tested (`C93_violated_guess`), also when nothing is saved and even when the creation
  fails because of too many data blocks (`C93_violated_refused`). The check of a new password logs the first character that is
  not allowed, which is a character of the typed password (`C93_violated_char`). The demonstration program
  logs the whole decrypted data in hexadecimal (main.cpp l.271; `C93_violated_demo`). Outside the model: it is also written to
  log the password hash, which is the key (l.128, l.251); the present `verifyPassword` no longer hands it out.
* **C94** A chain hash of mode 4 (constant salt and count) whose length byte is below 8 makes the parser ask for a negative number
  of bytes, which it reports as `ERR_NOT_ENOUGH_DATA` although nothing is missing (dataheader.cpp l.829, l.969;
  `C94_violated_short`). A file cut off right behind the salt is reported as `ERR_FILESIZE_INVALID` with the right file size as the reason
  (l.1082-1084; `C94_violated_size`). The damaged headers of C34 end the process.
* **C95** Saving a file again keeps its salt unless `changeSalt` is called (C72), so the first block of every version is encrypted with
  the same bytes: whoever has two versions of a file knows how their first blocks differ (blockchain.cpp, api.cpp `getFileContent`;
  `C95_violated_versions`).
* **C96** docs/doc.md: "Security depends highly on the iteration number". Only the number of the first chain hash counts against
  somebody who knows the beginning of the content: the data is encrypted with the result of the first chain hash, so a password is ruled
  out by decrypting the first block, without a single round of the second (blockchain.h l.69-95, api.cpp l.550-570;
  `C96_violated_known`, `C96_violated_file`).
* **C97** docs/doc.md, docs/dataheader.md and README.md say that the salt is stored encrypted and has to be decrypted with the
  password hash (by subtraction in the first, by XOR in the second). The program hands the stored salt to the block chain as it is
  (api.cpp l.557; `C97_violated`). The README also describes the sum of data, password hash and salt, where the program adds one hash of
  both (C26).
* **C98** `update` assigns the file size before it can throw and the header size after it; afterwards `getDataSize` may be almost
  2^64 (`C98_violated_sizes`). `getWriteStream` resets the sizes but not the emptiness, so "write if empty" destroys what the same
  object wrote before (`C98_violated_twice`), and refuses a file the object emptied (`C98_violated_flag`). An `update` of a file that
  cannot be read reports an empty file (`C98_violated_unreadable`). The program makes a new object for each path it is given and
  never calls `update` again (the tests expect the stale emptiness after a write, filehandler_unittest.cpp l.41), so none of these is reached in a session (`C98_session` for the sizes, C47 for writing).
* **C99** The parser for headers in memory catches the exceptions that end the process in the file parser (an empty data block is
  `ERR` here, `C99_zero_block`), but its assertions are the same: a wrong header size field ends the process (`C99_violated`).
* **C100** The constructor of a header draws a random salt, also where a header is read from a file and the salt is replaced by the
  stored one. `fillrandom` is declared noexcept (bytes.cpp l.122), so without a random source selecting a good file, or listing
  the directory it lies in, ends the process (dataheader.cpp l.10-20; `C100_select_dies`, `C100_violated`).
* **C102** A chain hash of mode 1 has no salt, and nothing else that is random enters the validator; the salt of the file does not
  take part in it. If both chain hashes are of mode 1, files with the same password, hash function and numbers of iterations show this
  by equal validators, and one table of passwords serves for all of them (api.cpp `_createDataHeaderIters`, pwfunc.cpp;
  `C102_violated_normal`). With mode 5 different random data may give the same salts (`C102_violated_quad`).
* **C103** `_deleteFile` calls `std::filesystem::remove`, which removes a name. If the selected path is a symbolic link, the link goes
  and the file stays; if the file has another hard link, its content stays. The session answers that the file is deleted (api.cpp
  l.249-258; `C103_violated_delete`, `C103_violated_delete_link`). The check of the ending looks at the path that was given, the
  system opens what the link leads to: files of any ending may be created and overwritten (filehandler.cpp l.58-81, l.197-215;
  `C103_violated_extension`, `C103_violated_save`).
* **C104** A file that cannot be taken for its size fields is reported with an empty text (api.cpp l.25;
  `C104_violated_which`). The refusals of `createFile`, `deleteFile` and `unselectFile` say `createEncFile`, `deleteEncFile` and
  `selectFile`, that of `createDataHeader` names a state `DECRYPT` (`C104_violated_state`). Modes are appended to the text as
  characters, not as numbers (dataheader.cpp; `C104_violated_mode`). An invalid number of iterations is not given
  (`C104_violated_iters`). A file that ends behind the salt has right sizes and misses the number of its encrypted blocks; it is
  reported as having a wrong file size, with one raw byte as text (`C104_violated_end`).
* **C105** The set-up dialogue prints the password hash and the validator (app.cpp l.306-307, marked DEBUGONLY;
  `C105_violated`). The hash is the key: screen and file together give the content (`C105_violated_open`). The object from which
  the header is made is never told the size of the file, so `calcHeaderBytes` of today refuses in every case
  (l.310-316; `C105_violated_header`).
* **C106** `App::run` keeps the header of a new file in a local variable and never writes it (app.cpp l.88-98), and the set-up
  ends with an exception anyway (C105): an empty file stays empty in every run (`C106_violated`), and a first run only creates
  an empty file (`C106_violated_first`).
* **C108** The measuring thread of the benchmarks clears the flag that ends it after it has started (chainhash_bench.cpp l.30): if the
  benchmark sets it before that, it is never seen and the benchmark hangs in `join` (`C108_violated`). Clearing it before the thread is
  started would help. Zero stands for "no measurement yet", so it is never the smallest (`C108_violated_zero`).
* **C109** `parseLine` looks for a digit beyond the end of the line and `getPhysicalMem` does not test whether the file was opened
  (`C109_violated`).
