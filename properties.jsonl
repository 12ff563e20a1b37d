{"id": "C01", "title": "64-bit integers survive the byte encoding", "statement": "Encoding any unsigned 64-bit integer with leading zeros gives exactly 8 bytes, most significant first, and decoding those bytes (or the encoding without leading zeros) gives the same integer back. Decoding more than 8 bytes is refused with a length error.", "quantifier": "every 64-bit value and every byte string", "why_tests_cant": "2^64 values; a test can only sample them", "anchors": ["src/bytes.cpp:Bytes::fromLong", "src/bytes.cpp:Bytes::toLong"]}
{"id": "C02", "title": "A byte container never writes outside its buffer", "statement": "Whatever sequence of public operations is applied to a byte container, its length never exceeds its stated capacity and no operation writes outside the memory it owns; an operation that does not fit fails and leaves the contents unchanged.", "quantifier": "every finite history of public container operations with arbitrary arguments", "why_tests_cant": "memory safety over all histories; a missed overflow need not crash a test", "anchors": ["src/bytes.cpp:Bytes", "include/bytes.h"]}
{"id": "C03", "title": "Byte-wise addition and subtraction undo each other", "statement": "For two byte strings of equal length, adding then subtracting (or subtracting then adding) the second one gives back the first one, and the result has the same length; for different lengths the operation is refused.", "quantifier": "every pair of byte strings", "why_tests_cant": "unbounded input space", "anchors": ["src/bytes.cpp:Bytes::operator+", "src/bytes.cpp:Bytes::operator-"]}
{"id": "C04", "title": "Copying a sub-range returns exactly that range", "statement": "Copying bytes [start,end) succeeds exactly when start<=end<=length and returns exactly those bytes; cutting a byte string at any point and appending the two pieces restores it.", "quantifier": "every byte string and every start/end pair", "why_tests_cant": "unbounded input space and all index combinations", "anchors": ["src/bytes.cpp:Bytes::copySubBytes", "src/bytes.cpp:Bytes::addcopyToBytes"]}
{"id": "C05", "title": "Hex output is faithful", "statement": "The hexadecimal rendering of n bytes has 2n characters, uses only 0-9A-F, and two different byte strings never have the same rendering.", "quantifier": "every pair of byte strings", "why_tests_cant": "injectivity is a statement about all pairs", "anchors": ["src/bytes.cpp:Bytes::toHex"]}
{"id": "C06", "title": "Reading from a stream does not depend on how the stream delivers", "statement": "Reading `size` bytes from a stream terminates for every way the stream may hand out its bytes in pieces; it reports success exactly when at least `size` bytes remain (and the target has room), and then delivers exactly the next `size` bytes and advances by exactly `size`.", "quantifier": "every stream content, every requested size and every buffering schedule", "why_tests_cant": "buffering behaviour is chosen by the library and not controllable from a test", "anchors": ["src/utility.cpp:readData"]}
{"id": "C07", "title": "Number validation accepts exactly in-range decimal numbers", "statement": "A string is accepted as a number exactly when it is non-empty, consists only of digits, and its decimal value fits 64 bits and lies within the given inclusive bounds; the empty string is accepted exactly when blanks are allowed.", "quantifier": "every string, every bound pair", "why_tests_cant": "unbounded strings, including overflowing ones", "anchors": ["src/utility.cpp:isValidNumber"]}
{"id": "C08", "title": "Suffix test and string/bytes conversion are exact", "statement": "The suffix test answers true exactly when the text is some prefix followed by the ending. Converting a string to bytes and back returns the same string.", "quantifier": "every pair of strings", "why_tests_cant": "unbounded input space", "anchors": ["src/utility.cpp:endsWith", "src/utility.cpp:stringToBytes", "src/utility.cpp:bytesToString"]}
{"id": "C09", "title": "Every chain hash follows its documented recurrence", "statement": "For each of the five modes, chain-hashing with n>=1 iterations and no timeout returns the result of: append the mode's salt for round 0 to the input and hash; then repeat, appending the salt for round i to the previous hash and hashing again, n rounds in total. The salt for round i is empty / the constant / the decimal text of start+i / the constant followed by that text / the decimal text of a*s^2+b*s+c with s=start+i, all in 64-bit wrap-around arithmetic.", "quantifier": "every input, salt of less than 4 GiB, coefficient, iteration count, hash function", "why_tests_cant": "all iteration counts and wrap-around cases", "anchors": ["src/pwfunc.cpp:PwFunc::chainhash*"]}
{"id": "C10", "title": "String and byte inputs chain-hash identically", "statement": "Chain-hashing a password given as a string and chain-hashing the same bytes given as a byte container produce the same result for every mode, every iteration count of at least one, when no timeout is set.", "quantifier": "every input, mode, salt of less than 4 GiB and iteration count >= 1", "why_tests_cant": "unbounded iteration counts; the two code paths have different loop structure", "anchors": ["src/pwfunc.cpp:PwFunc::chainhash (string and Bytes overloads)"]}
{"id": "C11", "title": "A timeout never changes a successful chain-hash result", "statement": "With timeout 0 a chain hash never reports a timeout, whatever the clock does. With a non-zero timeout it either reports a timeout or returns the same bytes as without timeout; it reports a timeout only if the clock had reached the limit at one of its checks, and between two checks at most 1000 hashes are computed.", "quantifier": "every clock behaviour, timeout, input, salt of less than 4 GiB and iteration count", "why_tests_cant": "depends on the machine's clock and scheduling", "anchors": ["src/pwfunc.cpp:PwFunc::chainhash*", "src/timer.cpp:Timer::peekTime"]}
{"id": "C12", "title": "A time-bounded chain hash reports the iterations it really did", "statement": "Whenever a timed chain hash returns (n, result), then n is a positive multiple of 1000 and the iteration-counted chain hash with n iterations of the same input and salts returns the same result; so a file made with the timed variant can be opened with the stored count.", "quantifier": "every clock behaviour, input and salt of less than 4 GiB, each of the ten timed routines", "why_tests_cant": "n depends on machine speed", "anchors": ["src/pwfunc.cpp:PwFunc::*Timed"]}
{"id": "C13", "title": "Timed chain hashing by mode works", "statement": "Performing a timed chain hash with a valid description (mode, run time, data) returns a result together with a chain-hash description that reproduces it.", "quantifier": "every valid timed description, input and clock", "why_tests_cant": "the run time makes exhaustive testing impractical; the claim is for all modes and clocks", "anchors": ["src/chainhash_modes.cpp:ChainHashModes::performChainHash (ChainHashTimed overloads)"]}
{"id": "C14", "title": "Chain hashing never runs out of buffer space", "statement": "No chain-hash routine (they are all declared non-throwing) ever terminates the process because the salt did not fit into its working buffer.", "quantifier": "every input, salt, start value and iteration count", "why_tests_cant": "would need the worst-case salt at every one of up to 10^9 rounds", "anchors": ["src/pwfunc.cpp:PwFunc::chainhashWith*", "src/utility.cpp:addStringToBytes"]}
{"id": "C15", "title": "Password rule is exact", "statement": "A password is accepted exactly when it has at least 8 bytes and every byte belongs to the published character set; otherwise the reported error names the first offending character, or the length if all characters are fine.", "quantifier": "every byte string", "why_tests_cant": "unbounded strings", "anchors": ["src/pwfunc.cpp:PwFunc::isPasswordValid", "include/settings.h:VALID_PASS_CHARSET"]}
{"id": "C16", "title": "Chain-hash data parts come back as they were put in", "statement": "When all parts a mode asks for have been added in order, each part can be read back by its name with exactly the bytes that were added, the data block is their concatenation, and its reported length is its real length (at most 255).", "quantifier": "every mode and every choice of part contents", "why_tests_cant": "all contents and lengths", "anchors": ["src/chainhash_data.cpp:ChainHashData", "src/format.cpp:Format"]}
{"id": "C17", "title": "Chain-hash data rejects wrong parts without side effects", "statement": "Over any history of additions, an addition succeeds only if the next expected part has that length (or is free-length), and the block stays within 255 bytes; a refused addition leaves the object unchanged; the object counts as complete exactly when as many parts were accepted as the mode asks for.", "quantifier": "every finite history of additions with arbitrary byte strings", "why_tests_cant": "unbounded histories", "anchors": ["src/chainhash_data.cpp:ChainHashData::addBytes"]}
{"id": "C18", "title": "Randomly generated chain-hash data is always usable", "statement": "For every mode and every output of the random generator, generating random data on a fresh object makes it complete, with the length the mode prescribes (255 for modes with a free-length part), and the chain hash of that mode can be performed with it.", "quantifier": "every mode and every random output", "why_tests_cant": "random output is not under test control", "anchors": ["src/chainhash_data.cpp:ChainHashData::generateRandomData", "src/chainhash_modes.cpp:ChainHashModes::performChainHash"]}
{"id": "C19", "title": "A chain-hash description says it is valid exactly when it is", "statement": "After any history of setter calls (and of changes made to the shared data object), the description reports valid exactly when a mode is set, 1<=iterations<=10^9 and its data is complete for that mode; its getters answer exactly when it is valid.", "quantifier": "every finite history of setter calls and data-object updates", "why_tests_cant": "the data object is shared, so validity depends on interleavings", "anchors": ["include/chainhash_modes.h:ChainHash"]}
{"id": "C20", "title": "Decryption undoes encryption", "statement": "For every password hash and salt of the right size and every data, decrypting the encrypted data with the same password hash and salt returns the data.", "quantifier": "every data string (any length below 2^31), password hash, salt and hash function", "why_tests_cant": "all lengths and contents, including partial last blocks", "anchors": ["src/blockchain.cpp:BlockChain", "src/blockchain_encrypt.cpp", "src/blockchain_decrypt.cpp", "src/block_encrypt.cpp", "src/block_decrypt.cpp"]}
{"id": "C21", "title": "Encryption preserves length", "statement": "Encrypted data has exactly as many bytes as the plain data, and decrypted data as many as the encrypted data.", "quantifier": "every data string", "why_tests_cant": "all lengths", "anchors": ["src/blockchain.cpp:BlockChain::addData", "src/blockchain.cpp:BlockChain::getResult"]}
{"id": "C22", "title": "Feeding data in pieces does not matter", "statement": "Feeding the data to the chain in any number of pieces of any sizes (including empty ones) produces the same result as feeding it at once, for encryption and for decryption.", "quantifier": "every data string and every way of cutting it", "why_tests_cant": "exponentially many ways to cut", "anchors": ["src/blockchain.cpp:BlockChain::addData"]}
{"id": "C23", "title": "Reading data from a file stream equals reading it from memory", "statement": "Feeding the chain from a file stream of n remaining bytes gives the same result as feeding these n bytes from memory, for every way the stream delivers its bytes; if the stream is shorter than announced, the call fails with an error.", "quantifier": "every content, announced length and delivery schedule", "why_tests_cant": "delivery schedule is not under test control", "anchors": ["src/blockchain.cpp:BlockChain::addData(std::ifstream&&,size_t)", "src/utility.cpp:readData"]}
{"id": "C24", "title": "Data of any size can be encrypted", "statement": "Adding data to a chain terminates and succeeds for every data length the byte container can hold.", "quantifier": "every data length", "why_tests_cant": "needs multi-gigabyte inputs and non-termination cannot be tested", "anchors": ["src/blockchain.cpp:BlockChain::addData (std::min<int>)"]}
{"id": "C25", "title": "Ciphertext depends only on what was already read", "statement": "Two data strings that agree on their first k bytes have encryptions that agree on their first k bytes (same password hash and salt); likewise for decryption.", "quantifier": "every pair of data strings and every k", "why_tests_cant": "statement about all pairs", "anchors": ["src/blockchain.cpp", "include/blockchain.h:SaltIterator"]}
{"id": "C26", "title": "Block salts follow the documented recurrence", "statement": "The salt added to block i is H(h_i + s_i) where (h_0,s_0) = (password hash, file salt), h_{i+1}=H(h_i+s_i+d_i), s_{i+1}=H(h_{i+1}+s_i+d_i), d_0=0 and d_i is the hash of plain block i; encryption adds it byte-wise mod 256 and decryption subtracts it.", "quantifier": "every data string, password hash and salt", "why_tests_cant": "all block counts", "anchors": ["include/blockchain.h:SaltIterator::next", "src/blockchain_encrypt.cpp", "src/blockchain_decrypt.cpp"]}
{"id": "C27", "title": "Wrong key material is refused", "statement": "Constructing a chain succeeds exactly when the password hash and the salt both have the hash's size; otherwise it fails with an invalid-argument error.", "quantifier": "every pair of byte strings and every hash function", "why_tests_cant": "all lengths", "anchors": ["src/blockchain.cpp:BlockChain::BlockChain", "include/blockchain.h:SaltIterator::init"]}
{"id": "C28", "title": "Chain height and size are reported correctly", "statement": "After adding data the chain reports the number of blocks it holds and the total number of bytes added.", "quantifier": "every history of additions", "why_tests_cant": "all histories", "anchors": ["include/blockchain.h:getHeight", "include/blockchain.h:getDataSize"]}
{"id": "C29", "title": "Streaming encryption produces the same file as in-memory encryption", "statement": "Streaming a file through the streaming chain writes exactly the bytes the in-memory chain produces.", "quantifier": "every file content and delivery schedule", "why_tests_cant": "delivery schedules and all lengths", "anchors": ["src/blockchain_stream.cpp:BlockChainStream::enc_stream", "src/blockchain_stream_encrypt.cpp", "include/blockchain_stream.h"]}
{"id": "C30", "title": "A written header is read back unchanged", "statement": "For every complete header whose data blocks each hold 1..255 bytes, writing the header followed by the announced amount of data and parsing the file returns a header with the same contents, and the parser stops exactly at the end of the header; this holds for every delivery schedule of the stream.", "quantifier": "every header content, every following data, every delivery schedule", "why_tests_cant": "very large structured input space", "anchors": ["src/dataheader.cpp:DataHeader::calcHeaderBytes", "src/dataheader.cpp:DataHeader::setHeaderBytes(std::ifstream&)"]}
{"id": "C31", "title": "Header size is what the documentation says", "statement": "Whenever header bytes are available their number is 40 + 2*hash size + both chain-hash data lengths + (2+length) per data block + 257 per encrypted data block, and this number is also what the header itself announces and what the length query answers.", "quantifier": "every header content", "why_tests_cant": "all combinations of block counts and lengths", "anchors": ["src/dataheader.cpp:DataHeader::getHeaderLength", "src/dataheader.cpp:DataHeader::calcHeaderBytes", "docs/dataheader.md"]}
{"id": "C32", "title": "Header bytes are never stale", "statement": "Over any history of header changes and recomputations, if the header bytes can be obtained then they are the serialisation of the header's current contents; after a change they cannot be obtained until recomputed.", "quantifier": "every finite history of header operations", "why_tests_cant": "unbounded histories", "anchors": ["src/dataheader.cpp:DataHeader"]}
{"id": "C33", "title": "An accepted header is consistent with its file", "statement": "If parsing a file succeeds, then the announced file size is the real one, the announced header size is the number of bytes parsed and at most the file size, all modes and iteration counts are in range, and re-serialising the parsed header gives exactly the first header-size bytes of the file.", "quantifier": "every byte string and delivery schedule", "why_tests_cant": "all malformed files", "anchors": ["src/dataheader.cpp:DataHeader::setHeaderBytes(std::ifstream&)"]}
{"id": "C34", "title": "A malformed file never kills the process", "statement": "Parsing any file either succeeds or returns an error; it never terminates or aborts the process.", "quantifier": "every byte string", "why_tests_cant": "all malformed files", "anchors": ["src/dataheader.cpp:DataHeader::setHeaderBytes(std::ifstream&)"]}
{"id": "C35", "title": "Both header parsers agree", "statement": "Parsing a written header from memory gives the same header as parsing it from a stream.", "quantifier": "every complete header", "why_tests_cant": "large structured input space", "anchors": ["src/dataheader.cpp:DataHeader::setHeaderBytes(Bytes&)", "src/dataheader.cpp:DataHeader::setHeaderBytes(std::ifstream&)"]}
{"id": "C36", "title": "Announced file size equals header size plus data size", "statement": "After setting the data size, the announced file size is the header length plus the data size.", "quantifier": "every header content and data size", "why_tests_cant": "sizes around 2^32", "anchors": ["src/dataheader.cpp:DataHeader::setDataSize", "src/dataheader.cpp:DataHeader::setFileSize"]}
{"id": "C37", "title": "Encrypted data blocks decrypt to what was put in", "statement": "Creating an encrypted data block from a data block of 1..255 bytes and decrypting it with the same password hash and salt returns the same bytes.", "quantifier": "every content, password hash, salt, random padding", "why_tests_cant": "all contents and paddings", "anchors": ["include/dataheader.h:EncDataBlock"]}
{"id": "C38", "title": "Encrypted data blocks hide and restore their type", "statement": "The type stored with an encrypted data block decrypts back to the original type.", "quantifier": "every type, content, password hash and salt", "why_tests_cant": "all key material", "anchors": ["include/dataheader.h:EncDataBlock::getDecType", "docs/dataheader.md"]}
{"id": "C39", "title": "Settings objects accept exactly valid values", "statement": "Over any history of setter calls, each stored setting is the last accepted value and is in range; refused values change nothing; the object is complete exactly when every setting has been accepted at least once.", "quantifier": "every finite history of setter calls with arbitrary values", "why_tests_cant": "unbounded histories", "anchors": ["include/dataheader.h:DataHeaderSettingsIters", "include/dataheader.h:DataHeaderSettingsTime", "include/dataheader.h:DataHeaderParts"]}
{"id": "C40", "title": "Header computation refuses a wrong password hash", "statement": "Computing header bytes with a password hash succeeds only if the second chain hash of it equals the stored validator.", "quantifier": "every header and password hash", "why_tests_cant": "all password hashes", "anchors": ["src/dataheader.cpp:DataHeader::calcHeaderBytes"]}
{"id": "C41", "title": "Calls in the wrong state do nothing", "statement": "Every workflow call that is not allowed in the current state reports the invalid-state error and changes neither the session nor any file.", "quantifier": "every reachable session, every call and arguments", "why_tests_cant": "all states and histories", "anchors": ["include/api.h:API::WorkflowState", "src/api.cpp"]}
{"id": "C42", "title": "No plaintext without the right password", "statement": "In any history, a session can hand out decrypted file content only if, since the file was selected, a password was given whose two chain hashes reproduce the validator stored in that file.", "quantifier": "every finite history of calls", "why_tests_cant": "unbounded histories", "anchors": ["src/api.cpp:API::FILE_SELECTED::verifyPassword", "src/api.cpp:API::PASSWORD_VERIFIED::getDecryptedData"]}
{"id": "C43", "title": "The password check accepts exactly passwords that reproduce the validator", "statement": "Without a timeout, verifying a password succeeds exactly when its two chain hashes give the stored validator; in particular the password the header was created with is always accepted, and a refused password leaves the session unchanged.", "quantifier": "every header, password and clock", "why_tests_cant": "all passwords", "anchors": ["src/api.cpp:API::FILE_SELECTED::verifyPassword", "src/api.cpp:API::_createDataHeaderIters"]}
{"id": "C44", "title": "What is saved can be opened again", "statement": "Creating a file, creating a header for a password, encrypting data, writing it, logging out, selecting the file again and giving the same password returns exactly the data, for all settings, random values and clocks.", "quantifier": "every data, password, settings, random output and clock", "why_tests_cant": "all data and settings combinations end to end", "anchors": ["src/api.cpp", "src/filehandler.cpp", "src/dataheader.cpp", "src/blockchain.cpp"]}
{"id": "C45", "title": "Logging out forgets everything", "statement": "After logout from any reachable session, the session holds no password hash, header, plain or encrypted data or selected file, and every later history of calls behaves exactly as on a newly created session.", "quantifier": "every reachable session and every later history", "why_tests_cant": "all histories", "anchors": ["include/api.h:API::WorkflowState::logout"]}
{"id": "C46", "title": "Only creating, writing and deleting touch the disk", "statement": "No call other than create, write and delete changes any file; create only adds an empty file where none existed, delete removes only the selected file, and write changes only the target file. In particular wrong passwords never change a file.", "quantifier": "every finite history of calls", "why_tests_cant": "unbounded histories", "anchors": ["src/api.cpp", "src/filehandler.cpp"]}
{"id": "C47", "title": "Writing to a chosen path never destroys data", "statement": "Writing to an explicitly given path changes that file only if it existed and was empty.", "quantifier": "every reachable session, path and file system content", "why_tests_cant": "all file systems", "anchors": ["src/api.cpp:API::ENCRYPTED::writeToFile(path)", "src/filehandler.cpp:FileHandler::getWriteStreamIfEmpty"]}
{"id": "C48", "title": "A crash while saving does not lose the file", "statement": "If the process or machine stops at any point during saving, the file afterwards can be opened as either the old or the new content.", "quantifier": "every crash point, old and new content", "why_tests_cant": "crash points cannot be enumerated by a unit test", "anchors": ["src/api.cpp:API::ENCRYPTED::writeToFile", "src/filehandler.cpp:FileHandler::getWriteStream"]}
{"id": "C49", "title": "A reported successful save is on disk", "statement": "If writing reports success, the file contains exactly the header bytes followed by the encrypted data.", "quantifier": "every file system behaviour including full disks", "why_tests_cant": "disk-full behaviour is environment dependent", "anchors": ["src/api.cpp:API::ENCRYPTED::writeToFile"]}
{"id": "C50", "title": "Relevant files are listed", "statement": "Listing the relevant files of a directory returns exactly the .enc files of that directory that are empty or carry a readable header of the session's file mode.", "quantifier": "every directory content", "why_tests_cant": "all directory contents", "anchors": ["src/api.cpp:API::INIT::getRelevantFileNames"]}
{"id": "C51", "title": "The password check respects its timeout", "statement": "If a timeout is given and the first chain hash already used it up, the password check reports a timeout instead of starting an unbounded second chain hash; with no timeout given it never reports one.", "quantifier": "every clock behaviour and timeout", "why_tests_cant": "depends on timing", "anchors": ["src/api.cpp:API::FILE_SELECTED::verifyPassword"]}
{"id": "C52", "title": "Header creation respects its timeout", "statement": "If a timeout is given, header creation succeeds only if the clock showed less than the limit after the first chain hash, gives the second chain hash exactly the remaining time, and a timeout leaves the session unchanged; with no timeout it never reports one.", "quantifier": "every clock behaviour and timeout", "why_tests_cant": "depends on timing", "anchors": ["src/api.cpp:API::_createDataHeaderIters"]}
{"id": "C53", "title": "Header creation by run time works", "statement": "Creating a header with time-based settings either succeeds or reports an error.", "quantifier": "every session in which it is allowed, every complete settings object", "why_tests_cant": "all settings and clocks", "anchors": ["src/api.cpp:API::_createDataHeaderTime", "include/api.h:DataHeaderHelperStruct"]}
{"id": "C54", "title": "No sequence of calls crashes the process", "statement": "From a new session, no sequence of calls makes the process terminate abnormally (uncaught exception, failed assertion, null dereference).", "quantifier": "every finite history of calls with arbitrary arguments and file contents", "why_tests_cant": "unbounded histories", "anchors": ["src/api.cpp", "include/api.h"]}
{"id": "C55", "title": "Changing the password takes effect", "statement": "After opening a file, creating a new header with a new password, encrypting and saving, the file opens with the new password and returns the new data; the old password is accepted only if it reproduces the new validator.", "quantifier": "every data, old and new password, settings, random output", "why_tests_cant": "end to end over all values", "anchors": ["src/api.cpp:API::DECRYPTED::createDataHeader"]}
{"id": "C56", "title": "Changing the salt keeps everything else", "statement": "Changing the salt keeps the password, modes, iterations and data blocks of the header, a file saved afterwards still opens with the same password, and encrypted data blocks still decrypt.", "quantifier": "every header and random output", "why_tests_cant": "all random outputs", "anchors": ["src/api.cpp:API::DECRYPTED::changeSalt"]}
{"id": "C57", "title": "File data can be fetched once", "statement": "After creating a header for an empty file, the session hands out an empty file-data object exactly once; later fetches report that nothing is there, and after decrypting a file the fetch returns the decrypted data.", "quantifier": "every history", "why_tests_cant": "all histories", "anchors": ["src/api.cpp:API::DECRYPTED::getFileData", "src/api.cpp:API::PASSWORD_VERIFIED::getDecryptedData"]}
{"id": "C58", "title": "Result objects never hand out a value that is not there", "statement": "Over any history of accesses, a result object hands out its value only if the operation succeeded, a value was set and it has not been moved out before.", "quantifier": "every finite history of accesses", "why_tests_cant": "unbounded histories", "anchors": ["include/error.h:ErrorStruct"]}
{"id": "C59", "title": "Timer follows its protocol and reports the elapsed time", "statement": "Over any history of calls the timer refuses calls in the wrong phase without changing, and after stopping reports the number of laps, the slowest lap, and the total time between start and stop.", "quantifier": "every history of calls and clock readings", "why_tests_cant": "clock readings are not under test control", "anchors": ["src/timer.cpp:Timer"]}
{"id": "C60", "title": "Random byte stays in range and can reach both ends", "statement": "A random byte requested between two bounds always lies between them, and each value from the lower to the upper bound can occur.", "quantifier": "every bound pair, buffer size and random output", "why_tests_cant": "random output is not under test control", "anchors": ["src/rng.cpp:RNG::get_random_byte"]}
{"id": "C61", "title": "Random strings have the requested length and only letters", "statement": "A random string of requested length n>=1 has exactly n characters, all ASCII letters, whatever the generator produces (if the call returns); a request for 0 characters is refused.", "quantifier": "every random output sequence and n", "why_tests_cant": "random output is not under test control", "anchors": ["src/rng.cpp:RNG::get_random_string"]}
{"id": "C62", "title": "A file is accepted for work exactly when its size fields are plausible", "statement": "Opening a file handler succeeds exactly when the path is acceptable and the file is empty, or announces its real size, and a header size between 104 and the file size; the data size it reports is then the file size minus the header size.", "quantifier": "every file content and delivery schedule", "why_tests_cant": "all file contents", "anchors": ["src/filehandler.cpp:FileHandler::FileHandler", "src/filehandler.cpp:FileHandler::update"]}
{"id": "C63", "title": "Path validation is exact", "statement": "A path is accepted for opening exactly when it is non-empty, its extension is .enc, it exists and can be opened; and for creation exactly when it is non-empty, has extension .enc and does not exist. The first failed condition determines the error.", "quantifier": "every path string and file system", "why_tests_cant": "all path strings", "anchors": ["src/filehandler.cpp:FileHandler::isValidPath", "src/filehandler.cpp:FileHandler::createFile"]}
{"id": "C64", "title": "A failing random source never yields a weak header", "statement": "If the random generator fails while a header or salt is being created, no header is ever produced from the unfilled memory.", "quantifier": "every point at which the generator may fail", "why_tests_cant": "generator failure cannot be provoked from a test", "anchors": ["src/rng.cpp:RNG::fill_random_bytes", "src/bytes.cpp:Bytes::fillrandom", "src/api.cpp"]}
{"id": "C65", "title": "Password lists survive saving and loading", "statement": "Turning a list of password entries into bytes and building the list from these bytes again returns the same entries.", "quantifier": "every list of entries", "why_tests_cant": "all lists", "anchors": ["src/password_data.cpp:PasswordData::getBytes", "src/password_data.cpp:PasswordData::constructFileData"]}
{"id": "C66", "title": "Password search returns exactly the matching entries", "statement": "Searching with a text returns exactly the entries whose site name contains that text ignoring ASCII case; an empty text returns all entries; sorting only reorders.", "quantifier": "every list of entries and every search text", "why_tests_cant": "all lists", "anchors": ["src/password_data.cpp:PasswordData::getSets"]}
{"id": "C67", "title": "No buffer is leaked or freed twice", "statement": "When the last byte container of a program is gone, no buffer it allocated is left, and no buffer is ever freed twice: at any moment each usable container owns exactly one buffer and each live buffer has exactly one owner.", "quantifier": "every sequence of container operations", "why_tests_cant": "all histories of constructions, moves, assignments and destructions", "anchors": ["src/bytes.cpp:Bytes::~Bytes", "src/bytes.cpp:Bytes::operator=", "src/bytes.cpp:Bytes::consumeBytes", "include/bytes.h:Bytes"]}
{"id": "C68", "title": "Reading the content of a selected file returns exactly the file", "statement": "getFileContent on a selected file returns exactly the bytes the file has at that moment and changes nothing; if the file is gone or unreadable this is reported. Asking for the first n bytes returns exactly these or refuses.", "quantifier": "every file content, every change by other programs, every delivery schedule", "why_tests_cant": "files of 4 GiB and more, and changes between calls", "anchors": ["src/api.cpp:API::FILE_SELECTED::getFileContent", "src/filehandler.cpp:FileHandler::getAllBytes", "src/filehandler.cpp:FileHandler::getFirstBytes"]}
{"id": "C69", "title": "A timed chain hash description never lies about its validity", "statement": "After any program of constructions, copies, assignments and setter calls, a ChainHashTimed says it is valid exactly if its mode is valid, its run time is non-zero and allowed, and its data is complete and of the same mode; its getters answer exactly then. No such program has undefined behaviour.", "quantifier": "every program over descriptions and shared data objects", "why_tests_cant": "unbounded programs; reading uninitialised memory usually goes unnoticed", "anchors": ["include/chainhash_data.h:ChainHashTimed", "src/chainhash_data.cpp:ChainHashTimed"]}
{"id": "C70", "title": "Error messages identify the error", "statement": "Two failed results with different error codes never give the same message, a message shows the additional information attached to the result, the verbose message adds exactly the exception text, and success never reads like an error.", "quantifier": "every error code, information and exception text", "why_tests_cant": "all texts", "anchors": ["include/error.h:getErrorMessage", "include/error.h:ErrorStruct"]}
{"id": "C71", "title": "All functions agree on which mode numbers exist and what they mean", "statement": "A number is a valid hash, chain-hash or file mode for the validity checks exactly if it is for the functions that name, describe or construct it; different modes have different names, formats are equal exactly for the same mode, and a format describes the parts of its mode.", "quantifier": "every 32-bit number", "why_tests_cant": "all numbers, and agreement between functions that are never called together", "anchors": ["src/hash_modes.cpp", "src/chainhash_modes.cpp", "src/file_modes.cpp", "src/format.cpp"]}
{"id": "C72", "title": "Two versions of a file never use the same key stream", "statement": "Saving a file twice never encrypts different data with the same key stream: the difference of two versions of a file does not give away the difference of the data.", "quantifier": "every history, data and password", "why_tests_cant": "a statement about pairs of executions", "anchors": ["src/api.cpp:API::DECRYPTED::encryptData", "src/blockchain_encrypt.cpp"]}
{"id": "C73", "title": "Changed files are noticed", "statement": "If a file was changed in any way since it was saved, opening it with its password reports an error instead of returning data.", "quantifier": "every file and every change", "why_tests_cant": "all changes of all files", "anchors": ["src/api.cpp:API::PASSWORD_VERIFIED::getDecryptedData", "src/dataheader.cpp"]}
{"id": "C74", "title": "The session follows the documented state chart", "statement": "After any history of calls and outside changes the state of a session is the one the documented state chart gives for the calls that reported success; a call that reports anything else leaves the state alone, and no call succeeds without an arrow in the chart.", "quantifier": "every history", "why_tests_cant": "unbounded histories", "anchors": ["include/api.h:WorkflowState", "src/api.cpp"]}
{"id": "C75", "title": "Selecting a file answers exactly by what the file is", "statement": "Selecting a file succeeds exactly for a readable .enc file that is empty or begins with a complete valid header announcing its real size; the header taken over is the one in the file. Every other path or file is refused with the error naming the first thing wrong with it, or for three kinds of damage ends the process, and a refusal changes nothing.", "quantifier": "every path, file content, permission and delivery schedule", "why_tests_cant": "all file contents", "anchors": ["src/api.cpp:API::INIT::selectFile", "src/api.cpp:API::_getFileHandler", "src/dataheader.cpp:setHeaderBytes"]}
{"id": "C76", "title": "A session is an ideal vault", "statement": "In histories without accidents (the outside cooperates, nobody else writes to the disk, arguments are sensible, no directory is listed) every call of a session succeeds or fails exactly as that of an ideal vault of locked boxes, which knows no headers, keys, handles or state objects, and the disk always holds what the ideal vault holds. In particular what was saved under a password comes back until the file itself is deleted or saved again, whatever is done to other files.", "quantifier": "every history of calls over any number of files", "why_tests_cant": "unbounded histories, a statement about all calls together", "anchors": ["src/api.cpp", "include/api.h", "src/filehandler.cpp"]}
{"id": "C77", "title": "The setup dialogue only returns usable answers", "statement": "Each question of the setup dialogue is repeated until the user enters an acceptable answer and returns exactly what the user said, with a blank line meaning the standard value; a mode is accepted exactly if the line is the number of an existing mode, a number of iterations exactly if it is in range, a password exactly if it has the required length and characters. The answers together always make valid settings, and the dialogue ends on every input.", "quantifier": "every text typed by the user", "why_tests_cant": "all inputs, including such that end early", "anchors": ["src/app.cpp:App::isValidChar", "src/app.cpp:App::askForFileMode", "src/app.cpp:App::askForIters", "src/app.cpp:App::askForPasswd", "src/app.cpp:App::askForHeader"]}
{"id": "C78", "title": "Starting the app never damages a file and ends with a usable one", "statement": "A remembered file is used without a question. Otherwise the first non-empty line names the file, the suffix .enc is added exactly if it is missing, and the name is seen from the current directory. No existing file is changed, only a missing one is created, and the file chosen is one the program can work with.", "quantifier": "every input, directory, file system and permissions", "why_tests_cant": "all inputs and file systems", "anchors": ["src/app.cpp:App::printStart", "src/utility.cpp:endsWith"]}
{"id": "C79", "title": "Sessions on different files do not interfere", "statement": "What a call answers and does depends only on the session, on the paths it names and on the selected file, and it changes nothing else on the disk. Hence a session that keeps to its own paths gets the same answers whatever lies on other paths and whatever other programs or other sessions do there, several such sessions together do what each does alone, and what one of them saved comes back.", "quantifier": "every history, every number of sessions and every interleaving of calls", "why_tests_cant": "all interleavings, a statement about pairs of executions", "anchors": ["include/api.h", "src/api.cpp", "src/filehandler.cpp"]}
{"id": "C80", "title": "Faults of the outside do no more than the ideal vault with faults allows", "statement": "Also when files may not be read, written or created, when the disk is full, when something else lies under a path and when other programs change files that are not just being read, every history of sensible calls runs through: a call behaves as in the ideal vault, or it opens a file that is forbidden, foreign or gone, reports an error and has no effect. The only damage is that a save onto a full disk leaves nothing or a part, and such a part is never taken for a file. What was saved stays as long as nobody deletes or replaces it, and the password opens it wherever its bytes are copied or put back.", "quantifier": "every history of calls, faults and changes by other programs", "why_tests_cant": "unbounded histories with faults at every place", "anchors": ["src/api.cpp", "include/api.h", "src/filehandler.cpp"]}
{"id": "C81", "title": "Sessions that share files behave like sessions on one ideal vault", "statement": "Any number of sessions may use the same files on one disk, with faults and changes by other programs. As long as nobody is about to replace or remove a file that another session is just reading, every history of their sensible calls, in any order, runs through with answers that sessions on one shared ideal vault with faults get, and the disk holds what the shared vault holds. What one session saved under a password every other session can open, and a file keeps its bytes until someone deletes or saves it.", "quantifier": "every number of sessions, every interleaving of calls, faults and changes by other programs", "why_tests_cant": "all interleavings of unboundedly many calls", "anchors": ["include/api.h", "src/api.cpp", "src/filehandler.cpp"]}
{"id": "C82", "title": "Sessions that share a file do not undo each other's work", "statement": "When several sessions open, change and save the same file, no saved change is lost without the session that replaces it having seen it, and a session only shows data that were saved in the file.", "quantifier": "every number of sessions and every order of their calls", "why_tests_cant": "all interleavings", "anchors": ["src/api.cpp:API::PASSWORD_VERIFIED::getDecryptedData", "src/api.cpp:API::ENCRYPTED::writeToFile", "include/filehandler.h"]}
{"id": "C83", "title": "Calls that overlap in time behave as if they happened one after the other", "statement": "When several sessions on one disk run in threads or programs of their own, the accesses of their calls to the disk may come in any order. Whatever the order, all sessions get the answers they would get, and sessions and disk end up as they would, if the calls happened one after the other in some order; a call that nobody interrupts does what the call does in one go.", "quantifier": "every number of sessions, all calls and every interleaving of their single accesses to the disk", "why_tests_cant": "all interleavings of single accesses; races show up rarely", "anchors": ["src/filehandler.cpp:FileHandler::isValidPath", "src/filehandler.cpp:FileHandler::createFile", "src/filehandler.cpp:FileHandler::getWriteStream", "src/api.cpp:API::ENCRYPTED::writeToFile", "src/api.cpp:API::INIT::selectFile"]}
{"id": "C84", "title": "Equality of chain-hash data means the same data", "statement": "Two objects of chain-hash data compare equal exactly if they belong to the same mode and hold the same parts.", "quantifier": "all modes and all histories of attempted additions to the two objects", "why_tests_cant": "all pairs of histories", "anchors": ["src/chainhash_data.cpp:operator==", "src/chainhash_data.cpp:ChainHashData::getDataBlock"]}
{"id": "C85", "title": "The result of decoding hands out what it holds, and the content only once", "statement": "The result struct of decoding hands out the content last set, with all changes made through its reference, as long as decoding counts as a success; after the content has been taken there is none until new content is set; the header is handed out whenever it is set. Everything else is refused with a logic_error and changes nothing.", "quantifier": "every sequence of accesses to the struct", "why_tests_cant": "unbounded sequences of accesses", "anchors": ["include/api.h:WorkflowDecStruct"]}
{"id": "C86", "title": "Calls act on the file that was meant, whatever names it has", "statement": "A file may have several names, by links between directories or by way of the current directory, and a name may come to mean another file. A call by any name of a file acts on this file and on no other, and all its names show the result. A session that has selected a file goes on with that file.", "quantifier": "every history of calls of any number of sessions, changes by other programs and changes of the meaning of names", "why_tests_cant": "all assignments of names to files, changing at any time", "anchors": ["src/filehandler.cpp", "include/filehandler.h", "src/api.cpp:API::_deleteFile", "src/api.cpp:API::getEncDirPath"]}
{"id": "C87", "title": "The demonstration program appends to its file or leaves everything as it is", "statement": "The demonstration program opens one fixed file with a fixed password, appends five bytes to its content and saves it; the branch that is switched off creates the file with five bytes instead. When the program reports a save, the file was one the password opens (or, in the other branch, missing or empty), the same passwords open it afterwards, and it shows the old content and the five bytes. Otherwise no file changes. No other file is ever touched, and the creating branch never overwrites a file with content.", "quantifier": "every disk, every behaviour of the outside at each call", "why_tests_cant": "all disks and all faults at each of the calls; the program has no tests and does not compile at present", "anchors": ["src/main.cpp", "src/api.cpp", "include/api.h"]}
{"id": "C88", "title": "Encrypted data blocks can only be read with the password", "statement": "Who has a file, but neither its password nor the contents of any block, learns nothing about the contents of the encrypted data blocks in its header, not even how two of them differ; who knows the contents of one block does not learn those of another.", "quantifier": "all hash functions, password hashes, salts and block contents", "why_tests_cant": "secrecy is a statement about all keys and contents at once", "anchors": ["include/dataheader.h:EncDataBlock", "src/dataheader.cpp:DataHeader::calcHeaderBytes", "docs/dataheader.md"]}
{"id": "C89", "title": "Only a collision of the hash function lets another password in", "statement": "When a password other than the one a file was made with is accepted for it, the hashing done for the two passwords contains two different inputs with the same hash. The check of a password hashes exactly as often as the two iteration numbers in the header say and depends on nothing but the hashes of those inputs.", "quantifier": "all hash functions, headers, passwords, histories of the session, time limits and clocks", "why_tests_cant": "a statement about all pairs of passwords; a test would need a collision", "anchors": ["src/api.cpp:API::FILE_SELECTED::verifyPassword", "src/pwfunc.cpp:PwFunc::chainhash", "src/pwfunc.cpp:PwFunc::chainhashWithConstantSalt"]}
{"id": "C90", "title": "With SHA-2 only a collision of the compression function lets another password in", "statement": "For the hash functions the program really uses, SHA-256, SHA-384 and SHA-512: they give 32, 48 and 64 bytes on every input, two different inputs have the same digest only if the steps of the two computations contain a collision of the compression function, and a password other than the one a file was made with is refused unless the steps of the two checks contain such a collision.", "quantifier": "all inputs shorter than 2^60 bytes, all passwords, headers and histories of the session", "why_tests_cant": "a statement about all pairs of inputs; a test would need a collision", "anchors": ["src/sha256.cpp:sha256::hash", "src/sha384.cpp:sha384::hash", "src/sha512.cpp:sha512::hash", "src/api.cpp:API::FILE_SELECTED::verifyPassword"]}
{"id": "C91", "title": "The brute-force attacker of the tests finds the password", "statement": "The attacker in the test directory, by which the strength of the settings is to be measured, tries all passwords over the allowed characters in order of their length, stops at the first that opens the file, reports how many it tried and hands out the hash of the password, which the harness confirms.", "quantifier": "all hash functions, headers, passwords and amounts of time", "why_tests_cant": "the interesting passwords are out of reach of a run", "anchors": ["tests/Attacker/brute_pw_attacker.cpp:BrutePwAttacker::attack", "tests/Attacker/base_attacker.cpp:BaseAttacker::run", "include/settings.h:VALID_PASS_CHARSET"]}
{"id": "C92", "title": "The header generator of the tests makes proper headers of every kind", "statement": "The generator the tests take their headers from returns, for every request with a known hash mode and every random source that varies, the bytes of a proper header with the properties asked for and right size fields; the parsers read it and write the same bytes again; without a request every mode, every number of blocks and every block length the format allows can occur.", "quantifier": "all requests and all random sources", "why_tests_cant": "a test run sees a few of the headers and cannot see the kinds that never occur", "anchors": ["tests/dataheader_generator.h:DataHeaderGen::generateDH", "tests/dataheader_generator.h:DataHeaderGen::getChainHashMode", "src/rng.cpp:RNG::get_random_byte", "src/dataheader.cpp:DataHeader::setHeaderBytes"]}
{"id": "C93", "title": "The log gives no secrets away", "statement": "The program logs every call in detail to a file and the console. The log says nothing about passwords, password hashes and data that others do not know anyway: histories of a session that differ only in these and give the same answers leave the same lines. Logging does not change what the calls do.", "quantifier": "every history of calls and changes by other programs, all passwords and data, all lines of the file handler that depend on the disk alone", "why_tests_cant": "a statement about all pairs of secrets and the whole log at once", "anchors": ["include/logger.h", "src/main.cpp:main", "src/api.cpp", "src/dataheader.cpp:DataHeader::setHeaderParts", "include/chainhash_modes.h:operator<<", "include/dataheader.h:operator<<", "src/pwfunc.cpp:PwFunc::isPasswordValid"]}
{"id": "C94", "title": "A damaged header is refused with the error that names its first flaw", "statement": "The bytes of a file are read from left to right and the first thing that is wrong decides the answer: missing bytes, the file size, the header size, the hash mode, the file mode, the mode of a chain hash or its number of iterations. Every file either begins with a header in order or is refused with the one error that belongs to its first flaw.", "quantifier": "all byte strings shorter than 2^64, all deliveries of the stream, all hash functions", "why_tests_cant": "there are infinitely many damaged files, and the order of the checks matters only for files with several flaws", "anchors": ["src/dataheader.cpp:DataHeader::setHeaderBytes(std::ifstream&)", "src/api.cpp:API::INIT::selectFile", "include/error.h:ErrorCode", "docs/dataheader.md"]}
{"id": "C95", "title": "Without the right hashes a file tells nothing about its content", "statement": "The data is encrypted by adding the hashes of inputs made from the password hash, the salt and earlier data, so to those who do not know these hashes any content of the same length is as good as any other: for every file and every content of its length there is a hash function that differs only at these inputs and with which the file opens with the same password to that content. The same holds for several saved versions of a file together.", "quantifier": "all hash functions, passwords, headers, contents and ciphertexts", "why_tests_cant": "secrecy is a statement about all contents and hash functions at once; a test sees one ciphertext of one content", "anchors": ["src/blockchain.cpp:BlockChain::addData", "src/block_encrypt.cpp", "include/blockchain.h", "src/api.cpp:API::PASSWORD_VERIFIED::getDecryptedData", "docs/doc.md"]}
{"id": "C96", "title": "Trying a password costs all iterations", "statement": "The numbers of iterations in the header are the price of trying a password: whoever finds out whether a password opens a file, by whatever program and whatever they know about the file, has to compute the hashes of all rounds of both chain hashes, and for a list of wrong passwords those of all of them. The check of the program costs exactly this.", "quantifier": "all programs that ask the hash function, all hash functions, headers and passwords", "why_tests_cant": "a lower bound over all programs cannot be tested", "anchors": ["docs/doc.md", "src/pwfunc.cpp:PwFunc::chainhash", "src/api.cpp:API::FILE_SELECTED::verifyPassword", "include/blockchain.h:SaltIterator"]}
{"id": "C97", "title": "The salt of a file is stored encrypted", "statement": "The salt in the header is stored encrypted with the password hash, by which it has to be decrypted before it is used: the data of a file is encrypted with the password hash and the decrypted salt.", "quantifier": "all hash functions, files, passwords and contents", "why_tests_cant": "writing and reading with the same wrong salt round-trips, so no test of the program notices", "anchors": ["docs/doc.md", "docs/dataheader.md", "README.md", "src/api.cpp:API::PASSWORD_VERIFIED::getDecryptedData", "src/api.cpp:API::DECRYPTED::getEncryptedData"]}
{"id": "C98", "title": "A file handler never misjudges its file", "statement": "Over the life of an object that handles a file, what it says was so when it last looked: after an update the sizes and the emptiness are those of the file, whatever the object knew before; the sizes go together, so that the size of the data does not wrap around; and writing only if the file is empty never destroys content.", "quantifier": "all lives of an object: updates, writes, changes by other programs, permissions that come and go", "why_tests_cant": "the errors need particular orders of updates, failed updates and writes; the tests have one order", "anchors": ["src/filehandler.cpp:FileHandler::update", "src/filehandler.cpp:FileHandler::getWriteStream", "src/filehandler.cpp:FileHandler::getWriteStreamIfEmpty", "src/filehandler.cpp:FileHandler::getDataSize", "include/filehandler.h"]}
{"id": "C99", "title": "A damaged header in memory is an error", "statement": "Given any bytes in memory, the parser for headers in memory returns a header or an error that says what is wrong: bytes that end too early, invalid modes, and flaws further on each get an error of their own. It never ends the process.", "quantifier": "all byte strings", "why_tests_cant": "all damaged headers", "anchors": ["src/dataheader.cpp:DataHeader::setHeaderBytes(Bytes&)"]}
{"id": "C100", "title": "Files are read without chance", "statement": "Random bytes serve to make headers and salts. Selecting a file, checking a password, reading, writing and listing do not depend on them: with other random bytes, every such call has the same result and leaves the same session and disk behind; and none of them needs a random source that works. Where a header is made, the answer of the call does not depend on the random bytes either.", "quantifier": "all histories, file contents and random sources, working or failing", "why_tests_cant": "the tests run with one source that always works; a dependence would show only by chance", "anchors": ["src/dataheader.cpp:DataHeader::DataHeader", "src/dataheader.cpp:DataHeader::setHeaderBytes", "src/bytes.cpp:Bytes::fillrandom", "src/api.cpp:API::_select_non_empty_file", "src/api.cpp:API::_createDataHeaderIters"]}
{"id": "C101", "title": "The pace does not matter", "statement": "How fast the machine is, what its clocks show and in which portions the bytes of a file arrive changes nothing but whether a time limit is hit: every call without a limit has the same result and leaves the same session and disk behind; a call with a limit does too, or answers 'timeout' and leaves everything as it was; histories that differ in pace only agree as long as no call gives up. Without a limit (0) no call ever depends on the pace.", "quantifier": "all histories, file contents, deliveries of all streams, clocks and time limits", "why_tests_cant": "a run has one machine and one load; timing errors do not repeat", "anchors": ["src/utility.cpp:readData", "src/pwfunc.cpp:PwFunc::chainhash", "src/api.cpp:API::FILE_SELECTED::verifyPassword", "src/api.cpp:API::_createDataHeaderIters", "src/blockchain.cpp:BlockChain::addData", "src/filehandler.cpp:FileHandler::update", "include/timer.h"]}
{"id": "C102", "title": "Files do not show that they have the same password", "statement": "The salts and start numbers of the chain hashes are random so that equal passwords do not show: two files made with the same choices and the same password, but with different random data, have different validators, unless the hashing runs into a collision of the hash function.", "quantifier": "all hash functions, passwords, headers, settings and random sources", "why_tests_cant": "a statement about all pairs of files and random sources", "anchors": ["docs/doc.md", "docs/dataheader.md", "src/api.cpp:API::_createDataHeaderIters", "include/chainhash_data.h:ChainHashData::generateRandomData", "src/pwfunc.cpp:PwFunc::chainhash"]}
{"id": "C103", "title": "Links lead to the file, and deleting removes the file", "statement": "A path may be a symbolic link to a file, and a file may have several names. Every call that opens, reads or writes a path acts on the file the links lead to: all names of this file show the result and no other file changes. A new file is made under the name that was given, with the ending .enc, and no name or link is lost. Deleting the selected file removes the file: it is not found any more under any name.", "quantifier": "all disks with symbolic links, loops of them and hard links, all sessions, calls and histories", "why_tests_cant": "the tests use plain files in one directory", "anchors": ["src/filehandler.cpp:FileHandler::createFile", "src/filehandler.cpp:FileHandler::isValidPath", "src/filehandler.cpp:FileHandler::getWriteStream", "src/api.cpp:API::_deleteFile", "src/api.cpp:API::ENCRYPTED::writeToFile"]}
{"id": "C104", "title": "A failed call says what it is about", "statement": "An error comes with a text. Errors about a path say which path, and the message shows it. A call refused because of the state says its own name and the states in which it is available. An error about a damaged header says which field, size or number is wrong. A call that succeeds says nothing, and what a call says never depends on passwords, contents or salts.", "quantifier": "all states, arguments, disks, files, deliveries and random sources", "why_tests_cant": "the tests compare error codes, not texts", "anchors": ["src/api.cpp", "include/error.h:ErrorStruct", "src/dataheader.cpp:DataHeader::setHeaderParts", "src/filehandler.cpp:FileHandler::isValidPath"]}
{"id": "C105", "title": "Setting up a file on the console gives a header and shows no secret", "statement": "The console dialogue that sets up a new file ends with the header of that file. What it shows on the screen does not let an onlooker open the file.", "quantifier": "all answers, passwords, hash functions, random sources and clocks", "why_tests_cant": "the dialogue has no tests and is not part of the build", "anchors": ["src/app.cpp:App::askForHeader"]}
{"id": "C106", "title": "Running the app sets an empty file up and leaves a full one alone", "statement": "A run of the app (App::run) ends with true. If the file was empty or did not exist, it then begins with a header made of the answers, so that the chosen password opens it. If the file had content, nothing is asked and the file is unchanged. No other file changes.", "quantifier": "for all disks, typed inputs, remembered paths, random sources, clocks and hash functions", "why_tests_cant": "The file app.cpp is not part of any build or test; that the header never reaches the file shows only in the whole run, and only for inputs that answer every question.", "anchors": ["src/app.cpp:App::run", "src/app.cpp:App::printStart", "src/app.cpp:App::askForHeader", "src/filehandler.cpp:FileHandler::getFirstBytes"]}
{"id": "C107", "title": "A change garbles everything behind it", "statement": "The blocks of the data are chained: whoever changes the salt of a file garbles all of its content, and whoever changes a block of the encrypted data garbles every whole block behind it. More exactly, two files that open with the same password and differ in the salt or in an earlier block do not open to blocks that differ as the encrypted blocks do, and no two data with different keys, salts or earlier blocks are encrypted with the same bytes in any whole block, unless on the way the hash function has the same value for different inputs or two different pairs of hashes have the same sum.", "quantifier": "all data, keys, salts, hash functions, headers, files and disks", "why_tests_cant": "tests decrypt what was encrypted; that nothing behind a change is readable is a statement about all changes and all later blocks", "anchors": ["src/blockchain.cpp:BlockChain::addData", "src/blockchain_encrypt.cpp:EncryptBlockChain::addBlock", "src/blockchain_decrypt.cpp:DecryptBlockChain::addBlock", "include/blockchain.h:SaltIterator", "src/block_decrypt.cpp:DecryptBlock::addData"]}
{"id": "C108", "title": "The memory measurement of the benchmarks ends and reports what it saw", "statement": "A benchmark measures the memory in use in a second thread while it runs. However the steps of the two are interleaved, as long as both get on, the benchmark gets its numbers, and these are the largest, the smallest and the average of the measurements made.", "quantifier": "all interleavings, measurements, lengths of the benchmark and old values of the shared variables", "why_tests_cant": "a run of the benchmarks tries one interleaving; that the request to end is lost needs an unlucky one", "anchors": ["benchmarks/chainhash_bench.cpp:MemoryThread", "benchmarks/bench.cpp:MemoryThread", "benchmarks/blockchain_bench.cpp:MemoryThread"]}
{"id": "C109", "title": "The benchmarks read the memory in use off the kernel's line", "statement": "The memory in use is the number in the line of /proc/self/status that begins with 'VmRSS:', and -1 if there is none or the file cannot be read.", "quantifier": "all contents of the file", "why_tests_cant": "the benchmarks have no tests, and the file has the usual form wherever they run", "anchors": ["benchmarks/bench_utils.h:parseLine", "benchmarks/bench_utils.h:getPhysicalMem"]}
