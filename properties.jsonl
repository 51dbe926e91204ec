{"id": "C01", "title": "XXH32 one-shot computes the published XXH32 function", "statement": "XXH32(input,len,seed) returns exactly the value defined by the XXH32 section of doc/xxhash_spec.md for the len bytes at input.", "quantifier": "every byte string of every length, every 32-bit seed, every address of the input buffer, both CPU endiannesses, every memory access method, every size/alignment build option", "why_tests_cant": "The published vectors cover a few dozen lengths and seeds on one build; the claim is about all inputs and all builds.", "anchors": ["xxhash.h: XXH32, XXH32_endian_align, XXH32_finalize, XXH32_round, XXH32_avalanche", "doc/xxhash_spec.md: XXH32 Algorithm Description"]}
{"id": "C02", "title": "XXH64 one-shot computes the published XXH64 function", "statement": "XXH64(input,len,seed) returns exactly the value defined by the XXH64 section of doc/xxhash_spec.md for the len bytes at input.", "quantifier": "every byte string of every length, every 64-bit seed, every input address, both endiannesses, every memory access method and build option", "why_tests_cant": "Infinite domain; vectors sample a few lengths on one build.", "anchors": ["xxhash.h: XXH64, XXH64_endian_align, XXH64_finalize, XXH64_round, XXH64_mergeRound, XXH64_avalanche", "doc/xxhash_spec.md: XXH64 Algorithm Description"]}
{"id": "C03", "title": "XXH3_64bits one-shot (default, seed, secret) computes the published XXH3-64 function", "statement": "XXH3_64bits, XXH3_64bits_withSeed and XXH3_64bits_withSecret (secretSize >= 136) return the value defined by the XXH3 sections of doc/xxhash_spec.md, in each of the length classes 0, 1-3, 4-8, 9-16, 17-128, 129-240, >240.", "quantifier": "every byte string, every 64-bit seed, every secret of at least 136 bytes, every build configuration", "why_tests_cant": "Length boundaries, secret sizes and seeds combine into an infinite space; only default-size secrets are sampled.", "anchors": ["xxhash.h: XXH3_64bits_internal, XXH3_len_0to16_64b, XXH3_len_17to128_64b, XXH3_len_129to240_64b, XXH3_hashLong_64b_internal", "doc/xxhash_spec.md: XXH3 Algorithm"]}
{"id": "C04", "title": "XXH3_128bits one-shot (default, seed, secret) computes the published XXH3-128 function", "statement": "XXH3_128bits, XXH3_128bits_withSeed, XXH128 and XXH3_128bits_withSecret (secretSize >= 136) return the {low64, high64} pair defined by doc/xxhash_spec.md.", "quantifier": "every byte string, every 64-bit seed, every secret of at least 136 bytes, every build configuration", "why_tests_cant": "Infinite domain.", "anchors": ["xxhash.h: XXH3_128bits_internal, XXH3_len_*_128b, XXH3_hashLong_128b_internal, XXH128", "doc/xxhash_spec.md: XXH3 Algorithm"]}
{"id": "C05", "title": "withSecretandSeed contract", "statement": "XXH3_{64,128}bits_withSecretandSeed equals the _withSeed result for len <= 240 whatever the secret, and the _withSecret result for len > 240 whatever the seed; when the secret comes from XXH3_generateSecret_fromSeed(seed) it equals _withSeed for every length.", "quantifier": "every byte string, every seed, every secret of at least 136 bytes", "why_tests_cant": "Both the cut-over length and the secret/seed pairing must hold everywhere.", "anchors": ["xxhash.h: XXH3_64bits_withSecretandSeed, XXH3_128bits_withSecretandSeed, XXH3_generateSecret_fromSeed (contract at 1930-1986)"]}
{"id": "C06", "title": "XXH32 streaming equals one-shot", "statement": "After XXH32_reset(seed), feeding a message through any sequence of XXH32_update calls and then calling XXH32_digest returns XXH32(message, seed).", "quantifier": "every message, every way of cutting it into consecutive pieces (empty pieces and NULL pieces included), any total length including beyond 2^32 bytes", "why_tests_cant": "The number of ways to chunk an input is exponential and the wrap of the internal 32-bit length counter needs 4 GB of data.", "anchors": ["xxhash.h: XXH32_reset, XXH32_update, XXH32_digest"]}
{"id": "C07", "title": "XXH64 streaming equals one-shot", "statement": "After XXH64_reset(seed), any sequence of XXH64_update calls followed by XXH64_digest returns XXH64(message, seed).", "quantifier": "every message shorter than 2^64 bytes, every cutting into pieces", "why_tests_cant": "Exponentially many chunkings.", "anchors": ["xxhash.h: XXH64_reset, XXH64_update, XXH64_digest"]}
{"id": "C08", "title": "XXH3 64-bit streaming equals one-shot for every reset variant", "statement": "After XXH3_64bits_reset / _reset_withSeed / _reset_withSecret / _reset_withSecretandSeed, any sequence of XXH3_64bits_update calls followed by XXH3_64bits_digest returns the value of the one-shot function with the same seed/secret.", "quantifier": "every message shorter than 2^64 bytes, every chunking, every seed, every secret of at least 136 bytes", "why_tests_cant": "Buffer/stripe/block boundary interaction (64, 256, 1024 bytes and secret dependent block lengths) cannot be enumerated.", "anchors": ["xxhash.h: XXH3_update, XXH3_consumeStripes, XXH3_digest_long, XXH3_64bits_digest, XXH3_64bits_reset*"]}
{"id": "C09", "title": "XXH3 128-bit streaming equals one-shot for every reset variant", "statement": "Same as the 64-bit statement for XXH3_128bits_reset*/update/digest.", "quantifier": "every message shorter than 2^64 bytes, every chunking, every seed, every secret of at least 136 bytes", "why_tests_cant": "As for the 64-bit variant.", "anchors": ["xxhash.h: XXH3_128bits_update, XXH3_128bits_digest, XXH3_128bits_reset*"]}
{"id": "C10", "title": "A streaming state behaves like a message buffer over its whole lifetime", "statement": "For any number of XXH3 states obtained from XXH3_createState, and any sequence of operations on them (all reset variants, including ones that report an error where that is defined behaviour, updates, 64- and 128-bit digests at any point, copyState between states), every digest equals the one-shot hash, with the seed/secret of the last successful reset of that state, of the bytes fed since then. In particular results never depend on what the state was used for before the reset. A reset_withSecretandSeed that reports an error changes nothing; after a reset_withSecret that reports an error the state counts as not reset.", "quantifier": "every finite history of API calls over any number of states", "why_tests_cant": "State reuse, secret caching across resets and copies form an unbounded history space.", "anchors": ["xxhash.h: XXH3_createState, XXH3_copyState, XXH3_64bits_reset_withSeed (cached secret), XXH3_reset_internal, XXH3_update, XXH3_*_digest"]}
{"id": "C11", "title": "XXH32/XXH64 states behave like a message buffer over their whole lifetime", "statement": "For any history of reset, update, digest and copyState over any number of XXH32 (XXH64) states, every digest equals the one-shot hash of the bytes fed since the last reset with that reset's seed; digest never changes the state; copies are independent.", "quantifier": "every finite history of API calls over any number of states", "why_tests_cant": "Unbounded history space.", "anchors": ["xxhash.h: XXH32_reset/update/digest/copyState, XXH64_reset/update/digest/copyState"]}
{"id": "C12", "title": "No out-of-bounds or misaligned memory access in one-shot hashing", "statement": "One-shot functions read only bytes inside [input, input+len) and inside the secret [secret, secret+secretSize), and dereference wide pointers only where the build's alignment contract holds; they never touch other memory.", "quantifier": "every length including 0 (NULL input), every address, every secret of at least 136 bytes", "why_tests_cant": "Sanitizers only see executed lengths/alignments.", "anchors": ["xxhash.h: all XXH_read*/XXH_readLE* call sites in XXH32/XXH64/XXH3 one-shot paths"]}
{"id": "C13", "title": "No out-of-bounds access in streaming", "statement": "update/digest never read outside the caller's piece, never write outside the state's internal buffer and never read secret bytes outside the secret, in any reachable state.", "quantifier": "every reachable streaming state, every piece length", "why_tests_cant": "Depends on reachable buffer fill levels and stripe counters over unbounded histories.", "anchors": ["xxhash.h: XXH32_update, XXH64_update, XXH3_update, XXH3_consumeStripes, XXH3_digest_long"]}
{"id": "C14", "title": "The hash does not depend on platform or build options", "statement": "For the same bytes, seed and secret, all builds (big/little endian, memory access method 0-3, XXH_SIZE_OPT 0-2, XXH_FORCE_ALIGN_CHECK on/off, XXH32_ENDJMP on/off, stream-on-stack on/off, 32/64-bit code paths, native or portable 64x64->128 multiplication) return identical hashes.", "quantifier": "every pair of build configurations, every input", "why_tests_cant": "Needs every platform times every input.", "anchors": ["xxhash.h: XXH_read32, XXH_readLE32, XXH_swap32, XXH_mult64to128, XXH3_len_9to16_128b, XXH_SIZE_OPT, XXH_FORCE_ALIGN_CHECK"]}
{"id": "C15", "title": "All vector back ends compute the same XXH3 accumulators as the scalar code", "statement": "SSE2, AVX2, AVX512, NEON (any lane split), VSX (both endiannesses) and SVE (any vector length, little endian) accumulate, scramble and seed-the-secret exactly like the scalar code, hence XXH3 results are identical.", "quantifier": "every accumulator value, every input stripe, every secret segment, every number of stripes", "why_tests_cant": "Each back end only runs on its own hardware; 512-bit operands cannot be enumerated.", "anchors": ["xxhash.h: XXH3_accumulate_512_*, XXH3_scrambleAcc_*, XXH3_initCustomSecret_*, XXH3_accumulate_*"]}
{"id": "C16", "title": "Portable 64x64->128 multiplication is exact", "statement": "The portable long multiplication, and the fold of its halves, equal the mathematical product (and the compiler's 128-bit type).", "quantifier": "all pairs of 64-bit operands", "why_tests_cant": "2^128 operand pairs.", "anchors": ["xxhash.h: XXH_mult64to128, XXH3_mul128_fold64"]}
{"id": "C17", "title": "Canonical representation round-trips and is big endian", "statement": "XXHn_canonicalFromHash writes the big-endian bytes of the hash on every CPU, XXHn_hashFromCanonical inverts it in both directions, for 32, 64 and 128-bit hashes.", "quantifier": "every hash value, every canonical byte array, both CPU endiannesses", "why_tests_cant": "2^128 values times platforms.", "anchors": ["xxhash.h: XXH32_canonicalFromHash, XXH32_hashFromCanonical, XXH64_*, XXH128_*"]}
{"id": "C18", "title": "XXH128_cmp is a total order, matches isEqual and the canonical byte order", "statement": "XXH128_cmp is antisymmetric, transitive, zero exactly when XXH128_isEqual reports equality, and its sign equals that of comparing the 128-bit numbers and of memcmp on the canonical forms; so it is a valid qsort/bsearch comparator.", "quantifier": "all pairs/triples of 128-bit hashes", "why_tests_cant": "2^256 pairs.", "anchors": ["xxhash.h: XXH128_cmp, XXH128_isEqual, XXH128_canonicalFromHash"]}
{"id": "C19", "title": "Seed 0 and the default secret are neutral", "statement": "_withSeed(seed=0) equals the unseeded function, and streaming with seed 0 equals the unseeded stream, for every length.", "quantifier": "every byte string, 64- and 128-bit variants, one-shot and streaming, every build option", "why_tests_cant": "Infinite domain.", "anchors": ["xxhash.h: XXH3_64bits_withSeed, XXH3_hashLong_64b_withSeed_internal, XXH3_initCustomSecret_scalar, XXH3_64bits_reset_withSeed"]}
{"id": "C20", "title": "XXH3_generateSecret_fromSeed yields the secret used internally by _withSeed", "statement": "XXH3_generateSecret_fromSeed writes exactly 192 bytes equal to the spec's deriveSecret(seed) on every platform; hashing more than 240 bytes _withSecret(that secret) equals hashing _withSeed(seed).", "quantifier": "every seed, every byte string longer than 240 bytes, both endiannesses", "why_tests_cant": "2^64 seeds.", "anchors": ["xxhash.h: XXH3_generateSecret_fromSeed, XXH3_initCustomSecret_*"]}
{"id": "C21", "title": "XXH3_generateSecret contract", "statement": "With a non-NULL buffer of secretSize >= 136 and (customSeed non-NULL or customSeedSize == 0), XXH3_generateSecret returns XXH_OK, overwrites exactly the secretSize bytes with a value that is a function only of (secretSize, customSeed content), independent of previous buffer content and platform; customSeedSize == 0 is the same as passing the default secret; otherwise it returns XXH_ERROR and leaves the buffer untouched.", "quantifier": "every secretSize, every custom seed byte string, every previous buffer content", "why_tests_cant": "Unbounded sizes.", "anchors": ["xxhash.h: XXH3_generateSecret, XXH3_combine16"]}
{"id": "C22", "title": "XXH3-64 is the low half of XXH3-128 for 1-3 bytes and above 240 bytes", "statement": "For len in 1..3 or len > 240, XXH3_64bits* equals the low64 field of XXH3_128bits* with the same seed/secret.", "quantifier": "every such byte string, every seed, every secret of at least 136 bytes", "why_tests_cant": "Infinite domain.", "anchors": ["xxhash.h: XXH3_len_1to3_64b, XXH3_len_1to3_128b, XXH3_hashLong_64b_internal, XXH3_hashLong_128b_internal"]}
{"id": "C23", "title": "XXH32: localized changes are always detected", "statement": "Two messages of equal length that differ only inside one aligned 4-byte lane (or one trailing byte) always have different XXH32 values for the same seed; in particular any single-byte corruption is detected and 4-byte inputs never collide.", "quantifier": "every pair of such messages of every length, every seed", "why_tests_cant": "Pairs of messages of every length; a collision search proves nothing.", "anchors": ["xxhash.h: XXH32_round, XXH32_finalize, XXH32_avalanche"]}
{"id": "C24", "title": "XXH64: short-input and tail injectivity", "statement": "For the same seed, two messages of equal length that differ only inside one lane of the trailing (len mod 32) bytes, or 8-byte messages that differ at all, never collide under XXH64; for a fixed message shorter than 32 bytes distinct seeds give distinct hashes.", "quantifier": "every such pair of messages/seeds", "why_tests_cant": "2^128 pairs.", "anchors": ["xxhash.h: XXH64_finalize, XXH64_round, XXH64_avalanche"]}
{"id": "C25", "title": "XXH3 never collides on equal-length tiny inputs", "statement": "For the same seed and secret, distinct inputs of the same length never collide: up to 8 bytes for XXH3_64bits (and across lengths 1-3), up to 16 bytes for XXH3_128bits.", "quantifier": "every pair of inputs of the same length in range, every seed, every secret", "why_tests_cant": "2^128 .. 2^256 pairs.", "anchors": ["xxhash.h: XXH3_len_1to3_64b, XXH3_len_4to8_64b, XXH3_rrmxmx, XXH3_len_1to3_128b, XXH3_len_4to8_128b, XXH3_len_9to16_128b"]}
{"id": "C26", "title": "Distinct seeds never collide on tiny inputs", "statement": "For a fixed input, distinct seeds give distinct hashes: XXH32 below 16 bytes, XXH64 below 32 bytes, XXH3_64bits_withSeed up to 8 bytes.", "quantifier": "every input in range, every pair of seeds", "why_tests_cant": "2^128 seed pairs.", "anchors": ["xxhash.h: XXH32_finalize, XXH64_finalize, XXH3_len_0to16_64b"]}
{"id": "C27", "title": "Error reporting of the XXH3 reset functions", "statement": "reset functions return XXH_ERROR on NULL state, and the secret variants return XXH_ERROR on NULL secret or secretSize < 136, XXH_OK otherwise, without undefined behaviour; on error the state can be reset and used again.", "quantifier": "every secretSize, NULL/non-NULL combination, every prior state, debug and release builds", "why_tests_cant": "The release build turns assertions into compiler assumptions; a test on one compiler cannot show absence of UB.", "anchors": ["xxhash.h: XXH3_64bits_reset_withSecret, XXH3_64bits_reset_withSecretandSeed, XXH3_reset_internal, XXH_ASSERT"]}
{"id": "C28", "title": "NULL and empty updates", "statement": "update(NULL, 0) and zero-length updates leave the digest of the state unchanged and report XXH_OK.", "quantifier": "every reachable state of every algorithm", "why_tests_cant": "Every reachable state.", "anchors": ["xxhash.h: XXH32_update, XXH64_update, XXH3_update"]}
{"id": "C29", "title": "XXH3_createState/XXH3_freeState memory contract", "statement": "XXH3_createState returns NULL on allocation failure, else a 64-byte aligned block lying entirely inside the allocated block, whose back-pointer byte is outside the state; XXH3_freeState hands the allocator exactly the pointer it returned; NULL is accepted.", "quantifier": "every address the allocator may return, every state size", "why_tests_cant": "Allocator addresses are not controllable in tests.", "anchors": ["xxhash.h: XXH_alignedMalloc, XXH_alignedFree, XXH3_createState, XXH3_freeState"]}
{"id": "C30", "title": "x86 run-time dispatch picks only supported code and does not change results", "statement": "The dispatcher selects AVX2/AVX512 code only if CPU and OS report the needed features, never calls a missing entry on a CPU reporting SSE2 (or with scalar dispatch compiled in), and *_dispatch functions return the same value as the non-dispatched ones.", "quantifier": "every CPUID/XGETBV outcome, every dispatch build option, every input", "why_tests_cant": "CPUID outcomes cannot be enumerated on test machines.", "anchors": ["xxh_x86dispatch.c: XXH_featureTest, XXH_setDispatch, XXH_kDispatch, XXH3_64bits_dispatch ..."]}
{"id": "C31", "title": "xxhsum output lines parse back to what was printed", "statement": "A line printed by xxhsum (GNU or BSD/--tag style, big or little endian display, any algorithm, escaped or plain file name) is read back by xxhsum --check with the same algorithm, the same hash bytes and the same file name.", "quantifier": "every file name without NUL, every hash value, every algorithm, both line styles, both display endiannesses", "why_tests_cant": "File names and hashes are unbounded.", "anchors": ["cli/xxhsum.c: XSUM_printLine_GNU_internal, XSUM_printLine_BSD_internal, XSUM_parseLine, XSUM_parseLine1, XSUM_canonicalFromString"]}
{"id": "C32", "title": "File name escaping is invertible and keeps one record per line", "statement": "Escaping then unescaping a file name is the identity; the escaped form contains no newline or carriage return; on text without raw line breaks the unescaper accepts exactly the escaped forms; it works in place, never grows the text and touches nothing outside it.", "quantifier": "every byte string without NUL", "why_tests_cant": "Unbounded names.", "anchors": ["cli/xxhsum.c: XSUM_filenameNeedsEscape, XSUM_printFilename, XSUM_filenameUnescape, XSUM_lineNeedsUnescape"]}
{"id": "C33", "title": "xxhsum --check verdict", "statement": "XSUM_checkFile follows the meaning of the checksum file line by line and reports success exactly when the whole file was processed, at least one line names a file, no checksum mismatches, no listed file is missing (unless ignored), no line is malformed under --strict, and with --ignore-missing at least one file verified; comments never influence it; a read error of a listed file ends the program with exit code 1; several checksum files give exit code 0 exactly if each succeeds.", "quantifier": "every check file content, every file system content, every option combination", "why_tests_cant": "Unbounded check files.", "anchors": ["cli/xxhsum.c: XSUM_checkFile, XSUM_parseFile1, XSUM_getLine"]}
{"id": "C34", "title": "xxhsum numeric option parsing never wraps", "statement": "Reading a number with optional K/M suffix either reports overflow or returns the exact mathematical value, and never silently wraps.", "quantifier": "every argument string", "why_tests_cant": "Unbounded strings.", "anchors": ["cli/xxhsum.c: XSUM_readU32FromCharChecked"]}
{"id": "C35", "title": "File hashing does not depend on how the OS delivers data", "statement": "The hash xxhsum prints for a file equals the one-shot hash of its content (default seed) whatever sizes fread returns.", "quantifier": "every file content, every sequence of read sizes, every algorithm", "why_tests_cant": "Read-size schedules are unbounded.", "anchors": ["cli/xxhsum.c: XSUM_hashStream, XSUM_hashFile"]}
{"id": "C36", "title": "xxhsum benchmark selection stays in bounds", "statement": "-b# only ever marks entries inside the benchmark table, whatever number is given.", "quantifier": "every argument string", "why_tests_cant": "Unbounded strings; the failing values lie above 2^31.", "anchors": ["cli/xxhsum.c: XSUM_main case 'b'", "cli/xsum_bench.c: g_testIDs"]}
{"id": "C37", "title": "Reading checksum lines", "statement": "The line reader returns consecutive lines of the file in order without newline, classifies lines starting with '#' as comments, never writes outside its buffer, reports end of file only at the end, and rejects lines that do not fit 32 KB.", "quantifier": "every file content, every initial buffer size", "why_tests_cant": "Unbounded content and buffer growth schedule.", "anchors": ["cli/xxhsum.c: XSUM_getLine"]}
{"id": "C38", "title": "Which checksum lines are accepted, and what they mean", "statement": "The line parser of xxhsum --check accepts a line exactly if the grammar of the two documented formats gives it a meaning, returns exactly that meaning (algorithm, digest, file name), the grammar is unambiguous, and no line makes the parser read or write outside the line buffer.", "quantifier": "every line without NUL, both display endiannesses, every set of accepted algorithms, every content of the buffer behind the line", "why_tests_cant": "The set of malformed lines is unbounded; in-place modification bugs depend on positions of separators.", "anchors": ["cli/xxhsum.c: XSUM_parseLine, XSUM_parseLine1, XSUM_canonicalFromString, XSUM_filenameUnescape"]}
{"id": "C39", "title": "A listing verifies", "statement": "If xxhsum lists files and its output is later given to xxhsum --check (same display convention), every listed file gets exactly the outcome it deserves: OK if its hash is unchanged, FAILED if the hash changed, could-not-open if it is gone; the verdict is success exactly if all (non-ignored) files still have the same hash and at least one has.", "quantifier": "every list of file names the format can express (any bytes but NUL, not 'stdin', line at most 32767 bytes), every content before and after, every algorithm, convention, endianness and option combination", "why_tests_cant": "Unbounded names (escaping), contents and lists; two unrelated file system states.", "anchors": ["cli/xxhsum.c: XSUM_hashFiles, XSUM_checkFile"]}
{"id": "C40", "title": "Output control of xxhsum --check", "statement": "--quiet, --status and --warn never change the verdict; --quiet drops exactly the OK lines; --status suppresses everything except the no-file-was-verified message of --ignore-missing.", "quantifier": "every check file, file system content and option combination", "why_tests_cant": "Unbounded check files and option combinations.", "anchors": ["cli/xxhsum.c: XSUM_parseFile1, XSUM_checkFile"]}
{"id": "C41", "title": "Meaning of an xxhsum command line", "statement": "Every command line has a meaning: options (several letters may share a dash, numbers with K/M suffixes) up to the first argument that does not start with a dash or `--`, then file names that are never taken for options; the first option that ends the program decides the exit code; otherwise the mode, the algorithm, the accepted algorithms and every flag follow from the set of options, the last -H/-i/-B/-b and the program's name.", "quantifier": "every argument list, every program path", "why_tests_cant": "Unbounded argument lists and strings.", "anchors": ["cli/xxhsum.c: XSUM_main, XSUM_lastNameFromPath, XSUM_readU32FromChar"]}
{"id": "C42", "title": "Whole runs of xxhsum", "statement": "From argv to exit code: `xxhsum options files` prints exactly the lines of the readable files and returns 0 iff all are readable; verifying that output with `xxhsum --check` later returns 0 iff no hash changed, no (non-ignored) file is missing and at least one was verified.", "quantifier": "every command line of that kind, every pair of file system states, every program name accepting the algorithm", "why_tests_cant": "Unbounded command lines, names, contents.", "anchors": ["cli/xxhsum.c: XSUM_main, XSUM_hashFiles, XSUM_checkFiles"]}
{"id": "C43", "title": "The published descriptions agree", "statement": "The Cryptol description (doc/xxhash.cry) and the text of the specification (doc/xxhash_spec.md) define the same XXH32 and XXH64 functions, and the C code computes them.", "quantifier": "every byte string (no length bound), every seed, every build", "why_tests_cant": "Two independent descriptions compared on infinitely many inputs.", "anchors": ["doc/xxhash.cry", "doc/xxhash_spec.md", "xxhash.h: XXH32, XXH64"]}
{"id": "C44", "title": "The self-test of xxhsum is exact", "statement": "XSUM_sanityCheck, which xxhsum runs for --version, -V and before benchmarks, succeeds on every correct build and memory layout, without undefined behaviour; its tests accept exactly the specified hash of the test data and end the program with code 1 otherwise.", "quantifier": "every build configuration, every placement and previous contents of buffers and states, every expected value", "why_tests_cant": "One run covers one build on one machine; the claim covers all builds, addresses and memory contents.", "anchors": ["cli/xsum_sanity_check.c: XSUM_sanityCheck, XSUM_testXXH32, XSUM_testXXH64, XSUM_testXXH3, XSUM_testXXH3_withSecret, XSUM_testXXH128, XSUM_testXXH128_withSecret, XSUM_testSecretGenerator, XSUM_XXH3_randomUpdate, XSUM_fillTestBuffer"]}
{"id": "C45", "title": "Dispatched functions may be called from many threads", "statement": "On x86 memory (store buffers, indivisible aligned pointer accesses) any number of threads may call the dispatched functions at the same time, including the first calls that fill the dispatch tables: no thread calls through NULL, every call returns the specified hash (updates continue their streams), no call waits for another thread, and when all processors select the same kind every call uses it.", "quantifier": "every number of threads, every sequence of calls, every interleaving, every order and repetition of the table stores, every delay of store buffers", "why_tests_cant": "The race lasts a few instructions at the first call; interleavings and store-buffer delays cannot be enumerated by running.", "anchors": ["xxh_x86dispatch.c: XXH_setDispatch, XXH3_hashLong_64b_defaultSecret_selection, XXH3_hashLong_64b_withSeed_selection, XXH3_hashLong_64b_withSecret_selection, XXH3_64bits_update_dispatch, XXH3_hashLong_128b_*_selection, XXH3_128bits_update_dispatch, XXH_DISPATCH_MAYBE_NULL"]}
{"id": "C46", "title": "What the hashes do not guarantee", "statement": "No seed and no secret rules out collisions, and the guarantees C23-C26 cannot be extended: for every seed there are messages of every length from 32 in which flipping one bit leaves XXH64 unchanged; for every seed there are 2^32 (long inputs, 64- and 128-bit XXH3) or 2^64 (32 or 48-240 bytes, 64-bit XXH3) different messages with one hash, and colliding pairs of 16 bytes (64-bit) and 32 bytes (128-bit); likewise for every secret.", "quantifier": "every seed, every secret of at least 136 bytes, every length in the stated ranges, arbitrary surrounding bytes, two arbitrary builds", "why_tests_cant": "A test can show one collision for one seed; that every seed and secret has them, in every length, is a statement about all.", "anchors": ["xxhash.h: XXH64_round, XXH64_mergeRound", "xxhash.h: XXH3_mix16B, XXH3_mul128_fold64, XXH128_mix32B", "xxhash.h: XXH3_accumulate_512_scalar, XXH3_len_9to16_64b"]}
{"id": "C47", "title": "Exactly uniform hash values", "statement": "Every hash value is taken equally often: XXH32 on messages of any length from 4 has exactly 256^(len-4) preimages of every value, XXH64 on messages of any length with len mod 32 >= 8 exactly 256^(len-8), XXH3_64bits on 8 bytes and XXH3_128bits on 16 bytes exactly one, for every seed and secret. For a fixed short message every value is given by exactly one seed.", "quantifier": "every length in range, every seed, every secret of at least 136 bytes, every value, every build, every address", "why_tests_cant": "Counting preimages among 256^len messages.", "anchors": ["xxhash.h: XXH32_endian_align, XXH64_endian_align", "xxhash.h: XXH3_len_4to8_64b, XXH3_len_9to16_128b"]}
{"id": "C48", "title": "The benchmark measures what it says", "statement": "The benchmark of xxhsum does nothing undefined and ends on every machine that is not too fast for its 32-bit counter. Every selected test reports under the name of the function that was called; each round summed up exactly that hash over the stated data for the seeds 0, 1, ...; exactly as many rounds counted as were asked for; the reported time per hash is that of the fastest of them up to a relative error of 2^-50. Files up to 1856 MB are measured as a whole. The exact limits are proved too: sizes that wrap a 32-bit size_t, a null pointer used before its check when memory for a file is missing, an undefined conversion in terse quick mode, and clocks or allocators on which the program does not end.", "quantifier": "every size, every selection of tests, every file, every clock that does not run backwards, every rounding of double that is correct to 53 bits, every address, every build", "why_tests_cant": "The outcome depends on the clock, on the rounding and on the allocator, none of which a test controls; termination is a statement about all machines.", "anchors": ["cli/xsum_bench.c: XSUM_benchHash, XSUM_benchMem, XSUM_benchFiles, XSUM_benchInternal", "cli/xsum_bench.c: XSUM_findMaxMem, XSUM_selectBenchedSize, g_hashesToBench, k_testIDs_default"]}
{"id": "C49", "title": "The collision tester counts exactly the collisions", "statement": "For a request it accepts, the collision tester (tests/collisions) hashes as many messages as asked for, all different, of the size asked for, each a change of 1 to 14 bits of a common one, and reports exactly how many of their hashes occurred before; with and without filter, with any number of threads, for all seven hashes. The counts for the high bits alone are exact too. It does nothing undefined apart from shifts by a negative number and ends in an error or an abort only for stated reasons. The names, numbers and units of its arguments are read exactly. The limits are proved: the default mode shifts by -1, small filters do too, a filter can abort on a sound request, and --seed=N sets the seed to 0.", "quantifier": "every request (size, number of hashes up to 2^35, seed, filter size, threads), every outcome of the allocations, every sorting function that sorts, every rounding of double correct to 53 bits, every address", "why_tests_cant": "The tester is itself a test: a hash lost by the filter, a sample made twice or a miscounted collision looks like a better or worse hash. Real runs take hours and their true counts are unknown.", "anchors": ["tests/collisions/main.c: search_collisions, Filter_insert, Filter_reduce, Filter_check, update_sampleFactory, enoughCombos, select_nbh, readU64FromChar, main", "tests/collisions/hashes.h: hashfnTable", "tests/collisions/sort.cc"]}
{"id": "C50", "title": "The thread pool runs every job once", "statement": "The thread pool of the collision tester (tests/collisions/pool.c), however its threads are scheduled, whoever a signal wakes, and with spurious wakeups: does nothing undefined; at most one thread holds the mutex; jobs start in the order they were accepted, each once, on no more workers than the limit; no worker sleeps over work it may do; no job is lost; there is no deadlock and no endless work, so all jobs end and all calls return; when POOL_free has returned all jobs handed over have been run and nobody uses the pool. The sum made by the collision tester does not depend on the order. Limits: POOL_resize does not wake waiting pushers, the test for a full queue fails after resizing down, the size of the queue can overflow, POOL_free during POOL_add uses freed memory.", "quantifier": "every number of threads, queue size and number of client threads, every interleaving, every choice of the woken thread, every spurious wakeup, every failing thread creation, calls of POOL_add, POOL_tryAdd and POOL_resize in any order", "why_tests_cant": "Interleavings cannot be enumerated by running; a lost wakeup or a race shows once in a very long time, and the absence of deadlock is a statement about all of them.", "anchors": ["tests/collisions/pool.c: POOL_create, POOL_thread, POOL_join, POOL_free, POOL_resize_internal, isQueueFull, POOL_add_internal, POOL_add, POOL_tryAdd", "tests/collisions/threading.h", "tests/collisions/main.c: 1100-1130"]}
{"id": "C51", "title": "What can be read from the output of a verification", "statement": "A program that reads the standard output of `xxhsum --check` line by line, taking lines ending in `: OK` and `: FAILED` as verdicts and undoing the escapes, reads exactly the files verified, in order, with the right verdict (with --quiet only the failures), whatever their names are; after a successful run this needs no condition at all, otherwise the names of missing files, the name of the checksum file and the system's error texts must have no line break. Numbers are decimal. Limit: the message about a missing file shows its name unescaped, so that a checksum file can forge an OK line of a file that was not verified (in a run that fails).", "quantifier": "every checksum file and every set of files, every name, every option set without --status, every behaviour of reading and of memory", "why_tests_cant": "Names are arbitrary bytes and can look like other lines of the output; only a proof covers all of them, and the tests contain no such names.", "anchors": ["cli/xxhsum.c: XSUM_parseFile1 (888-968), XSUM_checkFile (1029-1063), XSUM_printFilename"]}
{"id": "C52", "title": "xxhsum as a whole ends with the right exit code", "statement": "Every run of xxhsum without benchmarks ends, with exit code 0 or 1 and without undefined behaviour, whatever the command line (within the bounds of C36), the files and checksum files, their names, the way they are delivered, read errors and failing allocations; options that end the program decide the exit code, the first of them counts, and the self-test that runs before --version and before benchmarks passes. A run with benchmarks makes exactly the reports of the tests selected on the command line, on the number of zero bytes given or on the first bytes of every file, ends with 0 on a machine that is not too fast, and its only other exit codes are 11 (file cannot be opened), 12 (no memory) and 13 (file shorter than reported).", "quantifier": "every command line of the grammar, every file system contents, every pattern of reads and allocations, every build configuration; for benchmarks every clock that does not go back", "why_tests_cant": "The combinations of options, files and failures are unbounded, and failing allocations and read errors are not produced by tests.", "anchors": ["cli/xxhsum.c: XSUM_main (1211-1370), XSUM_hashFiles, XSUM_checkFiles", "cli/xsum_bench.c: XSUM_benchInternal, XSUM_benchFiles", "cli/xsum_sanity_check.c: XSUM_sanityCheck"]}
{"id": "C53", "title": "Every build the preprocessor chooses is one the theorems cover", "statement": "For every set of predefined macros that is true of the target, a default build (and one with truthful options) has the byte order right, selects a vector kind whose code is correct there, a memory access method that is defined there, an even number of NEON lanes from 2 to 8 and alignments that its vector code needs; so any two default builds compute the same XXH32, XXH64 and XXH3 hashes without undefined behaviour, and a default build of the x86 dispatcher is right on every processor that has what the compiler was told. The single exception is SVE on big-endian AArch64, which is selected and wrong. The header with the intrinsics of the selected kind is included.", "quantifier": "every combination of about 45 predefined macros and 11 command-line macros, every byte order, every width of size_t from 16 to 64 bits, every address of the local arrays allowed by their declared alignment, every input and seed", "why_tests_cant": "Tests run the handful of compilers and machines at hand; the #if chains have astronomically many combinations of macros, and a wrong choice only shows on the machine concerned.", "anchors": ["xxhash.h: XXH_FORCE_MEMORY_ACCESS, XXH_SIZE_OPT, XXH_FORCE_ALIGN_CHECK (2279-2306), XXH_CPU_LITTLE_ENDIAN (2641-2671), XXH_ALIGN (1690-1701), XXH_VECTOR (3895-3931), XXH_ACC_ALIGN, XXH_SEC_ALIGN (3937-3964), XXH3_NEON_LANES (4112-4119), XXH_VSX_BE (4167-4177), XXH_mult64to128 (4366-4402)", "xxh_x86dispatch.c: 96-252"]}
{"id": "C54", "title": "What xxhsum writes, on which stream, and what silence means", "statement": "Hashing files writes, in the order of the files, one line on standard output for every file that is hashed and one message on standard error for every other; standard error is empty exactly if the exit code is 0. Verifying writes for each line of the checksum file its verdict (or, with --warn, a warning), then the reason if it is given up, then the totals; standard output is byte for byte the report of C33, so that C51 applies to it. A run that fails has written something, except for --check with --status. --warn only adds to standard error, --strict changes nothing that is written. Help, version and usage errors go to standard error, and the help names the algorithm that is used by default.", "quantifier": "every file system contents, read pattern, read error and allocation failure, every list of names, every combination of options, every text of strerror", "why_tests_cant": "Tests compare a few outputs; which messages appear, in which order and on which stream depends on unbounded combinations of lines, files, failures and options.", "anchors": ["cli/xxhsum.c: XSUM_hashStream (250-310), XSUM_hashFile (398-473), XSUM_parseFile1 (800-957), XSUM_checkFile (976-1070), XSUM_usage, XSUM_usage_advanced, XSUM_badusage, errorOut (1101-1152), XSUM_main (1211-1370)", "cli/xsum_output.c: XSUM_log, XSUM_output"]}
{"id": "C55", "title": "The sanity test accepts exactly the specified values, on every platform", "statement": "The test program tests/sanity_test.c reports success if and only if every entry of its tables is the value the specification gives for the test data (one-shot, streamed in one piece, byte by byte and in random pieces, with seed, secret, both, and generated secrets); with any wrong entry it exits with 1, and nothing else can happen. The generator of the tables writes the specified values for every length below 4161, so tables written by any build are accepted by any build. The loop that draws random lengths ends for every length from every odd state, and the constants at which the parts of the test restart the random numbers are those of one sequence. Limits: the number of tests reported is not the number of entries (XXH3 with secret is counted twice), and a generator with a 32-bit size_t truncates the seeds of XXH3, so its file is another one.", "quantifier": "every table of entries within the test data (correct or not), every build and byte order for the test and for the generator, every previous contents of states and buffers, every odd state of the random numbers, every length", "why_tests_cant": "the test program is itself the test: running it says nothing about which wrong tables it would accept, about other platforms, or about whether its random loop always ends (a piece may have length zero)", "anchors": ["tests/sanity_test.c:177-803", "tests/sanity_test_vectors_generator.c:63-464"]}
{"id": "C56", "title": "xxhsum on Windows: the right files, lists that verify, and what a console shows", "statement": "On Windows, the file named on the command line is the file opened (the name goes to UTF-8 and back without change, for every well-formed name), the conversions stay inside their buffers and without memory nothing is opened. A list of files, stored in text mode and verified in text mode, gives every file the outcome it deserves and succeeds exactly if nothing changed. What is printed to a file is the line with \\r\\n; to a console exactly the line if the name needs no escaping or is ASCII. Findings: a name that is not well-formed UTF-16 opens another file; a name with a backslash and characters outside ASCII is not shown; a list written on Windows does not verify on a system without text mode.", "quantifier": "every name, every contents of the disks, every conversion function that is right for well-formed text, every answer of malloc, every set of options", "why_tests_cant": "Tests run on a few names on one version of Windows, if at all; that no name, list or allocation failure leads elsewhere needs all of them.", "anchors": ["cli/xsum_os_specific.c:156-442, 499-512", "cli/xxhsum.c:108-146, 223-237, 313-385, 420, 878, 1000"]}
{"id": "C57", "title": "The benchmark program of the tests measures what it shows", "statement": "The benchmark program of the tests reads numbers and settings as documented, the last setting of a kind counts, and the first argument that is no setting ends it with the right code and nothing hashed. It prints exactly the tables asked for, one row for each selected hash function and one cell for each size. For each cell, inputs of exactly that size (or random sizes up to it) were hashed inside the buffer, with the specified results, for at least the time required; the number is that of the last run, of at least half the time of a run, correct to 48 bits. Spans of time are exact modulo 2^64. Findings: --mins=0 divides by zero, --maxl=31 or more and missing memory end in an assertion, a clock that goes back makes a conversion undefined, one that stands still an assertion fail, the span of ticks on Windows wraps after half an hour, and the result is not that of the fastest run.", "quantifier": "every command line, every valid build, every clock, every rounding correct to 53 bits, every random generator and every answer of malloc", "why_tests_cant": "It is itself a test program that nothing tests; its result depends on the clock, on rounding and on memory, of which a run sees one sequence.", "anchors": ["tests/bench/main.c:50-220", "tests/bench/bhDisplay.c:43-160", "tests/bench/benchHash.c:36-166", "tests/bench/benchfn.c:107-253", "tests/bench/timefn.c:42-133", "tests/bench/hashes.h:69-118"]}
{"id": "C58", "title": "Streams of 2^64 bytes and more", "statement": "Without any bound on the total length: an XXH64 stream gives the specified hash of the concatenated chunks (length added modulo 2^64) except when the message has at least 2^64 bytes and at most 31 more than a multiple of 2^64; an XXH3 stream (64 and 128 bits, every reset) except when it has at least 2^64 bytes and at most 240 more than a multiple. In the excepted cases the digest takes the message for a short one. XXH64 then uses the third of its four accumulators only, so messages that agree in bytes 16-23 of every 32 and in the tail collide for every seed; XXH3 gives the hash of that many bytes left in its buffer, so every message of exactly 2^64 bytes has the hash of the empty message.", "quantifier": "every valid build, seed, secret, state object and every sequence of readable chunks of any total length", "why_tests_cant": "A run over 2^64 bytes takes decades; the tests stop at a few kilobytes.", "anchors": ["xxhash.h:1680", "xxhash.h:1766", "xxhash.h:3640-3665", "xxhash.h:6418-6450", "xxhash.h:6918-6945"]}
{"id": "C59", "title": "What xxhsum --version says about the machine and the compiler", "statement": "`xxhsum --version` writes name, version 0.8.3 and author, then the word size and byte order of the machine, the architecture and the compiler, on standard error only. In a default build without dispatcher the vector unit it names is the one whose code is compiled in: on x86 AVX512 and AVX2 exactly, AVX and SSE2 for the SSE2 code, none for the scalar code; on ARM SVE exactly and NEON if the macros say NEON and little-endian; on 64-bit PowerPC with GCC exactly; on WebAssembly if arm_neon.h was found. Version numbers of Visual Studio and tcc are decoded rightly. Findings, where text and code differ: XXH_VECTOR given on the command line, x86-64 without SSE2, AVX without AVX2, big-endian AArch64, POWER8 without GCC, s390x with vectors, WebAssembly without the header, ARMv7 without misaligned accesses, and ARM compilers without __ARM_ARCH.", "quantifier": "every combination of predefined macros that belongs to one machine, every option, target, environment and command line with --version", "why_tests_cant": "Each run sees the macros of one compiler with one set of options, and nothing in the tests compares the text with the code selected.", "anchors": ["cli/xsum_arch.h:35-166", "cli/xxhsum.c:60-75", "cli/xxhsum.c:1252", "xxhash.h:3895-3931"]}
{"id": "C60", "title": "XXH3 streaming in a program that reuses its memory", "statement": "The state keeps a pointer to the secret of the caller, not a copy. For every program with any number of states that resets, feeds, copies and digests them, and between the calls changes and releases its memory in any way: if inputs can be read when they are fed, and the secret given at a reset is in place with the same bytes at every update and digest of that state and of its copies, then every call is defined, and every digest is the specified hash of the bytes that were behind the pointers when they were fed. Inputs may be changed or released as soon as the call returns; a released secret does not hinder a new reset. The secret is not read before the digest while no more than 256 bytes are fed, and not at all for up to 240 bytes with a secret and a seed; these limits are exact. A secret released too early makes the digest undefined, also that of a copy of the state; a secret changed midway gives a hash that belongs to neither secret.", "quantifier": "every valid build, every program, number of states and sequence of contents of memory", "why_tests_cant": "Whether a released or changed object is still read shows only under a checker of memory, in the runs tried; the tests keep all inputs and secrets alive throughout.", "anchors": ["xxhash.h:1297", "xxhash.h:1505", "xxhash.h:1776", "xxhash.h:6159-6234", "xxhash.h:6288-6382", "xxhash.h:6423-6438"]}
{"id": "C61", "title": "The state objects as bytes", "statement": "For every ABI considered (size_t of 2 to 8 bytes, pointers of 2 to 16 bytes, any alignments that divide the sizes, with or without XXH_ALIGN) the compiler's layout of the structs is what the code assumes: acc, customSecret and buffer of XXH3_state_t are at offsets 0, 64 and 256, members are apart and inside the object, every state of an array is aligned if the first one is, the XXH32 and XXH64 states have 48 and 88 bytes without padding, XXH128_hash_t has no padding, and the static assertions on the canonical types hold. On these bytes, in either byte order, the memset from bufferedSize up to nbStripesPerBlock with the assignments after it, the resets (default, seed, secret, secret and seed), XXH3_INITSTATE or a memset of the whole object, XXH32_reset, XXH64_reset and the memcpy of copyState have exactly the effect on the members that the streaming model gives them; a reset of XXH3 leaves reserved64, customSecret (without seed) and the buffer as they were, a reset of XXH32 and XXH64 leaves nothing.", "quantifier": "every ABI considered, every byte order, every contents of the object, every seed, secret address and secret size", "why_tests_cant": "Tests run on the ABIs at hand; a member outside the range of the memset or an overlap would show only on a target with other alignments, or for junk that happens to matter.", "anchors": ["xxhash.h:1655-1800", "xxhash.h:1365-1368", "xxhash.h:3128-3143", "xxhash.h:3574-3589", "xxhash.h:6159-6234", "xxhash.h:3226", "xxhash.h:3669", "xxhash.h:6979"]}
{"id": "C62", "title": "Including the headers", "statement": "Any sequence of inclusions of xxhash.h and xxh_x86dispatch.h, with XXH_INLINE_ALL, XXH_PRIVATE_API, XXH_STATIC_LINKING_ONLY, XXH_IMPLEMENTATION and XXH_NAMESPACE defined and undefined in between, preprocesses without conflicting macro definitions (unless XXH_IMPLEMENTATION has the value 1 and something is inlined) and defines no type twice. Without inlining and with XXH_NAMESPACE fixed before the first inclusion, every function of the interface stands for its name with the prefix, is declared at most once and, in the unit with XXH_IMPLEMENTATION, defined exactly once; every other unit with that prefix links against it; libraries with different prefixes share no symbol. With XXH_INLINE_ALL after any earlier inclusions other than the implementation, each function is declared and defined once, static, under a prefix of its own, and nothing is exported. After xxh_x86dispatch.h the replaced names stand for the functions xxh_x86dispatch.c exports, which collide with no build of xxhash.c. Findings: late or changed XXH_NAMESPACE, the implementation without the advanced part or before inlining, the dispatcher with inlining or with two libraries.", "quantifier": "every sequence of definitions and inclusions, every prefix, every function of the interface", "why_tests_cant": "The compile and symbol tests of the project try a few fixed orders of inclusion and one prefix; the orders in which headers meet in users' projects are unlimited.", "anchors": ["xxhash.h:326-437", "xxhash.h:443-517", "xxhash.h:1623-1628", "xxhash.h:2037-2073", "xxh_x86dispatch.h:35-83", "xxh_x86dispatch.c:229-231"]}
{"id": "C63", "title": "Threads", "statement": "In a program with any number of threads whose accesses to memory interleave in any way (also in the middle of calls), if no thread writes what another one uses (states, input), then every thread gets exactly the answers it would get alone - for XXH32, XXH64 and XXH3 streaming the documented codes and the specified hashes of the bytes it fed - nothing is undefined, there is no data race, and each thread ends after as many accesses as it makes alone, without waiting. Several threads may read the same input, take digests of the same state and copy the same state, and hash the same memory with one-shot functions. This holds for all machine code that has the effect of the calls and touches only the state and the input. Threads that update one state without taking turns can lose input.", "quantifier": "every number of threads, every program of each thread, every interleaving of accesses, every code with the footprint of the calls, all contents of memory", "why_tests_cant": "The number of interleavings is astronomical and tests see few of them.", "anchors": ["xxhash.h:4284", "xxhash.h:4299-4300", "xxhash.h:3097-3228", "xxhash.h:3543-3671", "xxhash.h:6159-6438"]}
{"id": "C64", "title": "Overlapping arguments", "statement": "When the buffer and the custom seed of XXH3_generateSecret are parts of one object, the call is defined if and only if the copied bytes of the seed (the first secretSize at most) are apart from the buffer. If the whole seed is apart, the result is the documented secret and nothing else changes. In particular a seed cannot be scrambled in place. If the buffer lies behind the first secretSize bytes of the seed, nothing is undefined, but the seed is overwritten before it is hashed, and the result is the secret of another seed. A seed of no bytes may point anywhere. A buffer shorter than 136 bytes is refused with nothing touched. copyState is defined exactly for states that do not overlap, as its documentation demands.", "quantifier": "every build, every object and contents, every position and size of buffer and seed", "why_tests_cant": "Overlap of the arguments of memcpy usually has no visible effect where it is tested, and there are unboundedly many positions and sizes.", "anchors": ["xxhash.h:7013-7055", "xxhash.h:3128-3131", "xxhash.h:3574-3577", "xxhash.h:6159-6163", "xxhash.h:685", "xxhash.h:960", "xxhash.h:1236"]}
