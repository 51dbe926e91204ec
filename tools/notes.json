{
"C01": [
"proved",
"All builds, all inputs, all seeds."
],
"C02": [
"proved",
"All builds, all inputs, all seeds."
],
"C03": [
"proved",
"Default, seeded and custom-secret 64-bit hashes; all builds and back ends, all lengths, secrets of at least 136 bytes."
],
"C04": [
"proved",
"Default, seeded and custom-secret 128-bit hashes and XXH128; all builds and back ends, all lengths."
],
"C05": [
"proved",
"Both length cases and the fromSeed case, 64 and 128 bits."
],
"C06": [
"proved",
"Any split, any prior state contents, no length limit."
],
"C07": [
"proved",
"Any split, any prior state contents, messages below 2^64 bytes."
],
"C08": [
"proved",
"All four resets, any chunking, any build, any aligned memory as state; only reset_withSeed needs an initialised state (C08_withSeed_needs_init shows why). The secret object must stay unchanged while the state uses it."
],
"C09": [
"proved",
"As C08, 128-bit digest."
],
"C10": [
"proved",
"Any number of states, any interleaving, including resets that report an error. Messages below 2^64 bytes. The external secret object must stay unchanged while a state uses it."
],
"C11": [
"proved",
"Any number of states and any interleaving of calls."
],
"C12": [
"proved",
"Objects have exactly the announced size; any access outside is the outcome none."
],
"C13": [
"proved",
"Every allowed history over XXH32, XXH64 and XXH3 states, without any length limit; the model returns none on any access outside an object, misaligned access or violated assertion."
],
"C14": [
"proved",
"Any two valid builds and any two placements of the data."
],
"C15": [
"proved",
"All back ends against the scalar code. Big-endian SVE, which the selection code lets through, is refuted by C15_sve_big_endian_differs."
],
"C16": [
"proved",
"Against the product of natural numbers and against the 128-bit type."
],
"C17": [
"proved",
"32, 64 and 128 bits, both directions, writer and reader on different builds."
],
"C18": [
"proved",
"Order, equality and memcmp order of canonical forms."
],
"C19": [
"proved",
"One-shot and streaming."
],
"C20": [
"proved",
"Both hash sizes; that short inputs are excluded is necessary (C20_short_inputs_differ)."
],
"C21": [
"proved",
"Success and error cases, exact extent of the write, independence of build and old contents. The custom seed is a different object from the buffer."
],
"C22": [
"proved",
"With seed, with secret and default; other length classes are refuted by C22_other_lengths."
],
"C23": [
"proved",
"All lengths, seeds and pairs of valid builds: a change confined to one aligned 4-byte lane or to any single byte changes the XXH32 value; XXH32 is injective on 4-byte inputs."
],
"C24": [
"proved",
"Changes confined to one 8-byte lane, the 4-byte lane or any single byte after the last full 32-byte stripe; injective on 8-byte inputs. The seed half of the claim is C26_XXH64_seeds. Changes inside full stripes are not claimed (the merge step is not injective in one lane)."
],
"C25": [
"proved",
"64-bit up to 8 bytes (and across lengths 1-3), 128-bit up to 16 bytes, with default secret, any seed, any secret of at least 136 bytes."
],
"C26": [
"proved",
"XXH32 below 16 bytes, XXH64 below 32, XXH3_64 up to 8, also XXH3_128 up to 16."
],
"C27": [
"partial",
"Full for reset, reset_withSeed, reset_withSecretandSeed and for NULL states. For reset_withSecret the claim is false for sizes below 136 (C27_withSecret_small_undefined): XXH3_reset_internal asserts the size before it is checked; proved for sizes from 136 on (C27_withSecret_partial). C27_withSecret_error_forgets: the error leaves the state changed."
],
"C28": [
"proved",
"XXH32, XXH64, XXH3 (64- and 128-bit digests): OK is returned and no continuation can tell the states apart. update(NULL, n) with n > 0 is an assertion failure in the code and not covered."
],
"C29": [
"proved",
"Aligned allocation for every size, accepted alignment and allocator answer; all interleavings of creating, using and freeing states; no leak; XXH32/XXH64 create/free. Addresses are numbers below 2^sizeBits."
],
"C30": [
"proved",
"Feature test for every cpuid/xgetbv; every dispatch build; one-shot and streaming (any mix of dispatched and plain updates). Also C30_null_call_without_scalar: the documented exception is real. Threads are not modelled."
],
"C31": [
"proved",
"Printer and parser of XSUM_printLine_*/XSUM_parseLine; every name, digest, algorithm, convention and endianness. C31_format gives the exact text."
],
"C32": [
"proved",
"In-place unescaper with checked memory accesses."
],
"C33": [
"proved",
"Whole verification loop against a line-by-line semantics (Spec.Cli.Checks), including what is printed, determinism of that semantics, several files and failures. Finding: a read error of the checksum file itself is not noticed (C33_unreadable_check_file_accepted)."
],
"C34": [
"proved",
"Exact value or overflow; C34_largest_rejected shows that six representable values are rejected."
],
"C35": [
"proved",
"All read sizes, all contents below 2^64 bytes, all four algorithms; also standard input, failures and lists of files."
],
"C36": [
"partial",
"False for numbers from 2^31 to 4294967289 (C36_out_of_bounds, the property's negation with a witness). C36_exactly characterises all command lines with undefined behaviour; C36_in_bounds_partial is what remains."
],
"C37": [
"proved",
"Any starting buffer up to 32 KB, any contents, refused allocations included."
],
"C38": [
"proved",
"Both directions, against the grammar in Spec/Cli.lean."
],
"C39": [
"proved",
"Two arbitrary worlds, before and after; no read errors; names the format cannot express (stdin, lines over 32767 bytes) excluded."
],
"C40": [
"proved",
"C40_status_not_silent is the finding that --status together with --ignore-missing is not silent."
],
"C41": [
"proved",
"CommandLine is a grammar in Spec/CliArgs; every command line has a reading (C41_readable) and every reading predicts the run. Benchmarks are selected, not run."
],
"C42": [
"proved",
"No read errors, enough memory; names the format cannot express excluded as in C39."
],
"C43": [
"proved",
"Full. Cryptol module transcribed function by function (Spec/Cryptol); its 64/32-bit length argument wraps like the C code's."
],
"C44": [
"proved",
"Full for the self-test as compiled without XSUM_NO_TESTS. Known-answer tables and the lengths of the random walk are evaluated by the kernel; the rest follows from C01-C09, C20, C21."
],
"C45": [
"proved",
"x86-TSO machine model; C45_hybrid_processors shows that on machines whose processors differ the selected code may be unsupported on another processor."
],
"C46": [
"proved",
"Negative results, proved for all seeds and secrets. The lengths 17-31 and 33-47 of XXH3 are left out because there the first 16 bytes overlap the last 16."
],
"C47": [
"proved",
"XXH64 lengths with len mod 32 < 8 and XXH3 beyond 8/16 bytes are not claimed (C46 shows that XXH3 is not injective there)."
],
"C48": [
"proved",
"For every clock, rounding, allocator, size and selection; the hypotheses on the machine are stated in Props/BenchTerms and met by a concrete machine; limits proved with their exact conditions."
],
"C49": [
"proved",
"Model of tests/collisions (Model/Collide): sample generation (sparse and SLAB5), filter, storing, counting, threads, arguments. C49_collisions is exact for every accepted request up to 2^35 hashes with a 64-bit size_t; shifts by a negative number are a parameter of the machine (C49_shift shows that strict C leaves the default mode undefined). Jobs of the pool run one after the other."
],
"C50": [
"proved",
"Interleaving model of pool.c; a critical section is one step. Clients must not call once POOL_free has been called (limit C50_free_too_early shows why); sizes must not overflow (limit C50_queueSize_overflow)."
],
"C51": [
"proved",
"C51_readback and C51_success for checkFile, from the specification of C33 to the bytes; C51_forged is the limit. One checksum file at a time, standard output only."
],
"C52": [
"proved",
"C52_ends for runs without benchmarks; C52_stops for options that end the program; C52_program carries C42 over; C52_selftest: a build that fails its self-test neither shows its version nor measures; C52_bench, C52_bench_ends, C52_bench_files, C52_bench_codes for benchmarks. Out of scope: command lines with the out-of-range -b numbers of C36, -qq with benchmarks (see C48 for its limits), stderr messages."
],
"C53": [
"proved",
"The negative part (SVE on big-endian AArch64) is C53_sve_big_endian. C53_valid needs a compiler for which XXH_ALIGN does something (C11, C++11, GCC, Visual Studio) and, for VSX, one that announces big-endian memory and numbers vector elements natively (C53_altivec_be shows why)."
],
"C54": [
"proved",
"Trace of every byte written with its stream. C54_hash: the listing is exactly `listed`; C54_hash_stderr: standard error is empty exactly if the exit code is 0; C54_check: exact trace of a verification in terms of the outcomes of C33; C54_check_stdout links it to the report of C33/C51; C54_explained: no failure without a message except --check --status; C54_status: exactly when --status is silent; C54_warn, C54_strict: what these options change; C54_stops: help, version, usage. Findings: C54_hash_stops, C54_status_not_silent, C54_forged_message. Writes are assumed to succeed (the program ignores their results)."
],
"C55": [
"proved",
"sanity test and generator; findings: tests counted twice, seeds truncated to size_t in 32-bit generators"
],
"C56": [
"proved",
"Conversions are any functions right for well-formed text (C56_codec shows there is one); names without Ctrl-Z; findings C56_ill_formed, C56_other_file, C56_console, C56_crlf_gnu, C56_crlf_bsd are stated as theorems."
],
"C57": [
"proved",
"Benchmark program of the tests: command line, tables, cells, time and failures. fastestRun is never updated in the code, so the number is that of the last run (C57_not_fastest)."
],
"C58": [
"proved",
"The digest is determined at every length: the specified hash, or (listed lengths from 2^64 on) that of a short message, with the collisions that follow."
],
"C59": [
"proved",
"Default options; the findings (where text and code differ) are proved as theorems of their own. Macros of one machine at a time; C59_x86 asks for a macro of SSE2 wherever __x86_64__ or __AVX__ is defined, and C59_x86_no_sse2 says what happens otherwise."
],
"C60": [
"proved",
"C60_program for all programs; C60_secret_late and C60_seed_short for when the secret is read, C60_limits, C60_secret_freed and C60_secret_changed are concrete runs showing that the conditions are needed."
],
"C61": [
"proved",
"The structs are laid out by the rule common to ABIs; the theorems hold for all sizes and alignments in Abi.Valid, with and without XXH_ALIGN, and both byte orders. Updates and digests are modelled on members, not on bytes. That a null pointer is stored as zero bytes is assumed, as the code does where it suggests a memset."
],
"C62": [
"proved",
"For every sequence of inclusions and every prefix: no conflicting macros, no type twice, one name per function, what is declared, defined and exported, linking and separation of prefixes, inlining, dispatcher; several findings with exact witnesses."
],
"C63": [
"proved",
"Any number of threads, any interleaving of single accesses, any code with the effect and footprint of the calls: answers as alone, no undefined behaviour, no race, progress; one-shot functions on shared memory; a witness for a shared state."
],
"C64": [
"proved",
"All builds, positions and sizes. memcpy of overlapping ranges is undefined (C11). The tail case is a finding: defined, but the secret of another seed."
]
}