# Formal model of xxHash in Lean 4

## 1. Approach

* The C code is modelled function by function as total computable Lean functions in `lean/Verif/Model`.
  Each definition cites the file and lines it models.
* Undefined behaviour is a distinct outcome. Model functions return `Option _`; `none` means that the C code
  would read outside an object, dereference a misaligned wide pointer, write outside a buffer, violate an
  `XXH_ASSUME`, or loop for ever (loops carry fuel, running out of fuel is `none`).
  A theorem `model … = some v` therefore states memory safety, termination and the value at the same time.
* All compile-time choices are fields of a `Cfg` record and are universally quantified: CPU endianness,
  `XXH_FORCE_MEMORY_ACCESS`, `XXH_SIZE_OPT`, `XXH_FORCE_ALIGN_CHECK`, `XXH32_ENDJMP`, the multiplication
  code path, the vector back end, and so on.
* The specification lives in `lean/Verif/Spec` and is a transcription of `doc/xxhash_spec.md`
  (pure functions on byte lists). It does not import the model.
* Helper lemmas live in `lean/Verif/Proof`; property theorems live in `lean/Verif/Props`.

## 2. Property plan

| id | what is modelled | how it is proved |
|----|------------------|------------------|
| C01, C02 | XXH32/XXH64 one-shot with checked reads | `model = some spec`, loop lemmas by induction on the stripe count |
| C03, C04 | XXH3 64/128 for all length classes | `model = some spec`, one lemma per length class, generic over the back end |
| C05 | withSecretandSeed entry points | corollary of C03/C04 |
| C06, C07 | reset/update/digest of XXH32/XXH64 | representation invariant "state represents message xs"; induction over pieces |
| C08, C09 | XXH3 reset/update/digest | representation invariant over accumulators, internal buffer (including its last 64 bytes), stripe counter |
| C10, C11 | command interpreter over a store of states | refinement to "mode + list of bytes" by induction over the command list |
| C12, C13 | checked memory | `≠ none`, corollaries of the refinements |
| C14 | `Cfg` | every function equals a `Cfg`-free spec |
| C15 | each back end in terms of lane semantics of its intrinsics | lane-wise equality with the scalar loop |
| C16 | the three multiplication code paths | arithmetic on naturals |
| C17, C18 | canonical conversion and comparison | byte arithmetic |
| C19–C22 | secret derivation, secret generation, low-half relation | equalities on byte lists, corollaries of C03/C04 |
| C23–C26 | – | the mixing steps are bijections (odd multiplications, xor-shifts, rotations) |
| C27 | reset functions with `XXH_ASSERT` in both its meanings | case analysis; expected to be false for release builds of `reset_withSecret` (the assumption is made before the check): negation + `_partial` |
| C28 | update with NULL/empty input | direct |
| C29 | aligned allocation on a numeric address space | arithmetic |
| C30 | feature test and dispatch tables | case analysis; result equality from C15 |
| C31–C37 | the parts of `cli/xxhsum.c` that are pure logic | round trips, decision logic, invariants; C36 is expected to be false (signed cast): negation + `_partial` |
| C36, C41–C42 | the command line, `Props/CliMain` | grammar of arguments, declarative meaning of options, whole runs |
| C39–C40 | the same, `Props/CliEnd` | composition of listing and verification in two worlds; dependence of report and verdict on options |
| C43 | the Cryptol module `doc/xxhash.cry` | transcription in `Spec/Cryptol`, equality with `Spec/XXH32`, `Spec/XXH64` |
| C44 | xxhsum's self-test | each test reduced to the specification by C01–C09, C20, C21; the tables and the random walk evaluated by the kernel |
| C45 | dispatched functions in many threads | invariant over all interleavings of an x86-TSO machine: set fields stay set, buffered stores are all non-`NULL`, a thread about to call has its field set in memory or in its own buffer |
| C46 | limits of the hashes: explicit collisions for every seed and secret | a single-bit collision of XXH64 by solving one stripe for chosen accumulators; XXH3 products made zero by the input, on the specification, carried to the code by C02-C04 |
| C47 | exact uniformity | number of preimages of every value, by injectivity in as many bytes as the value has (C23-C26) and counting |
| C48 | the benchmark | the loop that adapts the number of calls as a transition on (calls, minimum, iteration) over any clock and any rounding correct to 53 bits; invariant on the minimum, measure for termination (the calls at least double); the reports against a table of names and specified hashes |
| C49 | the collision tester | the samples as the lexicographic enumeration of sets of 1 to 14 bits (refinement of the array of bit positions); the filter by an invariant on its bits (a hash seen twice has both bits in the upper half of its line), so that nothing that collides is dropped; sorting is any sorting; counts of threads add up because the low bits split the hashes; `double` binomials are exact below 2^53 |
| C50 | the thread pool of the collision tester | a transition system whose steps are critical sections; inductive invariant on the ring of the queue, the number of busy workers and the wakeups owed (a sleeper is only left asleep when somebody else is awake for it), progress from the invariant, and a lexicographic measure against endless work |
| C51 | reading the output of a verification, `Props/CliShow` | a reader of lines defined beside the theorem, applied to the bytes printed; the outcomes it must find are those of the specification `Checks` of C33 |
| C52 | xxhsum as a whole, `Props/CliProgram` | the command line is related to options by the grammar of `Spec/CliArgs`; conclusions are about the exit code, the absence of undefined behaviour and the reports of the benchmarks selected |
| C53 | compile-time selection | the `#if` chains as functions of the macros; a hypothesis that the macros are true of the target gives the validity (`Cfg.Valid`) of the build, and with it every other theorem; concrete compilers as values |
| C54 | messages of xxhsum, `Props/CliTrace`, `Props/CliTraceTerms` | every byte written is recorded with its stream, also before `exit`; the texts are written down again next to the outcomes of C33 and C35, and what silence and exit codes mean is derived from them |
| C55 | sanity test and its generator, `Props/SanityTest` | the tables are arguments; what they should contain is written down with the specification and the test data as powers of a prime; the program accepts exactly such tables (induction over each table); the end of the random loop by the order of the multiplier modulo 2^64 |
| C56 | xxhsum on Windows, `Props/Windows` | UTF-8 and UTF-16 are written down from the Unicode Standard (`Spec/Unicode`); the conversions of the system are any functions that are right for well-formed text (and, for findings, replace what is not); conclusions are about the files opened, the outcomes of C33 on two disks, and the code units a console receives |
| C57 | the benchmark program of the tests, `Props/TestBench` | which inputs were hashed, where in the buffer and with which results is a trace of calls, each compared with the specifications of C01–C04; the clock, the rounding of `double`, `rand` and `malloc` are arbitrary; numbers shown are compared with exact rationals |
| C58 | streams of any length, `Props/Wrap` | the invariants of C07–C09 hold without a bound on the length; only the digest looks at the length field, which is split into the lengths for which it still decides rightly and the others |
| C59 | the text of `--version`, `Props/Arch` | both chains of conditions over the same macros, compared machine by machine; the text is compared as bytes (`Says`: what it ends with) |
| C60 | XXH3 streaming by reference, `Props/Refs` | simulation: `Legal` says what a program may do and what it is promised, with messages and secrets as values; `Model/Refs.run` executes it with pointers into a memory that changes |
| C61 | state objects as bytes, `Props/Layout` | layout rule of the ABI as a function of sizes and alignments; refinement: the functions on bytes, seen through the members, are the functions of `Model/XXH3Stream`, `Model/XXH32`, `Model/XXH64` |
| C62 | including the headers, `Props/Include` | invariant over every sequence of inclusions: the macros that matter as a finite map, and what the unit declares and defines as a list of events; conclusions are about what names stand for, how often they are declared and defined, and what the linker sees |
| C63 | threads, `Props/Threads` | threads are trees of reads and writes, interleaved one by one; invariant: each thread is where it would be alone; the code of a call is any tree with the effect and the footprint of the call (`Implements`) |
| C64 | overlapping arguments, `Props/SecretOverlap` | buffer and seed are ranges of one object, `memcpy` of overlapping ranges is undefined; the fill loop is defined iff the copied bytes are apart from the buffer; reduction of the rest to C21 with the seed as it is after the loop |

## 3. Trusted base

* Lean's kernel and the three standard axioms (`propext`, `Classical.choice`, `Quot.sound`).
* The reading of the C source as cited in every definition.
* The lane semantics of the vector intrinsics (documented where they are defined).
* Object sizes: pointer differences and `size_t` sums over existing objects do not wrap, because no object is
  larger than half the address space. Lengths are naturals. Where the code stores a length in a fixed-width field
  the wrap-around is modelled.

More detail on modelled and unmodelled code is kept in section 4, updated as the model grows.

## 4. Modelled / not modelled

Axioms: every theorem listed in MANIFEST.json depends on a subset of `propext`, `Classical.choice`, `Quot.sound`
(`#print axioms`). No axiom is added, no `sorry`, no `native_decide`, no `bv_decide`. Finite tables are evaluated
with `decide +kernel`, which uses the kernel only.

### Modelled

| code | model file | remarks |
|------|-----------|---------|
| reading little/big endian words, `XXH_FORCE_MEMORY_ACCESS` 0–3, alignment, `XXH_swap`, `XXH_isLittleEndian` (xxhash.h:2279–2850) | `Model/Mem` | memory is a buffer with an address; every read is checked |
| XXH32, XXH64: one-shot, streaming, canonical (xxhash.h:2861–3678) | `Model/XXH32`, `Model/XXH64` | |
| XXH3 multiplication, short paths, 64 and 128 bits (xxhash.h:3990–4800, 6459–6640) | `Model/XXH3Short` | |
| XXH3 long inputs, scalar back end, dispatch by length (xxhash.h:5300–6050, 6640–6810) | `Model/XXH3` | generic over the three back-end functions |
| SSE2, AVX2, AVX512, NEON (any lane split), VSX, SVE (xxhash.h:4813–5587) | `Model/Simd` | each intrinsic by its lane semantics; prefetches are no-ops |
| XXH3 streaming, resets, copyState (xxhash.h:6165–6438, 6815–6944) | `Model/XXH3Stream` | state fields, not bytes (bytes: `Model/Layout`, for resets and copies) |
| state allocation (xxhash.h:2339–2377, 6056–6157) | `Model/Alloc` | numeric addresses; the allocator is any allocator allowed by C |
| secret generation (xxhash.h:7013–7065) | `Model/XXH3` | output and seed are two objects (one object: `Model/SecretOverlap`) |
| secret generation and `copyState` with overlapping arguments (xxhash.h:7013–7055, 3128–3131, 3574–3577, 6159–6163) | `Model/SecretOverlap` | after the fill loop and the hash of the seed the segments are worked out on a copy of the buffer; `XXH3_kSecret` is an object of its own |
| canonical form, `XXH128_isEqual`, `XXH128_cmp` (xxhash.h:6952–6996) | `Model/XXH3` | |
| x86 dispatch (xxh_x86dispatch.c) | `Model/Dispatch` | `cpuid`/`xgetbv` are arbitrary functions |
| compile-time selection: default of every option that changes code (xxhash.h:1690–1701, 2279–2306, 2576–2671, 3734–3754, 3895–3964, 4112–4177, 4366–4402, 6289–6293; xxh_x86dispatch.c:55–252) | `Model/Select` | macros as values; a user definition of `XXH_ACC_ALIGN` and of the `XXH_DISPATCH_…` macros, and choices between equivalent spellings, are left out; the addresses of local arrays are any the declared alignment allows |
| xxhsum lines: escaping, printing, parsing, numeric options (cli/xxhsum.c:108–237, 313–385, 624–798, 1169–1193) | `Model/CliText` | strings in memory with checked accesses; ASCII; `Spec/Cli` has the grammar |
| xxhsum files: hashing, reading lines, verifying checksum files (cli/xxhsum.c:239–310, 398–621, 800–1094) | `Model/CliFile` | the file system, `fread` sizes and the allocator are arbitrary; standard output only, as records; the bytes and standard error are in `Model/CliTrace` |
| the text of the report of a verification (cli/xxhsum.c:916–955, 1033–1067) | `Model/CliShow` | `strerror` is a parameter; the records of `Model/CliFile` become bytes |
| xxhsum command line: `XSUM_main` (cli/xxhsum.c:1154–1370) | `Model/CliMain` | benchmarks are selected here and run in `Model/Bench`; messages are in `Model/CliTrace`; whether standard input is a console is a parameter |
| Messages: the same functions with `XSUM_log` and `XSUM_output`, help and usage (cli/xxhsum.c:250–473, 800–1152, 1211–1370; cli/xsum_output.c) | `Model/CliTrace` | writes succeed (the program ignores their results); `strerror`, the version and the text of a failed self-test are parameters; without the benchmarks |
| all of xxhsum, with the self-test and the benchmarks it calls (cli/xxhsum.c:1211–1370) | `Model/CliProgram` | the parts above put together, with their simplifications; `main` returns as `XSUM_main` does |
| the welcome message: architecture, compiler, byte order (cli/xsum_arch.h; cli/xxhsum.c:60–75) | `Model/Arch` | macros as values, as in `Model/Select`; numbers are decimal numerals |
| the field `extSecret` as a pointer (xxhash.h:1776, 6186) and programs with changing memory | `Model/Refs` | memory is a map from objects to their bytes; state objects are apart from it |
| struct layouts (xxhash.h:1655–1800), resets, `XXH3_INITSTATE` and `copyState` as `memset`, stores and `memcpy` (xxhash.h:3128–3143, 3574–3589, 6159–6234) | `Model/Layout` | members in order at the next multiple of their alignment; a null pointer is zero bytes; updates and digests are not modelled on bytes |
| inclusion of xxhash.h and xxh_x86dispatch.h under `XXH_INLINE_ALL`, `XXH_PRIVATE_API`, `XXH_NAMESPACE`, `XXH_STATIC_LINKING_ONLY`, `XXH_IMPLEMENTATION`, `XXH_DISPATCH_DISABLE_REPLACE` (xxhash.h:326–517, 1623–1628, 2037–2073, 7083; xxh_x86dispatch.h) | `Model/Include` | one body per macro, expansion of function names and type names only; `XXH_NO_STREAM`, `XXH_NO_LONG_LONG` and `XXH_NO_XXH3` are treated apart, by lines; what is not in the interface is one item; redefining a macro differently is a violation |
| threads (no code of the repository: the environment in which it runs) | `Model/Threads` | interleavings of single accesses (sequential consistency, justified by the absence of races, which is proved); a state is one location that a call may access many times; secrets of the caller are values |
| xxhsum self-test (cli/xsum_sanity_check.c) | `Model/SelfTest` | messages left out; state allocation succeeds (asserted by the code) |
| lazy dispatch in many threads (xxh_x86dispatch.c:709–842) | `Model/DispatchThreads` | in C11 terms this is a data race; modelled is the x86 machine: store buffers, loads and stores of aligned pointers indivisible, table fields stored in any order and any number of times; threads share only the two tables |
| the benchmark of xxhsum (cli/xsum_bench.c:44–452) | `Model/Bench` | console output is left out, except for the conversion in the terse output that can be undefined; `double` is a rational, an infinity or a NaN with an arbitrary rounding that is correct to 53 bits (one zero, no overflow of finite results, which stay below 2^100); division by zero on `double` as in IEC 60559; the clock and the allocator are parameters, overflow of `clock_t` and the wait for the next tick are left out |
| the sanity test (tests/sanity_test.c, tests/sanity_test_vectors_generator.c) | `Model/SanityTest` | the header with the tables is a value (printing and compiling its numerals is trusted); messages are left out except for the number of tests; allocations succeed (asserted); a failed assertion is exit code 134; `randomUpdate` has a bound on its rounds that is proved sufficient |
| the collision tester (tests/collisions: main.c, hashes.h, sort.cc, allcodecs/dummy.c) | `Model/Collide` | console output is left out except for the counts; sorting, allocation and the rounding of `double` are parameters; a shift by a negative number is undefined or a value of the machine, as a parameter; requests up to 2^35 hashes and a 64-bit `size_t`; the jobs of the threads run one after the other (justified by `C50_tester`) |
| the Windows side of xxhsum (cli/xsum_os_specific.c:156–442, 499–512) | `Model/Windows` | the functions of Windows and its C library from their documentation; ill-formed text is converted by a parameter; text mode of streams as functions on bytes; `wmain` is used; setting up the console is left out |
| the benchmark program of the tests (tests/bench: timefn.c, benchfn.c, benchHash.c, bhDisplay.c, hashes.h, main.c) | `Model/TestBench` | what is printed is recorded before it is formatted; the clock and `rand` are parameters; `double` as a rational with a rounding that is a parameter; callbacks that are `NULL` and the destination buffer, written and never read, are left out |
| the thread pool of the collision tester (tests/collisions/pool.c, threading.h) | `Model/Pool` | a critical section is one step (a mutex makes what happens inside invisible to others); jobs are opaque and do not use the pool; the first allocations of `POOL_create` succeed, thread creation may fail; `POOL_sizeof`, the variant without threads and the Windows wrapper are left out |

### Not modelled

* The C preprocessor as a program (the conditions it evaluates are in `Model/Select`, what it makes of names in `Model/Include`), the compiler, `XXH_IMPORT`.
* Concurrency other than the dispatch tables (C45), the thread pool (C50) and threads that keep apart (C63): two threads that work on one state or write a buffer another reads (C63 has a witness of what can happen). The C11 meaning of the race on the dispatch tables; C45 is about the x86 machine.
* Strict aliasing: `XXH_FORCE_MEMORY_ACCESS=2` is modelled as an aligned wide read.
* Outside `Model/Refs` an external secret is a value: the caller keeps it unchanged while a state refers to it (C60 says when that is needed). Memory that overlaps a state object.
* The Windows code: `__wgetmainargs` and `XSUM_setBinaryMode` beyond their effect, the limits of paths, names of devices.
* `tests/` other than the collision tester, the sanity test and the benchmark program (thus the tests of compilation, the symbol tests and the scripts), `fuzz/`, build files.

### Facts about the code found while proving

* C27: `XXH3_64bits_reset_withSecret` in release builds (`XXH_ASSERT` = assumption) states
  `XXH_ASSERT(secretSize >= XXH3_SECRET_SIZE_MIN)` inside `XXH3_reset_internal` before its own check of the size, so
  the `XXH_ERROR` of that check (xxhash.h:6208) is not reached without undefined behaviour. The documentation (xxhash.h:1290-1303)
  promises `XXH_ERROR` on failure, but also says that the size must be at least the minimum, so that a short secret may be taken as
  a violated precondition; then the check is merely dead. The negation is proved; the rest of the claim is `_partial`.
* C30: a dispatcher built with `XXH_DISPATCH_SCALAR=0` still selects table entry 0, which is all `NULL`, when
  CPUID does not report SSE2 (possible under emulators); the next long hash calls `NULL`
  (`C30_null_call_without_scalar`). The macro is documented to assume SSE2 (xxh_x86dispatch.c:105), but the table is chosen without it.
* SVE code reads words with vector loads and is wrong for a big-endian target; the `Cfg.Valid` predicate excludes it
  and a theorem shows why. The self-test of such a build fails (`C44_sve_big_endian_detected`), but xxhsum runs it only
  before `--version` and benchmarks (`C52_selftest`), not before it hashes or verifies.
* C53: the test for little-endian machines in the choice of `XXH_VECTOR` is only in the branch for NEON; GCC for big-endian
  AArch64 with SVE gets the wrong code (`C53_sve_big_endian`). In the condition for VSX `&&` binds tighter than `||`, so that
  the restriction to GCC does not hold on PPC64 (`C53_vsx_without_gcc`). `XXH_VSX_BE` follows `-maltivec=be` although the loads
  are in memory order (`C53_altivec_be`). NEON is selected for every `_M_ARM`, its header only included from 7
  (`C53_m_arm_mismatch`; no real compiler is known to be concerned).
* C55: the sanity test reports 49948 tests where there are 45787: XXH3 with secret is counted twice, at lines 731 and 741
  (`C55_exact`, `C55_portable`). The table generator keeps seeds in a `size_t`, so that on a 32-bit platform XXH3 is tested
  with 32-bit seeds only and the file written differs (`C55_seed_truncated`). The random loop would never end from state 0
  (`C55_random_stuck`), which cannot be reached (`C55_random_ends`).
* C56: on Windows, a file whose name is not well-formed UTF-16 cannot be hashed; if there is a file with the replacement
  character at that place, the hash of that file is printed instead, with success (`C56_ill_formed`, `C56_other_file`). A
  console shows a name with a backslash byte by byte: characters outside ASCII become replacement characters
  (`C56_console`). A list stored through redirection has `\r\n` and does not verify on systems without text mode, although
  nothing changed (`C56_crlf_gnu`, `C56_crlf_bsd`).
* C57: the benchmark program of the tests divides by zero with `--mins=0` (`C57_mins_zero`) and fails an assertion with
  `--maxl=31` or more (`C57_log_limit`) or without memory (`C57_no_memory`). `cont->fastestRun` is never updated, so the
  number shown is that of the last run, not of the fastest (`C57_not_fastest`). A clock that goes back makes a conversion
  to an integer undefined (`C57_backwards`), one that stands still an assertion fail (`C57_stopped_clock`). The ticks of
  Windows are multiplied by 10^9 in 64 bits, which wraps after half an hour (`C57_span_ticks_wrap`).
* C58: a message of at least 2^64 bytes whose length is less than 32 (XXH64) or at most 240 (XXH3) above a multiple of 2^64
  is taken for a short one by the digest: XXH64 ignores three quarters of it (`C58_XXH64_collision`), and XXH3 gives every
  message of exactly 2^64 bytes the hash of the empty one (`C58_XXH3_empty`).
* C59: the text of `xxhsum --version` comes from predefined macros and not from `XXH_VECTOR`, so it can name a vector unit
  the code does not use: with `XXH_VECTOR` on the command line (`C59_option`), on x86-64 without SSE2 (`C59_x86_no_sse2`),
  with AVX and no AVX2 (`C59_x86_avx`), on big-endian AArch64 (`C59_arm64_big`), on WebAssembly without `arm_neon.h`
  (`C59_wasm`); or not name the one it uses: POWER8 without GCC (`C59_ppc64_other`), s390x (`C59_s390x`). It promises
  misaligned accesses from ARMv7 on although the code avoids them (`C59_arm32_unaligned`), and shows "ARMv_M_ARM" for
  compilers without `__ARM_ARCH` (`C59_arm32_version`).
* C60: a state that was copied still depends on the secret of the original (`C60_secret_freed`). This follows from the
  documentation ("must outlive the hash streaming session") only if the copy is counted to the session.
* C62: `XXH_NAMESPACE` after the first inclusion is ignored (`C62_late_namespace`), changed later it makes names stand for
  functions never declared (`C62_changed_namespace`, `C62_removed_namespace`). `-DXXH_IMPLEMENTATION` and inlining conflict (`C62_conflict`);
  the implementation needs `XXH_STATIC_LINKING_ONLY` (`C62_implementation_alone`). Inlining after the implementation leaves
  static functions undefined (`C62_inline_undefined`), and so does xxh_x86dispatch.h with inlining (`C62_dispatch_inline`).
  The dispatching functions get no prefix, so that two libraries collide (`C62_dispatch_collides`). Three names are missing
  among the `#undef`s, harmlessly (`C62_undef_incomplete`).
* C64: `XXH3_generateSecret` copies the custom seed before it hashes it. A buffer inside the seed behind its first `secretSize`
  bytes gives the secret of another seed without anything undefined (`C64_tail`, `C64_tail_differs`). Scrambling a seed in
  place is undefined (`C64_in_place`). The header says nothing about overlap for this function; for `copyState` it does, rightly
  (`C64_copyState`).
* C54: one file that cannot be read ends the listing, the files after it are not even mentioned (`C54_hash_stops`; the same
  while verifying). `--status` does not silence standard error (`C54_status_not_silent`; exactly when is `C54_status`).
  File names are not escaped in error messages, so that a name can forge a message (`C54_forged_message`). The results of
  writing are ignored: when standard output cannot be written the exit code is still 0.
* C34: the numbers 4294967290 … 4294967295 are rejected as too large although they fit 32 bits
  (`C34_largest_rejected`).
* The grammar accepted by `xxhsum --check` is wider than documented; `Spec/Cli` records it: any unknown tag of a BSD
  style line means XXH64, only the beginning of a tag matters, `XXH3_` is optional in BSD style, the character after
  the first space is ignored in GNU style, a line whose first non-blank character is a backslash loses its first
  character even if that is a blank.
* C33: an error while reading the checksum file itself is taken for its end, so lines can be lost unnoticed and the
  verdict still be success (`C33_unreadable_check_file_accepted`).
* C36: `-b#` with a number from 2^31 to 4294967289 writes outside `g_testIDs` (`C36_out_of_bounds`; `C36_exactly` says
  that nothing else on a command line is undefined).
* C41: `-` is not standard input when there are other file names (`C41_dash_is_no_file`), contrary to the manual.
* C40: `--status` together with `--ignore-missing` still prints a message (`C40_status_not_silent`).
* A listed file that can be opened but not read (a directory on POSIX systems) ends the whole run with exit code 1
  instead of being counted as a failure. The name `stdin` in a checksum file means standard input even if a file of that
  name exists.
* C46: no seed and no secret protects against collisions. XXH64 misses single-bit changes in suitable messages of every
  length from 32; XXH3 (64 and 128 bits) has, for every seed and secret, families of 2^32 to 2^64 messages with one hash.
  Whoever knows the seed and the secret can write them down. (This is a limit of the algorithms, not an error of the code.)
* `XSUM_benchFiles` computes `buffer+15` before it checks `buffer` for NULL (cli/xsum_bench.c:396-405): undefined when memory is missing (`C48_file_no_memory_undefined`).
* With a 32-bit `size_t`, `xxhsum -b -B4294967280` wraps in the allocation and is undefined (`C48_size_wraps`); `-B4294967295` would divide by zero (`C48_size_divides_by_zero`).
* `xxhsum -bi0 -qq` style terse quick runs convert an infinity to `unsigned` if the first round takes no tick (`C48_quick_terse_undefined`).
* `-i` with a number from 2^31 on measures nothing and reports 10^8 seconds per hash (`C48_negative_iterations`).
* `XSUM_findMaxMem` never ends when `malloc` fails for every size including 0 (`C48_size_never`).
* The unaligned tests of a file hash the bytes from the fourth on followed by three zero bytes, not the file (`fileInput` in `C48_file`).
* The collision tester evaluates `1ULL << -1` without a filter, which is the default (tests/collisions/main.c:690): undefined in C (`C49_shift`). With an automatic filter and fewer than 32 hashes it shifts by a negative number in `Filter_insert`; with one hash it aborts (`C49_small_filter`).
* With a filter the tester can fail its assertion `nbCandidates < maxNbH` on a sound request: `collisionsTest xxh64 --filter --nbh=64 --len=2 --seed9200` (`C49_filter_abort`). The estimate `2 * insertions that found both bits` is no upper bound.
* `--seed=N`, the form of all other options, sets the seed of the tester to 0 (`C49_seed_equals`); `--seedN` works. The slab generation ignores the seed.
* `FILTER_1_PROBE` does not compile: `Filter_reduce` is missing there.
* `POOL_resize` does not wake threads that wait in `POOL_add`: with a queue of size 0 a client can wait although a worker is free, until a running job ends (`C50_resize_wakes_no_pusher`). Not used by the tester.
* `isQueueFull` compares with `==`: after resizing down, a pool with a queue of size 0 accepts jobs although all workers are busy (`C50_resize_down_not_full`).
* `POOL_create` does not check `queueSize + 1` and its product for overflow (`C50_queueSize_overflow`).
* `POOL_free` while a `POOL_add` waits frees the mutex the call is about to use (`C50_free_too_early`); hence the condition in `Legal`.
* The message about a missing file shows its name as it is, without escapes: a checksum file with the line `\00000000  a\nb: OK\nc` makes the output contain the line `b: OK` (`C51_forged`). The exit code is 1 in such a run.
