{
 "claims": [
  {
   "property": "C01",
   "status": "proved",
   "theorems": [
    "XXH.Props.C01_XXH32_eq_spec"
   ],
   "note": "All builds, all inputs, all seeds."
  },
  {
   "property": "C02",
   "status": "proved",
   "theorems": [
    "XXH.Props.C02_XXH64_eq_spec"
   ],
   "note": "All builds, all inputs, all seeds."
  },
  {
   "property": "C03",
   "status": "proved",
   "theorems": [
    "XXH.Props.C03_XXH3_64bits_eq_spec",
    "XXH.Props.C03_XXH3_64bits_withSeed_eq_spec",
    "XXH.Props.C03_XXH3_64bits_withSecret_eq_spec"
   ],
   "note": "Default, seeded and custom-secret 64-bit hashes; all builds and back ends, all lengths, secrets of at least 136 bytes."
  },
  {
   "property": "C04",
   "status": "proved",
   "theorems": [
    "XXH.Props.C04_XXH3_128bits_eq_spec",
    "XXH.Props.C04_XXH3_128bits_withSeed_eq_spec",
    "XXH.Props.C04_XXH128_eq_spec",
    "XXH.Props.C04_XXH3_128bits_withSecret_eq_spec"
   ],
   "note": "Default, seeded and custom-secret 128-bit hashes and XXH128; all builds and back ends, all lengths."
  },
  {
   "property": "C05",
   "status": "proved",
   "theorems": [
    "XXH.Props.C05_fromSeed",
    "XXH.Props.C05_64_short",
    "XXH.Props.C05_64_long",
    "XXH.Props.C05_128_short",
    "XXH.Props.C05_128_long"
   ],
   "note": "Both length cases and the fromSeed case, 64 and 128 bits."
  },
  {
   "property": "C06",
   "status": "proved",
   "theorems": [
    "XXH.Props.C06_XXH32_stream",
    "XXH.Props.C06_XXH32_stream_eq_oneshot"
   ],
   "note": "Any split, any prior state contents, no length limit."
  },
  {
   "property": "C07",
   "status": "proved",
   "theorems": [
    "XXH.Props.C07_XXH64_stream",
    "XXH.Props.C07_XXH64_stream_eq_oneshot"
   ],
   "note": "Any split, any prior state contents, messages below 2^64 bytes."
  },
  {
   "property": "C08",
   "status": "proved",
   "theorems": [
    "XXH.Props.C08_XXH3_64_stream",
    "XXH.Props.C08_XXH3_64_stream_eq_oneshot",
    "XXH.Props.C08_withSeed_needs_init"
   ],
   "note": "All four resets, any chunking, any build, any aligned memory as state; only reset_withSeed needs an initialised state (C08_withSeed_needs_init shows why). The secret object must stay unchanged while the state uses it."
  },
  {
   "property": "C09",
   "status": "proved",
   "theorems": [
    "XXH.Props.C09_XXH3_128_stream",
    "XXH.Props.C09_XXH3_128_stream_eq_oneshot"
   ],
   "note": "As C08, 128-bit digest."
  },
  {
   "property": "C10",
   "status": "proved",
   "theorems": [
    "XXH.Props.C10_XXH3_histories"
   ],
   "note": "Any number of states, any interleaving, including resets that report an error. Messages below 2^64 bytes. The external secret object must stay unchanged while a state uses it."
  },
  {
   "property": "C11",
   "status": "proved",
   "theorems": [
    "XXH.Props.C11_XXH32_histories",
    "XXH.Props.C11_XXH64_histories"
   ],
   "note": "Any number of states and any interleaving of calls."
  },
  {
   "property": "C12",
   "status": "proved",
   "theorems": [
    "XXH.Props.C12_XXH32_safe",
    "XXH.Props.C12_XXH64_safe",
    "XXH.Props.C12_XXH3_safe"
   ],
   "note": "Objects have exactly the announced size; any access outside is the outcome none."
  },
  {
   "property": "C13",
   "status": "proved",
   "theorems": [
    "XXH.Props.C13_XXH3_safe",
    "XXH.Props.C13_XXH64_safe",
    "XXH.Props.C13_XXH32_safe"
   ],
   "note": "Every allowed history over XXH32, XXH64 and XXH3 states, without any length limit; the model returns none on any access outside an object, misaligned access or violated assertion."
  },
  {
   "property": "C14",
   "status": "proved",
   "theorems": [
    "XXH.Props.C14_XXH32_portable",
    "XXH.Props.C14_XXH64_portable",
    "XXH.Props.C14_XXH3_64bits_portable",
    "XXH.Props.C14_XXH3_64bits_withSeed_portable",
    "XXH.Props.C14_XXH3_64bits_withSecret_portable",
    "XXH.Props.C14_XXH3_128bits_portable",
    "XXH.Props.C14_XXH3_128bits_withSeed_portable",
    "XXH.Props.C14_XXH3_128bits_withSecret_portable",
    "XXH.Props.C14_XXH3_withSecretandSeed_portable"
   ],
   "note": "Any two valid builds and any two placements of the data."
  },
  {
   "property": "C15",
   "status": "proved",
   "theorems": [
    "XXH.Props.C15_accumulate_512_backends",
    "XXH.Props.C15_scrambleAcc_backends",
    "XXH.Props.C15_vsx_any_endian",
    "XXH.Props.C15_initCustomSecret_backends",
    "XXH.Props.C15_accumulate_any_backend",
    "XXH.Props.C15_sve_big_endian_differs"
   ],
   "note": "All back ends against the scalar code. Big-endian SVE, which the selection code lets through, is refuted by C15_sve_big_endian_differs."
  },
  {
   "property": "C16",
   "status": "proved",
   "theorems": [
    "XXH.Props.C16_portable_exact",
    "XXH.Props.C16_portable_eq_native",
    "XXH.Props.C16_fold_exact"
   ],
   "note": "Against the product of natural numbers and against the 128-bit type."
  },
  {
   "property": "C17",
   "status": "proved",
   "theorems": [
    "XXH.Props.C17_XXH128_canonical_bigEndian",
    "XXH.Props.C17_XXH128_canonical_value",
    "XXH.Props.C17_XXH128_roundtrip",
    "XXH.Props.C17_XXH128_roundtrip'",
    "XXH.Props.C17_XXH32_canonical_bigEndian",
    "XXH.Props.C17_XXH32_canonical_value",
    "XXH.Props.C17_XXH32_roundtrip",
    "XXH.Props.C17_XXH32_roundtrip'",
    "XXH.Props.C17_XXH64_canonical_bigEndian",
    "XXH.Props.C17_XXH64_canonical_value",
    "XXH.Props.C17_XXH64_roundtrip",
    "XXH.Props.C17_XXH64_roundtrip'"
   ],
   "note": "32, 64 and 128 bits, both directions, writer and reader on different builds."
  },
  {
   "property": "C18",
   "status": "proved",
   "theorems": [
    "XXH.Props.C18_cmp_value",
    "XXH.Props.C18_cmp_antisymm",
    "XXH.Props.C18_cmp_trans",
    "XXH.Props.C18_cmp_zero_iff",
    "XXH.Props.C18_isEqual",
    "XXH.Props.C18_isEqual_iff_cmp",
    "XXH.Props.C18_cmp_canonical"
   ],
   "note": "Order, equality and memcmp order of canonical forms."
  },
  {
   "property": "C19",
   "status": "proved",
   "theorems": [
    "XXH.Props.C19_64_oneshot",
    "XXH.Props.C19_128_oneshot",
    "XXH.Props.C19_default_secret",
    "XXH.Props.C19_reset_withSeed_zero"
   ],
   "note": "One-shot and streaming."
  },
  {
   "property": "C20",
   "status": "proved",
   "theorems": [
    "XXH.Props.C20_fromSeed_eq_spec",
    "XXH.Props.C20_fromSeed_length",
    "XXH.Props.C20_withSecret_eq_withSeed",
    "XXH.Props.C20_short_inputs_differ"
   ],
   "note": "Both hash sizes; that short inputs are excluded is necessary (C20_short_inputs_differ)."
  },
  {
   "property": "C21",
   "status": "proved",
   "theorems": [
    "XXH.Props.C21_generateSecret_ok",
    "XXH.Props.C21_generateSecret_length",
    "XXH.Props.C21_generateSecret_error",
    "XXH.Props.C21_generateSecret_portable",
    "XXH.Props.C21_generateSecret_default"
   ],
   "note": "Success and error cases, exact extent of the write, independence of build and old contents. The custom seed is a different object from the buffer."
  },
  {
   "property": "C22",
   "status": "proved",
   "theorems": [
    "XXH.Props.C22_withSeed",
    "XXH.Props.C22_default",
    "XXH.Props.C22_withSecret",
    "XXH.Props.C22_other_lengths"
   ],
   "note": "With seed, with secret and default; other length classes are refuted by C22_other_lengths."
  },
  {
   "property": "C23",
   "status": "proved",
   "theorems": [
    "XXH.Props.C23_XXH32_lane",
    "XXH.Props.C23_XXH32_byte",
    "XXH.Props.C23_XXH32_four"
   ],
   "note": "All lengths, seeds and pairs of valid builds: a change confined to one aligned 4-byte lane or to any single byte changes the XXH32 value; XXH32 is injective on 4-byte inputs."
  },
  {
   "property": "C24",
   "status": "proved",
   "theorems": [
    "XXH.Props.C24_XXH64_tail_lane8",
    "XXH.Props.C24_XXH64_tail_lane4",
    "XXH.Props.C24_XXH64_tail_byte",
    "XXH.Props.C24_XXH64_eight"
   ],
   "note": "Changes confined to one 8-byte lane, the 4-byte lane or any single byte after the last full 32-byte stripe; injective on 8-byte inputs. The seed half of the claim is C26_XXH64_seeds. Changes inside full stripes are not claimed (the merge step is not injective in one lane)."
  },
  {
   "property": "C25",
   "status": "proved",
   "theorems": [
    "XXH.Props.C25_XXH3_64bits",
    "XXH.Props.C25_XXH3_64bits_withSeed",
    "XXH.Props.C25_XXH3_64bits_withSecret",
    "XXH.Props.C25_XXH3_128bits",
    "XXH.Props.C25_XXH3_128bits_withSeed",
    "XXH.Props.C25_XXH3_128bits_withSecret"
   ],
   "note": "64-bit up to 8 bytes (and across lengths 1-3), 128-bit up to 16 bytes, with default secret, any seed, any secret of at least 136 bytes."
  },
  {
   "property": "C26",
   "status": "proved",
   "theorems": [
    "XXH.Props.C26_XXH32_seeds",
    "XXH.Props.C26_XXH64_seeds",
    "XXH.Props.C26_XXH3_64bits_seeds",
    "XXH.Props.C26_XXH3_128bits_seeds"
   ],
   "note": "XXH32 below 16 bytes, XXH64 below 32, XXH3_64 up to 8, also XXH3_128 up to 16."
  },
  {
   "property": "C27",
   "status": "partial",
   "theorems": [
    "XXH.Props.C27_null_state",
    "XXH.Props.C27_reset_ok",
    "XXH.Props.C27_withSecretandSeed",
    "XXH.Props.C27_withSecret_partial",
    "XXH.Props.C27_withSecret_small_undefined",
    "XXH.Props.C27_withSecret_error_forgets"
   ],
   "note": "Full for reset, reset_withSeed, reset_withSecretandSeed and for NULL states. For reset_withSecret the claim is false for sizes below 136 (C27_withSecret_small_undefined): XXH3_reset_internal asserts the size before it is checked; proved for sizes from 136 on (C27_withSecret_partial). C27_withSecret_error_forgets: the error leaves the state changed."
  },
  {
   "property": "C28",
   "status": "proved",
   "theorems": [
    "XXH.Props.C28_XXH3",
    "XXH.Props.C28_XXH64",
    "XXH.Props.C28_XXH32"
   ],
   "note": "XXH32, XXH64, XXH3 (64- and 128-bit digests): OK is returned and no continuation can tell the states apart. update(NULL, n) with n > 0 is an assertion failure in the code and not covered."
  },
  {
   "property": "C29",
   "status": "proved",
   "theorems": [
    "XXH.Props.C29_alignedMalloc",
    "XXH.Props.C29_createState_null",
    "XXH.Props.C29_createState_some",
    "XXH.Props.C29_freeState_null",
    "XXH.Props.C29_histories",
    "XXH.Props.C29_no_leak",
    "XXH.Props.C29_plain_create_free",
    "XXH.Props.C29_plain_free_null"
   ],
   "note": "Aligned allocation for every size, accepted alignment and allocator answer; all interleavings of creating, using and freeing states; no leak; XXH32/XXH64 create/free. Addresses are numbers below 2^sizeBits."
  },
  {
   "property": "C30",
   "status": "proved",
   "theorems": [
    "XXH.Props.C30_featureTest",
    "XXH.Props.C30_selected_is_supported",
    "XXH.Props.C30_XXH3_64bits_dispatch",
    "XXH.Props.C30_XXH3_64bits_withSeed_dispatch",
    "XXH.Props.C30_XXH3_64bits_withSecret_dispatch",
    "XXH.Props.C30_XXH3_128bits_dispatch",
    "XXH.Props.C30_XXH3_128bits_withSeed_dispatch",
    "XXH.Props.C30_XXH3_128bits_withSecret_dispatch",
    "XXH.Props.C30_stream_dispatch",
    "XXH.Props.C30_null_call_without_scalar"
   ],
   "note": "Feature test for every cpuid/xgetbv; every dispatch build; one-shot and streaming (any mix of dispatched and plain updates). Also C30_null_call_without_scalar: the documented exception is real. Threads are not modelled."
  },
  {
   "property": "C31",
   "status": "proved",
   "theorems": [
    "XXH.Props.C31_roundtrip",
    "XXH.Props.C31_format",
    "XXH.Props.C31_lengths"
   ],
   "note": "Printer and parser of XSUM_printLine_*/XSUM_parseLine; every name, digest, algorithm, convention and endianness. C31_format gives the exact text."
  },
  {
   "property": "C32",
   "status": "proved",
   "theorems": [
    "XXH.Props.C32_escape",
    "XXH.Props.C32_plain",
    "XXH.Props.C32_unescape",
    "XXH.Props.C32_accepts_exactly"
   ],
   "note": "In-place unescaper with checked memory accesses."
  },
  {
   "property": "C33",
   "status": "proved",
   "theorems": [
    "XXH.Props.C33_verdict",
    "XXH.Props.C33_no_file",
    "XXH.Props.C33_determined",
    "XXH.Props.C33_files",
    "XXH.Props.C33_unreadable_check_file_accepted"
   ],
   "note": "Whole verification loop against a line-by-line semantics (Spec.Cli.Checks), including what is printed, determinism of that semantics, several files and failures. Finding: a read error of the checksum file itself is not noticed (C33_unreadable_check_file_accepted)."
  },
  {
   "property": "C34",
   "status": "proved",
   "theorems": [
    "XXH.Props.C34_exact",
    "XXH.Props.C34_largest_rejected"
   ],
   "note": "Exact value or overflow; C34_largest_rejected shows that six representable values are rejected."
  },
  {
   "property": "C35",
   "status": "proved",
   "theorems": [
    "XXH.Props.C35_hash",
    "XXH.Props.C35_stdin",
    "XXH.Props.C35_failures",
    "XXH.Props.C35_files"
   ],
   "note": "All read sizes, all contents below 2^64 bytes, all four algorithms; also standard input, failures and lists of files."
  },
  {
   "property": "C36",
   "status": "partial",
   "theorems": [
    "XXH.Props.C36_out_of_bounds",
    "XXH.Props.C36_exactly",
    "XXH.Props.C36_in_bounds_partial"
   ],
   "note": "False for numbers from 2^31 to 4294967289 (C36_out_of_bounds, the property's negation with a witness). C36_exactly characterises all command lines with undefined behaviour; C36_in_bounds_partial is what remains."
  },
  {
   "property": "C37",
   "status": "proved",
   "theorems": [
    "XXH.Props.C37_line",
    "XXH.Props.C37_split"
   ],
   "note": "Any starting buffer up to 32 KB, any contents, refused allocations included."
  },
  {
   "property": "C38",
   "status": "proved",
   "theorems": [
    "XXH.Props.C38_grammar",
    "XXH.Props.C38_unambiguous",
    "XXH.Props.C38_masks"
   ],
   "note": "Both directions, against the grammar in Spec/Cli.lean."
  },
  {
   "property": "C39",
   "status": "proved",
   "theorems": [
    "XXH.Props.C39_list_then_check",
    "XXH.Props.C39_unchanged",
    "XXH.Props.C39_changed"
   ],
   "note": "Two arbitrary worlds, before and after; no read errors; names the format cannot express (stdin, lines over 32767 bytes) excluded."
  },
  {
   "property": "C40",
   "status": "proved",
   "theorems": [
    "XXH.Props.C40_verdict_independent",
    "XXH.Props.C40_quiet",
    "XXH.Props.C40_status",
    "XXH.Props.C40_status_not_silent"
   ],
   "note": "C40_status_not_silent is the finding that --status together with --ignore-missing is not silent."
  },
  {
   "property": "C41",
   "status": "proved",
   "theorems": [
    "XXH.Props.C41_readable",
    "XXH.Props.C41_ends",
    "XXH.Props.C41_command",
    "XXH.Props.C41_dash_is_no_file"
   ],
   "note": "CommandLine is a grammar in Spec/CliArgs; every command line has a reading (C41_readable) and every reading predicts the run. Benchmarks are selected, not run."
  },
  {
   "property": "C42",
   "status": "proved",
   "theorems": [
    "XXH.Props.C42_list",
    "XXH.Props.C42_list_then_check"
   ],
   "note": "No read errors, enough memory; names the format cannot express excluded as in C39."
  },
  {
   "property": "C43",
   "status": "proved",
   "theorems": [
    "XXH.Props.C43_descriptions_agree",
    "XXH.Props.C43_code_eq_cryptol"
   ],
   "note": "Full. Cryptol module transcribed function by function (Spec/Cryptol); its 64/32-bit length argument wraps like the C code's."
  },
  {
   "property": "C44",
   "status": "proved",
   "theorems": [
    "XXH.Props.C44_selftest_passes",
    "XXH.Props.C44_exact_32_64",
    "XXH.Props.C44_wrong_rejected",
    "XXH.Props.C44_wrong_rejected_secret",
    "XXH.Props.C44_sve_big_endian_detected"
   ],
   "note": "Full for the self-test as compiled without XSUM_NO_TESTS. Known-answer tables and the lengths of the random walk are evaluated by the kernel; the rest follows from C01-C09, C20, C21."
  },
  {
   "property": "C45",
   "status": "proved",
   "theorems": [
    "XXH.Props.C45_stream_digest",
    "XXH.Props.C45_no_crash",
    "XXH.Props.C45_results",
    "XXH.Props.C45_update_digest",
    "XXH.Props.C45_table_entries",
    "XXH.Props.C45_uniform",
    "XXH.Props.C45_no_waiting",
    "XXH.Props.C45_hybrid_processors"
   ],
   "note": "x86-TSO machine model; C45_hybrid_processors shows that on machines whose processors differ the selected code may be unsupported on another processor."
  },
  {
   "property": "C46",
   "status": "proved",
   "theorems": [
    "XXH.Props.C46_XXH64_one_bit",
    "XXH.Props.C46_XXH3_64_second_word_ignored",
    "XXH.Props.C46_XXH3_64_first_word_ignored",
    "XXH.Props.C46_XXH3_64_secret_word_ignored",
    "XXH.Props.C46_XXH3_64_one_bit",
    "XXH.Props.C46_XXH3_128_pair",
    "XXH.Props.C46_XXH3_128_secret_pair",
    "XXH.Props.C46_XXH3_64_long",
    "XXH.Props.C46_XXH3_128_long",
    "XXH.Props.C46_XXH3_seed_long",
    "XXH.Props.C46_XXH3_64_sixteen"
   ],
   "note": "Negative results, proved for all seeds and secrets. The lengths 17-31 and 33-47 of XXH3 are left out because there the first 16 bytes overlap the last 16."
  },
  {
   "property": "C47",
   "status": "proved",
   "theorems": [
    "XXH.Props.C47_XXH32_uniform",
    "XXH.Props.C47_XXH64_uniform",
    "XXH.Props.C47_XXH3_64_uniform",
    "XXH.Props.C47_XXH3_64_secret_uniform",
    "XXH.Props.C47_XXH3_128_uniform",
    "XXH.Props.C47_XXH3_128_secret_uniform",
    "XXH.Props.C47_XXH32_seed",
    "XXH.Props.C47_XXH64_seed",
    "XXH.Props.C47_XXH3_64_seed"
   ],
   "note": "XXH64 lengths with len mod 32 < 8 and XXH3 beyond 8/16 bytes are not claimed (C46 shows that XXH3 is not injective there)."
  },
  {
   "property": "C48",
   "status": "proved",
   "theorems": [
    "XXH.Props.C48_internal",
    "XXH.Props.C48_internal_no_memory",
    "XXH.Props.C48_internal_ends",
    "XXH.Props.C48_internal_reports",
    "XXH.Props.C48_default_tests",
    "XXH.Props.C48_stream_siblings",
    "XXH.Props.C48_size_wraps",
    "XXH.Props.C48_size_divides_by_zero",
    "XXH.Props.C48_negative_iterations",
    "XXH.Props.C48_quick_terse_undefined",
    "XXH.Props.C48_too_fast_never_ends",
    "XXH.Props.C48_size_bound",
    "XXH.Props.C48_size_whole",
    "XXH.Props.C48_size_found",
    "XXH.Props.C48_size_never",
    "XXH.Props.C48_file",
    "XXH.Props.C48_files",
    "XXH.Props.C48_file_errors",
    "XXH.Props.C48_file_no_memory_undefined"
   ],
   "note": "For every clock, rounding, allocator, size and selection; the hypotheses on the machine are stated in Props/BenchTerms and met by a concrete machine; limits proved with their exact conditions."
  },
  {
   "property": "C49",
   "status": "proved",
   "theorems": [
    "XXH.Props.C49_collisions",
    "XXH.Props.C49_answers",
    "XXH.Props.C49_high_bits",
    "XXH.Props.C49_shift",
    "XXH.Props.C49_small_filter",
    "XXH.Props.C49_filter_abort",
    "XXH.Props.C49_hash_names",
    "XXH.Props.C49_numbers",
    "XXH.Props.C49_units",
    "XXH.Props.C49_settings",
    "XXH.Props.C49_seed_equals",
    "XXH.Props.C49_slab"
   ],
   "note": "Model of tests/collisions (Model/Collide): sample generation (sparse and SLAB5), filter, storing, counting, threads, arguments. C49_collisions is exact for every accepted request up to 2^35 hashes with a 64-bit size_t; shifts by a negative number are a parameter of the machine (C49_shift shows that strict C leaves the default mode undefined). Jobs of the pool run one after the other."
  },
  {
   "property": "C50",
   "status": "proved",
   "theorems": [
    "XXH.Props.C50_defined",
    "XXH.Props.C50_exclusive",
    "XXH.Props.C50_fifo",
    "XXH.Props.C50_start",
    "XXH.Props.C50_no_idle_worker",
    "XXH.Props.C50_no_job_lost",
    "XXH.Props.C50_no_deadlock",
    "XXH.Props.C50_no_endless_work",
    "XXH.Props.C50_comes_to_rest",
    "XXH.Props.C50_free_returns",
    "XXH.Props.C50_free",
    "XXH.Props.C50_tester",
    "XXH.Props.C50_resize_wakes_no_pusher",
    "XXH.Props.C50_resize_down_not_full",
    "XXH.Props.C50_queueSize_overflow",
    "XXH.Props.C50_free_too_early"
   ],
   "note": "Interleaving model of pool.c; a critical section is one step. Clients must not call once POOL_free has been called (limit C50_free_too_early shows why); sizes must not overflow (limit C50_queueSize_overflow)."
  },
  {
   "property": "C51",
   "status": "proved",
   "theorems": [
    "XXH.Props.C51_readback",
    "XXH.Props.C51_success",
    "XXH.Props.C51_numbers",
    "XXH.Props.C51_forged"
   ],
   "note": "C51_readback and C51_success for checkFile, from the specification of C33 to the bytes; C51_forged is the limit. One checksum file at a time, standard output only."
  },
  {
   "property": "C52",
   "status": "proved",
   "theorems": [
    "XXH.Props.C52_stops",
    "XXH.Props.C52_ends",
    "XXH.Props.C52_program",
    "XXH.Props.C52_bench",
    "XXH.Props.C52_bench_ends",
    "XXH.Props.C52_bench_files",
    "XXH.Props.C52_bench_missing",
    "XXH.Props.C52_selftest",
    "XXH.Props.C52_bench_codes"
   ],
   "note": "C52_ends for runs without benchmarks; C52_stops for options that end the program; C52_program carries C42 over; C52_selftest: a build that fails its self-test neither shows its version nor measures; C52_bench, C52_bench_ends, C52_bench_files, C52_bench_codes for benchmarks. Out of scope: command lines with the out-of-range -b numbers of C36, -qq with benchmarks (see C48 for its limits), stderr messages."
  },
  {
   "property": "C53",
   "status": "proved",
   "theorems": [
    "XXH.Props.C53_endian",
    "XXH.Props.C53_vsx",
    "XXH.Props.C53_valid",
    "XXH.Props.C53_default_valid",
    "XXH.Props.C53_memory_access",
    "XXH.Props.C53_neon_lanes",
    "XXH.Props.C53_portable",
    "XXH.Props.C53_align_divides",
    "XXH.Props.C53_acc_align_needed",
    "XXH.Props.C53_examples",
    "XXH.Props.C53_sve_big_endian",
    "XXH.Props.C53_neon_big_endian",
    "XXH.Props.C53_sve_fallback",
    "XXH.Props.C53_altivec_be",
    "XXH.Props.C53_vsx_without_gcc",
    "XXH.Props.C53_headers",
    "XXH.Props.C53_m_arm_mismatch",
    "XXH.Props.C53_dispatch",
    "XXH.Props.C53_dispatch_gcc"
   ],
   "note": "The negative part (SVE on big-endian AArch64) is C53_sve_big_endian. C53_valid needs a compiler for which XXH_ALIGN does something (C11, C++11, GCC, Visual Studio) and, for VSX, one that announces big-endian memory and numbers vector elements natively (C53_altivec_be shows why)."
  },
  {
   "property": "C54",
   "status": "proved",
   "theorems": [
    "XXH.Props.C54_hash",
    "XXH.Props.C54_hash_stderr",
    "XXH.Props.C54_hash_stops",
    "XXH.Props.C54_stdin",
    "XXH.Props.C54_check",
    "XXH.Props.C54_check_no_file",
    "XXH.Props.C54_check_stdout",
    "XXH.Props.C54_check_explained",
    "XXH.Props.C54_status",
    "XXH.Props.C54_check_stderr",
    "XXH.Props.C54_warn",
    "XXH.Props.C54_strict",
    "XXH.Props.C54_checks",
    "XXH.Props.C54_stops",
    "XXH.Props.C54_program",
    "XXH.Props.C54_result",
    "XXH.Props.C54_explained",
    "XXH.Props.C54_status_not_silent",
    "XXH.Props.C54_forged_message"
   ],
   "note": "Trace of every byte written with its stream. C54_hash: the listing is exactly `listed`; C54_hash_stderr: standard error is empty exactly if the exit code is 0; C54_check: exact trace of a verification in terms of the outcomes of C33; C54_check_stdout links it to the report of C33/C51; C54_explained: no failure without a message except --check --status; C54_status: exactly when --status is silent; C54_warn, C54_strict: what these options change; C54_stops: help, version, usage. Findings: C54_hash_stops, C54_status_not_silent, C54_forged_message. Writes are assumed to succeed (the program ignores their results)."
  },
  {
   "property": "C55",
   "status": "proved",
   "theorems": [
    "XXH.Props.C55_exact",
    "XXH.Props.C55_generated",
    "XXH.Props.C55_portable",
    "XXH.Props.C55_same_file",
    "XXH.Props.C55_seed_truncated",
    "XXH.Props.C55_random_ends",
    "XXH.Props.C55_random_stuck",
    "XXH.Props.C55_random_parts"
   ],
   "note": "sanity test and generator; findings: tests counted twice, seeds truncated to size_t in 32-bit generators"
  },
  {
   "property": "C56",
   "status": "proved",
   "theorems": [
    "XXH.Props.C56_codec",
    "XXH.Props.C56_there_and_back",
    "XXH.Props.C56_ill_formed",
    "XXH.Props.C56_strings",
    "XXH.Props.C56_open",
    "XXH.Props.C56_arguments",
    "XXH.Props.C56_same_file",
    "XXH.Props.C56_list_then_check",
    "XXH.Props.C56_crlf_gnu",
    "XXH.Props.C56_crlf_bsd",
    "XXH.Props.C56_print",
    "XXH.Props.C56_calls",
    "XXH.Props.C56_file",
    "XXH.Props.C56_console",
    "XXH.Props.C56_other_file"
   ],
   "note": "Conversions are any functions right for well-formed text (C56_codec shows there is one); names without Ctrl-Z; findings C56_ill_formed, C56_other_file, C56_console, C56_crlf_gnu, C56_crlf_bsd are stated as theorems."
  },
  {
   "property": "C57",
   "status": "proved",
   "theorems": [
    "XXH.Props.C57_number",
    "XXH.Props.C57_argument",
    "XXH.Props.C57_first_other",
    "XXH.Props.C57_selection",
    "XXH.Props.C57_tables",
    "XXH.Props.C57_mins_zero",
    "XXH.Props.C57_log_limit",
    "XXH.Props.C57_no_memory",
    "XXH.Props.C57_span",
    "XXH.Props.C57_span_micro",
    "XXH.Props.C57_span_ticks",
    "XXH.Props.C57_span_ticks_wrap",
    "XXH.Props.C57_backwards",
    "XXH.Props.C57_stopped_clock",
    "XXH.Props.C57_not_fastest"
   ],
   "note": "Benchmark program of the tests: command line, tables, cells, time and failures. fastestRun is never updated in the code, so the number is that of the last run (C57_not_fastest)."
  },
  {
   "property": "C58",
   "status": "proved",
   "theorems": [
    "XXH.Props.C58_XXH64_stream",
    "XXH.Props.C58_XXH64_wrapped",
    "XXH.Props.C58_XXH64_collision",
    "XXH.Props.C58_XXH3_64_stream",
    "XXH.Props.C58_XXH3_128_stream",
    "XXH.Props.C58_XXH3_wrapped",
    "XXH.Props.C58_XXH3_empty"
   ],
   "note": "The digest is determined at every length: the specified hash, or (listed lengths from 2^64 on) that of a short message, with the collisions that follow."
  },
  {
   "property": "C59",
   "status": "proved",
   "theorems": [
    "XXH.Props.C59_x86",
    "XXH.Props.C59_x86_no_sse2",
    "XXH.Props.C59_x86_avx",
    "XXH.Props.C59_dispatch",
    "XXH.Props.C59_dispatch_other",
    "XXH.Props.C59_arm64",
    "XXH.Props.C59_arm64_big",
    "XXH.Props.C59_arm32",
    "XXH.Props.C59_arm32_unaligned",
    "XXH.Props.C59_arm32_version",
    "XXH.Props.C59_ppc64",
    "XXH.Props.C59_ppc64_other",
    "XXH.Props.C59_s390x",
    "XXH.Props.C59_wasm",
    "XXH.Props.C59_unknown",
    "XXH.Props.C59_option",
    "XXH.Props.C59_machine",
    "XXH.Props.C59_endian",
    "XXH.Props.C59_msvc",
    "XXH.Props.C59_msvc_old",
    "XXH.Props.C59_tcc",
    "XXH.Props.C59_names",
    "XXH.Props.C59_version"
   ],
   "note": "Default options; the findings (where text and code differ) are proved as theorems of their own. Macros of one machine at a time; C59_x86 asks for a macro of SSE2 wherever __x86_64__ or __AVX__ is defined, and C59_x86_no_sse2 says what happens otherwise."
  },
  {
   "property": "C60",
   "status": "proved",
   "theorems": [
    "XXH.Props.C60_program",
    "XXH.Props.C60_pointers",
    "XXH.Props.C60_secret_late",
    "XXH.Props.C60_seed_short",
    "XXH.Props.C60_secret_freed",
    "XXH.Props.C60_limits",
    "XXH.Props.C60_secret_changed"
   ],
   "note": "C60_program for all programs; C60_secret_late and C60_seed_short for when the secret is read, C60_limits, C60_secret_freed and C60_secret_changed are concrete runs showing that the conditions are needed."
  },
  {
   "property": "C61",
   "status": "proved",
   "theorems": [
    "XXH.Props.C61_offsets",
    "XXH.Props.C61_disjoint",
    "XXH.Props.C61_inside",
    "XXH.Props.C61_aligned",
    "XXH.Props.C61_array",
    "XXH.Props.C61_size",
    "XXH.Props.C61_small",
    "XXH.Props.C61_hash128",
    "XXH.Props.C61_canonical",
    "XXH.Props.C61_alloc",
    "XXH.Props.C61_reset_internal",
    "XXH.Props.C61_reset",
    "XXH.Props.C61_reset_withSeed",
    "XXH.Props.C61_reset_withSecretandSeed",
    "XXH.Props.C61_initState",
    "XXH.Props.C61_memset",
    "XXH.Props.C61_typed",
    "XXH.Props.C61_reset32",
    "XXH.Props.C61_reset64",
    "XXH.Props.C61_reset_bytes",
    "XXH.Props.C61_reset_keeps",
    "XXH.Props.C61_copy"
   ],
   "note": "The structs are laid out by the rule common to ABIs; the theorems hold for all sizes and alignments in Abi.Valid, with and without XXH_ALIGN, and both byte orders. Updates and digests are modelled on members, not on bytes. That a null pointer is stored as zero bytes is assumed, as the code does where it suggests a memset."
  },
  {
   "property": "C62",
   "status": "proved",
   "theorems": [
    "XXH.Props.C62_lists",
    "XXH.Props.C62_undef_incomplete",
    "XXH.Props.C62_prefixes",
    "XXH.Props.C62_no_conflict",
    "XXH.Props.C62_conflict",
    "XXH.Props.C62_types_once",
    "XXH.Props.C62_typedef_twice",
    "XXH.Props.C62_functions_once",
    "XXH.Props.C62_dispatch_twice",
    "XXH.Props.C62_ordinary",
    "XXH.Props.C62_advanced",
    "XXH.Props.C62_implementation",
    "XXH.Props.C62_xxhash_c",
    "XXH.Props.C62_link",
    "XXH.Props.C62_disjoint",
    "XXH.Props.C62_late_namespace",
    "XXH.Props.C62_changed_namespace",
    "XXH.Props.C62_removed_namespace",
    "XXH.Props.C62_multiInclude",
    "XXH.Props.C62_implementation_alone",
    "XXH.Props.C62_inline",
    "XXH.Props.C62_inline_undefined",
    "XXH.Props.C62_dispatch",
    "XXH.Props.C62_dispatch_unit",
    "XXH.Props.C62_dispatch_collides",
    "XXH.Props.C62_dispatch_inline",
    "XXH.Props.C62_parts",
    "XXH.Props.C62_dispatch_parts"
   ],
   "note": "For every sequence of inclusions and every prefix: no conflicting macros, no type twice, one name per function, what is declared, defined and exported, linking and separation of prefixes, inlining, dispatcher; several findings with exact witnesses."
  },
  {
   "property": "C63",
   "status": "proved",
   "theorems": [
    "XXH.Props.C63_independent",
    "XXH.Props.C63_memory",
    "XXH.Props.C63_calls",
    "XXH.Props.C63_XXH32",
    "XXH.Props.C63_XXH64",
    "XXH.Props.C63_XXH3",
    "XXH.Props.C63_oneshot",
    "XXH.Props.C63_direct",
    "XXH.Props.C63_shared_state"
   ],
   "note": "Any number of threads, any interleaving of single accesses, any code with the effect and footprint of the calls: answers as alone, no undefined behaviour, no race, progress; one-shot functions on shared memory; a witness for a shared state."
  },
  {
   "property": "C64",
   "status": "proved",
   "theorems": [
    "XXH.Props.C64_defined",
    "XXH.Props.C64_apart",
    "XXH.Props.C64_tail",
    "XXH.Props.C64_in_place",
    "XXH.Props.C64_no_seed",
    "XXH.Props.C64_short",
    "XXH.Props.C64_two_objects",
    "XXH.Props.C64_copyState",
    "XXH.Props.C64_tail_differs"
   ],
   "note": "All builds, positions and sizes. memcpy of overlapping ranges is undefined (C11). The tail case is a finding: defined, but the secret of another seed."
  }
 ]
}