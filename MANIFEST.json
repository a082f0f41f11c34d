{
 "claims": [
  {
   "property": "C01",
   "status": "proved",
   "theorems": [
    "Verif.Props.C01_unflagged_is_sha1",
    "Verif.Props.C01_sum_unflagged_is_sha1",
    "Verif.Props.object_refines"
   ],
   "note": ""
  },
  {
   "property": "C02",
   "status": "proved",
   "theorems": [
    "Verif.Props.C02_chunking"
   ],
   "note": ""
  },
  {
   "property": "C03",
   "status": "proved",
   "theorems": [
    "Verif.Props.C03_observers_pure"
   ],
   "note": ""
  },
  {
   "property": "C04",
   "status": "proved",
   "theorems": [
    "Verif.Props.C04_reset_is_new"
   ],
   "note": ""
  },
  {
   "property": "C05",
   "status": "proved",
   "theorems": [
    "Verif.Props.C05_write_accepts"
   ],
   "note": ""
  },
  {
   "property": "C06",
   "status": "proved",
   "theorems": [
    "Verif.Props.C06_no_panic",
    "Verif.Props.C06_sum_no_panic",
    "Verif.Props.C06_exactly",
    "Verif.Props.C06_bounds"
   ],
   "note": ""
  },
  {
   "property": "C07",
   "status": "proved",
   "theorems": [
    "Verif.Props.C07_checkpoint_digest"
   ],
   "note": ""
  },
  {
   "property": "C08",
   "status": "partial",
   "theorems": [
    "Verif.Props.C08_checkpoint_flag_partial",
    "Verif.Props.C08_restored_flag_exact",
    "Verif.Props.C08_refuted",
    "Verif.Props.C08_stale_receiver"
   ],
   "note": "False as stated: MarshalBinary does not save the flag and UnmarshalBinary does not reset it (C08_refuted, C08_stale_receiver). Proved when nothing complete was flagged before the checkpoint and the receiver is new; the exact flag after a restore is C08_restored_flag_exact."
  },
  {
   "property": "C09",
   "status": "proved",
   "theorems": [
    "Verif.Props.C09_unmarshal_acceptance"
   ],
   "note": ""
  },
  {
   "property": "C10",
   "status": "proved",
   "theorems": [
    "Verif.Props.C10_marshal_form",
    "Verif.Props.C10_marshal_message",
    "Verif.Props.C10_marshal_determines",
    "Verif.Props.C10_marshal_unmarshal",
    "Verif.Props.C10_accepted_is_checkpoint"
   ],
   "note": ""
  },
  {
   "property": "C11",
   "status": "partial",
   "theorems": [
    "Verif.Props.C11_flag_genuine_partial"
   ],
   "note": "Only for flags raised by the 14 vectors with test step 65; for the 18 with test step 58 the Go code tests a different predicate (Misaligned)."
  },
  {
   "property": "C12",
   "status": "partial",
   "theorems": [
    "Verif.Props.C12_detects_partial",
    "Verif.Props.C12_T58_missed",
    "Verif.Props.C12_T58_test"
   ],
   "note": "Proved for the 14 vectors with test step 65. False for the 18 with test step 58: C12_T58_test shows the test misses every genuine sibling whose five working variables are not all equal."
  },
  {
   "property": "C13",
   "status": "proved",
   "theorems": [
    "Verif.Props.C13_flag_is_blockwise",
    "Verif.Props.C13_history"
   ],
   "note": ""
  },
  {
   "property": "C14",
   "status": "proved",
   "theorems": [
    "Verif.Props.C14_safe_hash",
    "Verif.Props.C13_history",
    "Verif.Props.test_files_go"
   ],
   "note": ""
  },
  {
   "property": "C15",
   "status": "proved",
   "theorems": [
    "Verif.Props.C15_flag_stays"
   ],
   "note": ""
  },
  {
   "property": "C16",
   "status": "proved",
   "theorems": [
    "Verif.Props.C16_amd64_block",
    "Verif.Props.C16_amd64_api"
   ],
   "note": ""
  },
  {
   "property": "C17",
   "status": "partial",
   "theorems": [
    "Verif.Props.C17_arm64_block_partial",
    "Verif.Props.C17_arm64_api_partial",
    "Verif.Props.C17_block_skipped",
    "Verif.Props.C17_skipped",
    "Verif.Props.C17_refuted"
   ],
   "note": "Proved for every register contents except R16 >= 2^64-64; for those the claim is false, because the assembly reads R16 without setting it (C17_skipped, C17_refuted)."
  },
  {
   "property": "C18",
   "status": "partial",
   "theorems": [
    "Verif.Props.C18_rectify",
    "Verif.Props.C18_amd64",
    "Verif.Props.C18_arm64_partial",
    "Verif.Props.C18_refuted"
   ],
   "note": "Proved for rectifyCompressionState and for amd64; on arm64 with the restriction on R16 of C17."
  },
  {
   "property": "C19",
   "status": "partial",
   "theorems": [
    "Verif.Props.C19_sum_agrees_partial",
    "Verif.Props.C19_histories_agree_partial",
    "Verif.Props.C19_T58_disagree",
    "Verif.Props.C19_recompression_differs",
    "Verif.Props.C19_recompression_differs_I43"
   ],
   "note": "Proved for messages on whose blocks no vector with test step 58 is decided differently (in particular when no block meets the bit conditions of such a vector). False in general: the recompression tests differ at step 58 on all genuine data (C19_recompression_differs). A whole message on which the results differ would be a SHA-1 collision along one of those vectors; C19_T58_disagree describes what happens on it."
  },
  {
   "property": "C20",
   "status": "proved",
   "theorems": [
    "Verif.Props.C20_mask_is_ubc",
    "Verif.Props.C20_mask_nil",
    "Verif.Props.C20_c_mask"
   ],
   "note": ""
  },
  {
   "property": "C21",
   "status": "proved",
   "theorems": [
    "Verif.Props.C21_table_length",
    "Verif.Props.C21_table_is_published",
    "Verif.Props.C21_vectors_distinct",
    "Verif.Props.C21_c_table"
   ],
   "note": ""
  },
  {
   "property": "C22",
   "status": "partial",
   "theorems": [
    "Verif.Props.C22_both_halves_partial",
    "Verif.Props.C22_conditions_symmetric"
   ],
   "note": "Test step 65 only; see C12."
  },
  {
   "property": "C23",
   "status": "partial",
   "theorems": [
    "Verif.Props.C23_recompression_exact_partial",
    "Verif.Props.C23_exact_iff",
    "Verif.Props.C23_T58_actual",
    "Verif.Props.C23_T58_refuted",
    "Verif.Props.C23_T58_wrong_answer",
    "Verif.Props.C23_c_recompression"
   ],
   "note": "Exact at test step 65, and in general iff the step is a multiple of 5 (C23_exact_iff); the C code is exact at every step (C23_c_recompression). False at 58: C23_T58_refuted characterises the wrong answer, C23_T58_wrong_answer is a concrete instance."
  },
  {
   "property": "C24",
   "status": "proved",
   "theorems": [
    "Verif.Props.C24_length_mod"
   ],
   "note": ""
  },
  {
   "property": "C25",
   "status": "proved",
   "theorems": [
    "Verif.Props.C25_sum_appends"
   ],
   "note": ""
  },
  {
   "property": "C26",
   "status": "partial",
   "theorems": [
    "Verif.Props.C26_oneshot",
    "Verif.Props.C26_history",
    "Verif.Props.C26_oneshot_any_order_partial"
   ],
   "note": "Proved when d.checkSum() is called before d.col is read. In the other order, which the language also allows, the digest agrees but the flag of padding blocks is lost, exactly as C26_oneshot_any_order_partial says."
  },
  {
   "property": "C27",
   "status": "proved",
   "theorems": [
    "Verif.Props.C27_fallback"
   ],
   "note": ""
  },
  {
   "property": "C28",
   "status": "proved",
   "theorems": [
    "Verif.Props.C28_interleaving",
    "Verif.Props.C28_no_call_lost",
    "Verif.Props.C28_other_activity_irrelevant"
   ],
   "note": "Interleavings at call granularity, for programs that do not write to the table handed out by package ubc (see C32)."
  },
  {
   "property": "C29",
   "status": "proved",
   "theorems": [
    "Verif.Props.C29_write_frame",
    "Verif.Props.C29_no_retention"
   ],
   "note": ""
  },
  {
   "property": "C30",
   "status": "partial",
   "theorems": [
    "Verif.Props.C30_switching_partial",
    "Verif.Props.C30_refuted"
   ],
   "note": "Proved for the portable and the amd64 function, chosen afresh at every call; the arm64 function enters with the restriction on R16 of C17, without which the claim is false."
  },
  {
   "property": "C31",
   "status": "proved",
   "theorems": [
    "Verif.Props.C31_collision_reduces",
    "Verif.Props.C31_cgo_collision_reduces",
    "Verif.Props.C31_collisions_exist"
   ],
   "note": ""
  },
  {
   "property": "C32",
   "status": "partial",
   "theorems": [
    "Verif.Props.C32_untouched_table_partial",
    "Verif.Props.C32_refuted",
    "Verif.Props.C32_can_panic",
    "Verif.Props.C32_any_table_unflagged_is_sha1"
   ],
   "note": "False as stated: ubc.SHA1_dvs returns the live table. One assignment switches detection off for every message (C32_refuted) or makes hashing panic (C32_can_panic). Proved for programs that leave the table alone; unflagged digests stay SHA-1 for every table that does not panic."
  },
  {
   "property": "C33",
   "status": "proved",
   "theorems": [
    "Verif.Props.C33_cgo_refines",
    "Verif.Props.C33_cgo_chunking",
    "Verif.Props.C33_cgo_observers_pure",
    "Verif.Props.C33_cgo_reset_is_new",
    "Verif.Props.C33_cgo_unflagged_is_sha1",
    "Verif.Props.test_files_cgo"
   ],
   "note": ""
  },
  {
   "property": "C34",
   "status": "proved",
   "theorems": [
    "Verif.Props.C34_cgo_flag_exact",
    "Verif.Props.C34_cgo_flag_exact_streaming",
    "Verif.Props.C34_cgo_flag_genuine",
    "Verif.Props.C34_cgo_both_halves"
   ],
   "note": ""
  },
  {
   "property": "C35",
   "status": "partial",
   "theorems": [
    "Verif.Props.C35_flagged_differs_partial",
    "Verif.Props.C35_shattered_partial",
    "Verif.Props.C35_cgo_flagged_differs_partial",
    "Verif.Props.C35_cgo_shattered_partial"
   ],
   "note": "For both packages. Reduced to explicit coincidences of the compression function at the first flagged block or a later one. That none occurs is a statement about all values of SHA-1 and is not proved. Evaluated for the two SHAttered prefixes."
  },
  {
   "property": "C36",
   "status": "proved",
   "theorems": [
    "Verif.Props.C36_c_library_total"
   ],
   "note": "Undefined behaviour is modelled for array bounds, memcpy bounds, shift amounts and abort(); alignment and pointer validity of the caller are assumed."
  },
  {
   "property": "C37",
   "status": "proved",
   "theorems": [
    "Verif.Props.C37_settings",
    "Verif.Props.C37_settings_first",
    "Verif.Props.C37_default"
   ],
   "note": "SHA1DCSetCallback is left out: the stored callback is never called, contrary to cgo/sha1.h:37-39."
  },
  {
   "property": "C38",
   "status": "proved",
   "theorems": [
    "Verif.Props.C38_safe_off_is_sha1",
    "Verif.Props.C38_detect_off_is_sha1"
   ],
   "note": ""
  },
  {
   "property": "C39",
   "status": "proved",
   "theorems": [
    "Verif.Props.C39_more_detection",
    "Verif.Props.C39_safe_irrelevant_to_verdict"
   ],
   "note": ""
  },
  {
   "property": "C40",
   "status": "partial",
   "theorems": [
    "Verif.Props.C40_links_iff",
    "Verif.Props.C40_gc_partial",
    "Verif.Props.C40_gccgo_refuted"
   ],
   "note": "Exactly characterised (C40_links_iff). Holds for the compiler gc; false for gccgo on amd64 and arm64 without the tag noasm, where no file declares block."
  },
  {
   "property": "C41",
   "status": "partial",
   "theorems": [
    "Verif.Props.C41_cgo_functions_partial",
    "Verif.Props.C41_types",
    "Verif.Props.C41_constants_refuted"
   ],
   "note": "The functions are there in both settings; Size and BlockSize exist only with cgo, and CalculateDvMask takes an array with cgo and a pointer without."
  },
  {
   "property": "C42",
   "status": "partial",
   "theorems": [
    "Verif.Props.C42_arm64_features",
    "Verif.Props.C42_amd64_features_partial",
    "Verif.Props.C42_arm64_exact",
    "Verif.Props.C42_amd64_used",
    "Verif.Props.C42_ssse3_refuted",
    "Verif.Props.C42_amd64_needed"
   ],
   "note": "Proved on arm64. On amd64 hasSHANI asks for SSE3 where PSHUFB needs SSSE3; proved for CPUs on which AVX implies SSSE3."
  },
  {
   "property": "C43",
   "status": "proved",
   "theorems": [
    "Verif.Props.C43_goroutines",
    "Verif.Props.C43_results",
    "Verif.Props.C43_race_free",
    "Verif.Props.C43_race_panics"
   ],
   "note": "Sequentially consistent accesses to single fields and array elements; arguments are values. C43_race_panics shows that the discipline is needed: Sum can panic when it runs at the same time as a Write."
  },
  {
   "property": "C44",
   "status": "proved",
   "theorems": [
    "Verif.Props.C44_byte_order",
    "Verif.Props.C44_detected_iff",
    "Verif.Props.C44_sum_iff",
    "Verif.Props.C44_wrong_macro",
    "Verif.Props.C44_exact",
    "Verif.Props.C44_text"
   ],
   "note": "The macros replacing whole headers and SHA1DC_INIT_SAFE_HASH_DEFAULT are taken as not predefined."
  },
  {
   "property": "C45",
   "status": "proved",
   "theorems": [
    "Verif.Props.C45_sum_appends",
    "Verif.Props.C45_write_frame",
    "Verif.Props.C45_sumPkg_fresh"
   ],
   "note": "The words of SHA1_CTX are not in the memory that slices share; only its byte buffer and the digest arrays are."
  },
  {
   "property": "C46",
   "status": "proved",
   "theorems": [
    "Verif.Props.C46_interleaving",
    "Verif.Props.C46_no_call_lost",
    "Verif.Props.C46_other_activity_irrelevant",
    "Verif.Props.C46_no_retention"
   ],
   "note": "Interleavings at call granularity."
  },
  {
   "property": "C47",
   "status": "proved",
   "theorems": [
    "Verif.Props.C47_block",
    "Verif.Props.C47_write",
    "Verif.Props.C47_history",
    "Verif.Props.C47_sum",
    "Verif.Props.C47_loop_ends",
    "Verif.Props.C47_endless",
    "Verif.Props.C47_panics",
    "Verif.Props.C47_amd64",
    "Verif.Props.C47_arm64",
    "Verif.Props.C47_block_exact",
    "Verif.Props.C47_write_exact",
    "Verif.Props.C47_history_exact",
    "Verif.Props.C47_sum_exact",
    "Verif.Props.C47_splitting"
   ],
   "note": "Steps are iterations of loops, executions of the label rehash, calls of CalculateDvMask and, in assembly, instructions other than CMP, branches and RET (a VLD1 of constants with the instruction that sets its address is one); other straight-line code and copy are not counted. On arm64 R16 must not hold one of the 64 largest values (C17), except in C47_arm64."
  },
  {
   "property": "C48",
   "status": "proved",
   "theorems": [
    "Verif.Props.C48_amd64",
    "Verif.Props.C48_arm64",
    "Verif.Props.C48_amd64_exact",
    "Verif.Props.C48_arm64_exact",
    "Verif.Props.C48_amd64_api",
    "Verif.Props.C48_arm64_api",
    "Verif.Props.C48_alignment",
    "Verif.Props.C48_fault",
    "Verif.Props.C48_all_of_it",
    "Verif.Props.C48_bounds",
    "Verif.Props.C48_access_amd64",
    "Verif.Props.C48_access_arm64",
    "Verif.Props.C48_aligned",
    "Verif.Props.C48_addresses"
   ],
   "note": "The constants in RODATA are bytes of the memory; that the linker aligns them is an assumption, and C48_alignment shows it is needed. The hashes on arm64 are those of the portable code for R16 < 2^64-64; for the other values C48_arm64 says what happens."
  },
  {
   "property": "C49",
   "status": "proved",
   "theorems": [
    "Verif.Props.C49_block",
    "Verif.Props.C49_program",
    "Verif.Props.C49_panics"
   ],
   "note": "For every table, including those that make the check panic. On arm64 under the condition on R16 described under C17."
  },
  {
   "property": "C50",
   "status": "proved",
   "theorems": [
    "Verif.Props.C50_faults",
    "Verif.Props.C50_process",
    "Verif.Props.C50_update",
    "Verif.Props.C50_library",
    "Verif.Props.C50_history",
    "Verif.Props.C50_sum",
    "Verif.Props.C50_process_exact",
    "Verif.Props.C50_update_exact",
    "Verif.Props.C50_final_exact",
    "Verif.Props.C50_library_exact",
    "Verif.Props.C50_history_exact",
    "Verif.Props.C50_sum_exact",
    "Verif.Props.C50_bounds",
    "Verif.Props.C50_bounds_items"
   ],
   "note": "Steps are iterations of loops and calls of sha1_process, ubc_check, sha1_recompression_step and sha1_compression_W; other straight-line code and memcpy are not counted. Platforms on which SHA1DC_BIGENDIAN tells the byte order."
  },
  {
   "property": "C51",
   "status": "proved",
   "theorems": [
    "Verif.Props.C51_builds_iff",
    "Verif.Props.C51_gc",
    "Verif.Props.C51_collisionResistant",
    "Verif.Props.C51_checkpoint",
    "Verif.Props.C51_readme_refuted"
   ],
   "note": "Names, types, methods and imports of the files were read off the source; packages outside the module are taken to offer what is used of them. C51_gc covers the compiler gc without hand-given tags amd64, arm64 and cgo; C51_builds_iff is exact for all targets. C51_readme_refuted: the usage shown in README.md does not compile."
  },
  {
   "property": "C52",
   "status": "proved",
   "theorems": [
    "Verif.Props.C52_macro",
    "Verif.Props.C52_no_fault",
    "Verif.Props.C52_faults"
   ],
   "note": "The objects are assumed to lie at multiples of 4, as Go and C allocate them; only the reads of the message block are checked, the other words being members of SHA1_CTX and of local arrays."
  },
  {
   "property": "C53",
   "status": "proved",
   "theorems": [
    "Verif.Props.C53_goroutines",
    "Verif.Props.C53_ends",
    "Verif.Props.C53_results",
    "Verif.Props.C53_untouched",
    "Verif.Props.C53_race_free",
    "Verif.Props.C53_append_race"
   ],
   "note": "Accesses are sequentially consistent and one at a time; sha1_process reads and writes the context as a whole, members that are arrays are one location each; memory allocated by a call is an array of its own that comes with the action. C53_results leaves out UnmarshalBinary and goroutines that overwrite the table, which C53_goroutines covers. On arm64 under the condition on R16 described under C17."
  },
  {
   "property": "C54",
   "status": "proved",
   "theorems": [
    "Verif.Props.C54_least_iff",
    "Verif.Props.C54_not_constant",
    "Verif.Props.C54_cgo_least_iff",
    "Verif.Props.C54_cgo_not_constant",
    "Verif.Props.C54_detection_off",
    "Verif.Props.C54_conditions_off"
   ],
   "note": "Steps as in C47 and C50: iterations, labels, calls of CalculateDvMask, assembly instructions. That the time of straight-line code, caches and the processor depend on data is not modelled. CalculateDvMask counts as one step although its statements are executed conditionally."
  },
  {
   "property": "C55",
   "status": "proved",
   "theorems": [
    "Verif.Props.C55_digest_is_checkpoint",
    "Verif.Props.C55_length_extension",
    "Verif.Props.C55_collisions_extend"
   ],
   "note": "C55_length_extension is for the evaluation order in which the flag is returned after checkSum (see C26); C55_digest_is_checkpoint for both. Package cgo offers no checkpoints."
  },
  {
   "property": "C56",
   "status": "proved",
   "theorems": [
    "Verif.Props.C56_flagged_prefix",
    "Verif.Props.C56_cgo_flagged_prefix",
    "Verif.Props.C56_published",
    "Verif.Props.C56_published_collide"
   ],
   "note": "Judged colliding means GoDetected for Go and Detected for C (see C11, C12). On arm64 under the condition on R16 described under C17."
  },
  {
   "property": "C57",
   "status": "proved",
   "theorems": [
    "Verif.Props.C57_update_shows",
    "Verif.Props.C57_final_shows",
    "Verif.Props.C57_settings_keep",
    "Verif.Props.C57_shown_unique",
    "Verif.Props.C57_shows_a_collision",
    "Verif.Props.C57_shattered"
   ],
   "note": "Of a block that is not flagged ihv2 and m2 are left over from the last vector tested and nothing is said about them. The Go wrapper does not read these members."
  },
  {
   "property": "C58",
   "status": "proved",
   "theorems": [
    "Verif.Props.C58_share",
    "Verif.Props.C58_total",
    "Verif.Props.C58_rare",
    "Verif.Props.C58_most",
    "Verif.Props.C58_steps",
    "Verif.Props.C58_cgo_steps",
    "Verif.Props.C58_reached"
   ],
   "note": "Steps are those of C47 and C50. The bounds for flagged blocks are not shown to be reached."
  },
  {
   "property": "C59",
   "status": "proved",
   "theorems": [
    "Verif.Props.C59_unavoidable",
    "Verif.Props.C59_reached",
    "Verif.Props.sh_follows",
    "Verif.Props.C59_cgo_found",
    "Verif.Props.C59_go_found",
    "Verif.Props.sm_follows",
    "Verif.Props.C59_shambles"
   ],
   "note": "Following a vector is defined in Spec/Path. Go: the fourteen vectors with test step 65, see C12 for the others. On arm64 under the condition on R16 described under C17."
  },
  {
   "property": "C60",
   "status": "proved",
   "theorems": [
    "Verif.Props.C60_every_history",
    "Verif.Props.C60_messages",
    "Verif.Props.test_golden",
    "Verif.Props.test_golden_marshal",
    "Verif.Props.test_large"
   ],
   "note": "Results only; what happens to the arrays of the caller is in C25 and C28. On arm64 under the condition on R16 described under C17."
  },
  {
   "property": "C61",
   "status": "proved",
   "theorems": [
    "Verif.Props.C61_hmac",
    "Verif.Props.C61_cgo_hmac",
    "Verif.Props.C61_unflagged_is_hmac_sha1",
    "Verif.Props.C61_rfc2202",
    "Verif.Props.jefe_instance",
    "Verif.Props.long_instance"
   ],
   "note": "crypto/hmac is not part of the repository; Spec/Hmac is written from its published source. Its check that the function given to New returns distinct objects is left out (New returns fresh ones, C25). On arm64 under the condition on R16 described under C17."
  },
  {
   "property": "C62",
   "status": "proved",
   "theorems": [
    "Verif.Props.C62_cgo_new_kind",
    "Verif.Props.C62_go_new_kind",
    "Verif.Props.C62_any_collision",
    "Verif.Props.C62_cgo_any_collision",
    "Verif.Props.C62_unflagged_collisions_exist"
   ],
   "note": "Combines C31 and C59. Following a vector is defined in Spec/Path. On arm64 under the condition on R16 described under C17."
  },
  {
   "property": "C63",
   "status": "proved",
   "theorems": [
    "Verif.Props.C63_off",
    "Verif.Props.C63_on",
    "Verif.Props.C63_off_shattered"
   ],
   "note": "Model/CgoDefault repeats the functions of Model/Cgo that call SHA1DCInit, with the value of the macro as a parameter."
  },
  {
   "property": "C64",
   "status": "proved",
   "theorems": [
    "Verif.Props.C64_one_by_one",
    "Verif.Props.C64_results",
    "Verif.Props.C64_race_free",
    "Verif.Props.C64_ends",
    "Verif.Props.C64_circle",
    "Verif.Props.C64_separate",
    "Verif.Props.C64_weaker",
    "Verif.Props.C64_races"
   ],
   "note": "Model/Sync: views with numbered writes, mutexes, waiting for sections. C64_results is for sections that restore nothing and leave the table of package ubc alone (the others: C64_one_by_one). A goroutine that panics keeps its mutex. C64_weaker shows that the memory is weaker than interleaving."
  },
  {
   "property": "C65",
   "status": "proved",
   "theorems": [
    "Verif.Props.C65_amd64",
    "Verif.Props.C65_amd64_model",
    "Verif.Props.C65_arm64",
    "Verif.Props.C65_arm64_model",
    "Verif.Props.C65_amd64_api",
    "Verif.Props.C65_arm64_api",
    "Verif.Props.C65_text_matters"
   ],
   "note": "Source/AsmText has the files character by character (tools/source_text.py --check compares them with /repo), Source/AsmRead reads them, Source/AsmRun runs what was read; C65_*_model: from any state the text ends with a state iff the model of C48 does. arm64 with the condition of C17 on R16."
  },
  {
   "property": "C66",
   "status": "proved",
   "theorems": [
    "Verif.Props.C66_read",
    "Verif.Props.C66_every_program",
    "Verif.Props.C66_text_matters",
    "Verif.Props.C66_read_amd64",
    "Verif.Props.C66_amd64_every_program",
    "Verif.Props.C66_read_arm64",
    "Verif.Props.C66_arm64_every_program",
    "Verif.Props.C66_exactly",
    "Verif.Props.C66_amd64_exactly",
    "Verif.Props.C66_arm64_exactly",
    "Verif.Props.C66_index",
    "Verif.Props.C66_index_slice",
    "Verif.Props.C66_store",
    "Verif.Props.C66_slice",
    "Verif.Props.C66_nil"
   ],
   "note": "Source/GoText has the files character by character (tools/source_text.py --check compares them with /repo), Source/GoLex and GoParse read them, Source/GoSem runs what was read, Source/GoClient are the programs that use the package. The budget N bounds the iterations of each loop and d the depth of calls; the theorem holds for all N > 33 and d >= 8, so no loop and no recursion is endless. In the builds with assembly a call of blockAMD64 or blockARM64 runs the text of the assembly file (C65) on registers and memory that hold the arguments; how hasSHANI and hasSHA1 are found is not modelled, both values are covered. The theorems named exactly say the most: events and final contents of all slices are those that Spec/Desk computes from the steps."
  },
  {
   "property": "C67",
   "status": "proved",
   "theorems": [
    "Verif.Props.C67_calls",
    "Verif.Props.C67_digest",
    "Verif.Props.C67_default",
    "Verif.Props.C67_callback",
    "Verif.Props.C67_block",
    "Verif.Props.C67_macros",
    "Verif.Props.C67_compilers",
    "Verif.Props.C67_every_compiler",
    "Verif.Props.C67_everywhere",
    "Verif.Props.C44_text"
   ],
   "note": "Source/CText has the files character by character (tools/source_text.py --check compares them with /repo), Source/CLex and CParse preprocess and read them, Source/GoSem runs what was read, Source/CClient are the programs that use the library. The budget N bounds the iterations of each loop and d the depth of calls; the theorems hold for all N > 80 and d >= 5. A pointer to bytes that is turned into a pointer to words is modelled as a copy of the 64 bytes as words in the byte order of the processor. C67_callback adds SHA1DCSetCallback with any value as the function. C67_macros, C67_every_compiler and C67_everywhere are about arbitrary lists of predefined macros; a macro asked for in an #if counts as its number, and as 0 if it does not stand for a number."
  }
 ]
}