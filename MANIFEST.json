{
 "claims": [
  {
   "property": "C01",
   "status": "proved",
   "theorems": [
    "Lrvm.C01_halted_does_nothing",
    "Lrvm.C01_halted_until_reset"
   ],
   "note": ""
  },
  {
   "property": "C02",
   "status": "proved",
   "theorems": [
    "Lrvm.C02_cycle_count",
    "Lrvm.C02_cycle_count_history"
   ],
   "note": ""
  },
  {
   "property": "C03",
   "status": "proved",
   "theorems": [
    "Lrvm.C03_assign_pc",
    "Lrvm.C03_pc_advances"
   ],
   "note": ""
  },
  {
   "property": "C04",
   "status": "proved",
   "theorems": [
    "Lrvm.C04_fetch_is_load",
    "Lrvm.C04_fetch_fault",
    "Lrvm.C04_instruction_format",
    "Lrvm.C04_fetch_is_word_at_pc"
   ],
   "note": ""
  },
  {
   "property": "C05",
   "status": "proved",
   "theorems": [
    "Lrvm.C05_reset",
    "Lrvm.C05_reset_total",
    "Lrvm.C05_new_board_waits"
   ],
   "note": ""
  },
  {
   "property": "C06",
   "status": "proved",
   "theorems": [
    "Lrvm.C06_fetch_exception",
    "Lrvm.C06_instruction_exception",
    "Lrvm.C06_itr"
   ],
   "note": ""
  },
  {
   "property": "C07",
   "status": "proved",
   "theorems": [
    "Lrvm.C07_et_describes_exception",
    "Lrvm.C07_et_history"
   ],
   "note": ""
  },
  {
   "property": "C08",
   "status": "partial",
   "theorems": [
    "Lrvm.C08_era_never_written_step",
    "Lrvm.C08_era_always_zero_partial",
    "Lrvm.C08_era_refuted"
   ],
   "note": "False of the code: era is never written, so it is 0 after every history (C08_era_always_zero_partial); C08_era_refuted gives a machine whose exception was raised at another address. Proved: exactly what era is."
  },
  {
   "property": "C09",
   "status": "proved",
   "theorems": [
    "Lrvm.C09_reason",
    "Lrvm.C09_protected_destination",
    "Lrvm.C09_af_only_flags"
   ],
   "note": ""
  },
  {
   "property": "C10",
   "status": "proved",
   "theorems": [
    "Lrvm.C10_cpy",
    "Lrvm.C10_read_after_write",
    "Lrvm.C10_registers_complete"
   ],
   "note": ""
  },
  {
   "property": "C11",
   "status": "partial",
   "theorems": [
    "Lrvm.C11_userland_keeps_supervisor_state_partial",
    "Lrvm.C11_reset_refuted",
    "Lrvm.C11_reset_does"
   ],
   "note": "Proved for every instruction other than RESET with processor mode 0. Missing: that RESET, which is not refused in userland and changes supervisor registers (C11_reset_refuted); C11_reset_does says exactly what it does."
  },
  {
   "property": "C12",
   "status": "partial",
   "theorems": [
    "Lrvm.C12_supervisor_only_by_exception_partial",
    "Lrvm.C12_reset_refuted"
   ],
   "note": "Proved for every instruction other than RESET with processor mode 0; that userland RESET enters supervisor mode without the vector (C12_reset_refuted, C11_reset_does)."
  },
  {
   "property": "C13",
   "status": "proved",
   "theorems": [
    "Lrvm.C13_unobservable",
    "Lrvm.C13_same_panic",
    "Lrvm.C13_run"
   ],
   "note": ""
  },
  {
   "property": "C14",
   "status": "partial",
   "theorems": [
    "Lrvm.C14_lsm_refused_partial",
    "Lrvm.C14_halt_refuted",
    "Lrvm.C14_cycles_refuted",
    "Lrvm.C14_reset_refuted"
   ],
   "note": "Proved for LSM. False for HALT, CYCLES and RESET, which the code never refuses: refuted for every state."
  },
  {
   "property": "C15",
   "status": "partial",
   "theorems": [
    "Lrvm.C15_lsm_partial",
    "Lrvm.C15_lsm_refuted"
   ],
   "note": "Proved that LSM leaves supervisor mode and continues at addr + 4. The documented target (addr) is refuted."
  },
  {
   "property": "C16",
   "status": "proved",
   "theorems": [
    "Lrvm.C16_add",
    "Lrvm.C16_sub",
    "Lrvm.C16_mul",
    "Lrvm.C16_bitwise"
   ],
   "note": ""
  },
  {
   "property": "C17",
   "status": "partial",
   "theorems": [
    "Lrvm.C17_unsigned",
    "Lrvm.C17_signed",
    "Lrvm.C17_by_zero",
    "Lrvm.C17_overflow_partial",
    "Lrvm.C17_overflow_refuted"
   ],
   "note": "Unsigned, signed and by-zero results are proved in full; the overflow modes of MIN / -1 are ignored by the code (always 0x0B): proved as _partial, the documented choice refuted."
  },
  {
   "property": "C18",
   "status": "proved",
   "theorems": [
    "Lrvm.C18_shl",
    "Lrvm.C18_shr"
   ],
   "note": ""
  },
  {
   "property": "C19",
   "status": "partial",
   "theorems": [
    "Lrvm.C19_flags_partial",
    "Lrvm.C19_cmp_partial",
    "Lrvm.C19_zlf_refuted",
    "Lrvm.C19_mul_carry_refuted"
   ],
   "note": "All flags but ZLF are proved; ZLF tells whether bit 16 is set, and MUL's carry tells signed overflow: both refuted against the documentation."
  },
  {
   "property": "C20",
   "status": "proved",
   "theorems": [
    "Lrvm.C20_compare_and_branch"
   ],
   "note": ""
  },
  {
   "property": "C21",
   "status": "partial",
   "theorems": [
    "Lrvm.C21_if_partial",
    "Lrvm.C21_unknown_flag_partial",
    "Lrvm.C21_flag7_refuted"
   ],
   "note": "Proved for flags 0-6 and for flag numbers above 7; flag 7, which does not exist, is accepted (refuted)."
  },
  {
   "property": "C22",
   "status": "partial",
   "theorems": [
    "Lrvm.C22_if2_partial",
    "Lrvm.C22_unknown_flag_refuted"
   ],
   "note": "Proved for existing flags and all conditions; IF2 does not check flag numbers (refuted)."
  },
  {
   "property": "C23",
   "status": "proved",
   "theorems": [
    "Lrvm.C23_zro",
    "Lrvm.C23_inc_dec",
    "Lrvm.C23_jp",
    "Lrvm.C23_ret"
   ],
   "note": ""
  },
  {
   "property": "C24",
   "status": "proved",
   "theorems": [
    "Lrvm.C24_jpr"
   ],
   "note": ""
  },
  {
   "property": "C25",
   "status": "proved",
   "theorems": [
    "Lrvm.C25_unaligned",
    "Lrvm.C25_unaligned_fetch"
   ],
   "note": ""
  },
  {
   "property": "C26",
   "status": "proved",
   "theorems": [
    "Lrvm.C26_load",
    "Lrvm.C26_store",
    "Lrvm.C26_load_iff"
   ],
   "note": ""
  },
  {
   "property": "C27",
   "status": "partial",
   "theorems": [
    "Lrvm.C27_identity_or_refused_partial",
    "Lrvm.C27_translation_refuted",
    "Lrvm.C27_pass_through_refuted"
   ],
   "note": "False of the code: the permission test compares a shifted bit with 1, so that no entry ever translates. Proved: with the MMU on every access is the identity or refused; two-level translation and documented pass-through are refuted."
  },
  {
   "property": "C28",
   "status": "partial",
   "theorems": [
    "Lrvm.C28_read_refused_partial",
    "Lrvm.C28_write_kind_refuted",
    "Lrvm.C28_exec_kind_refuted"
   ],
   "note": "Proved for reads; refused writes and fetches raise the code of reads (refuted)."
  },
  {
   "property": "C29",
   "status": "proved",
   "theorems": [
    "Lrvm.C29_lsa",
    "Lrvm.C29_lea",
    "Lrvm.C29_wsa",
    "Lrvm.C29_wea",
    "Lrvm.C29_load_fault",
    "Lrvm.C29_store_fault",
    "Lrvm.C29_lea_fault",
    "Lrvm.C29_wea_fault"
   ],
   "note": ""
  },
  {
   "property": "C30",
   "status": "partial",
   "theorems": [
    "Lrvm.C30_srm_partial",
    "Lrvm.C30_half_swap_refuted"
   ],
   "note": "Proved when the register may be written and (debug builds) the sum fits; otherwise memory is changed although an exception is raised (refuted)."
  },
  {
   "property": "C31",
   "status": "partial",
   "theorems": [
    "Lrvm.C31_ex_partial",
    "Lrvm.C31_half_exchange_refuted"
   ],
   "note": "Proved when both registers may be read and written; if the second write is refused the first stays changed (refuted)."
  },
  {
   "property": "C32",
   "status": "proved",
   "theorems": [
    "Lrvm.C32_lifo",
    "Lrvm.C32_well_bracketed"
   ],
   "note": ""
  },
  {
   "property": "C33",
   "status": "proved",
   "theorems": [
    "Lrvm.C33_push",
    "Lrvm.C33_push_fault",
    "Lrvm.C33_pop",
    "Lrvm.C33_pop_fault",
    "Lrvm.C33_call",
    "Lrvm.C33_call_fault"
   ],
   "note": ""
  },
  {
   "property": "C34",
   "status": "proved",
   "theorems": [
    "Lrvm.C34_call_ret"
   ],
   "note": ""
  },
  {
   "property": "C35",
   "status": "proved",
   "theorems": [
    "Lrvm.C35_supervisor_keeps_usp",
    "Lrvm.C35_userland_keeps_ssp"
   ],
   "note": ""
  },
  {
   "property": "C36",
   "status": "proved",
   "theorems": [
    "Lrvm.C36_requests_in_contract"
   ],
   "note": ""
  },
  {
   "property": "C37",
   "status": "proved",
   "theorems": [
    "Lrvm.C37_read",
    "Lrvm.C37_write",
    "Lrvm.C37_unmapped",
    "Lrvm.C37_others"
   ],
   "note": ""
  },
  {
   "property": "C38",
   "status": "proved",
   "theorems": [
    "Lrvm.C38_step_keeps_hardware",
    "Lrvm.C38_program_keeps_hardware"
   ],
   "note": ""
  },
  {
   "property": "C39",
   "status": "proved",
   "theorems": [
    "Lrvm.C39_hwd",
    "Lrvm.C39_described"
   ],
   "note": ""
  },
  {
   "property": "C40",
   "status": "proved",
   "theorems": [
    "Lrvm.C40_name_cut",
    "Lrvm.C40_board_name"
   ],
   "note": ""
  },
  {
   "property": "C41",
   "status": "partial",
   "theorems": [
    "Lrvm.C41_reset_partial",
    "Lrvm.C41_selection_partial",
    "Lrvm.C41_inclusive_refuted"
   ],
   "note": "Proved: which components each mode resets. Modes 3 and 4 are strict where the documentation says inclusive (refuted)."
  },
  {
   "property": "C42",
   "status": "partial",
   "theorems": [
    "Lrvm.C42_no_panic_partial",
    "Lrvm.C42_if2_refuted",
    "Lrvm.C42_srm_refuted",
    "Lrvm.C42_unaligned_table_refuted",
    "Lrvm.C42_high_table_refuted"
   ],
   "note": "Proved: no step panics unless one of the listed causes holds (IF2 with a flag number above 7 and SRM overflow in debug builds, translation tables unaligned or too high, a component that panics). Each cause is shown to be real by a refutation."
  },
  {
   "property": "C43",
   "status": "partial",
   "theorems": [
    "Lrvm.C43_no_overlap_partial",
    "Lrvm.C43_map_abs_refuted"
   ],
   "note": "Proved for histories without map_abs; map_abs records the component's size instead of the requested range, which lets ranges overlap (refuted)."
  },
  {
   "property": "C44",
   "status": "partial",
   "theorems": [
    "Lrvm.C44_map_succeeds_iff_partial",
    "Lrvm.C44_map_release",
    "Lrvm.C44_map_result",
    "Lrvm.C44_last_word_refuted"
   ],
   "note": "Proved: exact success condition and result, in both profiles. The documented condition is refuted for debug builds at the last word of the address space."
  },
  {
   "property": "C45",
   "status": "proved",
   "theorems": [
    "Lrvm.C45_failed_mapping_changes_nothing"
   ],
   "note": ""
  },
  {
   "property": "C46",
   "status": "proved",
   "theorems": [
    "Lrvm.C46_order_irrelevant"
   ],
   "note": ""
  },
  {
   "property": "C47",
   "status": "partial",
   "theorems": [
    "Lrvm.C47_layout",
    "Lrvm.C47_reported_range_partial",
    "Lrvm.C47_wrap_refuted"
   ],
   "note": "Layout is proved in full; the reported range is proved unless the address space wraps in release builds (refuted)."
  },
  {
   "property": "C48",
   "status": "partial",
   "theorems": [
    "Lrvm.C48_full_size_partial",
    "Lrvm.C48_never_more_than_size_partial",
    "Lrvm.C48_more_than_requested_refuted",
    "Lrvm.C48_too_large_accepted_refuted"
   ],
   "note": "Proved for ranges of exactly the component's size, and that never more than the component's size is mapped; smaller ranges map more than requested and a range one word too large is accepted (both refuted)."
  },
  {
   "property": "C49",
   "status": "partial",
   "theorems": [
    "Lrvm.C49_release_partial",
    "Lrvm.C49_map_debug_partial",
    "Lrvm.C49_debug_overflow_refuted",
    "Lrvm.C49_unknown_id_refuted",
    "Lrvm.C49_map_panics_iff",
    "Lrvm.C49_map_abs_panics_iff"
   ],
   "note": "Proved: release builds never panic with known identifiers, and the exact debug condition; overflow in debug builds and unknown identifiers in map_contiguous panic (refuted)."
  },
  {
   "property": "C50",
   "status": "partial",
   "theorems": [
    "Lrvm.C50_parts_fit",
    "Lrvm.C50_lossy_round_trip",
    "Lrvm.C50_partial",
    "Lrvm.C50_refuted",
    "Lrvm.C50_injective"
   ],
   "note": "Exact: an instruction survives encoding and decoding iff it has no register other than a0 as a two-byte operand (C50_partial is an equivalence); the full claim is refuted."
  },
  {
   "property": "C51",
   "status": "proved",
   "theorems": [
    "Lrvm.C51_step_is_decoded_instruction",
    "Lrvm.C51_undecodable_raises",
    "Lrvm.C51_program_word"
   ],
   "note": ""
  },
  {
   "property": "C52",
   "status": "partial",
   "theorems": [
    "Lrvm.C52_lossy_execution",
    "Lrvm.C52_partial",
    "Lrvm.C52_refuted"
   ],
   "note": "Exact: assembled instructions run as written, except that a register given as a two-byte operand is replaced with a0."
  },
  {
   "property": "C53",
   "status": "proved",
   "theorems": [
    "Lrvm.C53_registers",
    "Lrvm.C53_flags",
    "Lrvm.C53_conditions",
    "Lrvm.C53_hardware_informations",
    "Lrvm.C53_operands",
    "Lrvm.C53_condition_names"
   ],
   "note": ""
  },
  {
   "property": "C54",
   "status": "partial",
   "theorems": [
    "Lrvm.C54_builders",
    "Lrvm.C54_new",
    "Lrvm.C54_is_signed",
    "Lrvm.C54_result_partial",
    "Lrvm.C54_result_refuted",
    "Lrvm.C54_encode",
    "Lrvm.C54_partial",
    "Lrvm.C54_refuted",
    "Lrvm.C54_decode_total",
    "Lrvm.C54_processor_partial",
    "Lrvm.C54_overflow_refuted"
   ],
   "note": "Encoding proved in full; decoding proved for all modes but ZRO_MAX (decoded as EqToMin); the processor ignores overflow modes (refuted). Builders: any chain of with_* calls gives the last choice of each kind (C54_builders); result() is what a division by zero gives (C54_result_partial), not what an overflow gives (C54_result_refuted)."
  },
  {
   "property": "C55",
   "status": "partial",
   "theorems": [
    "Lrvm.C55_encode",
    "Lrvm.C55_decode_raw",
    "Lrvm.C55_decode_strict",
    "Lrvm.C55_program_round_trip_partial",
    "Lrvm.C55_bytes_round_trip_partial",
    "Lrvm.C55_refuted",
    "Lrvm.C55_bytes_refuted",
    "Lrvm.C55_word_round_trip_partial"
   ],
   "note": "Encoding and strict/raw decoding proved in full. Round trip of programs is exact up to C50's loss and data that happen to encode instructions; both refuted in the full claim."
  },
  {
   "property": "C56",
   "status": "partial",
   "theorems": [
    "Lrvm.C56_append_prepend",
    "Lrvm.C56_prepend_all_partial",
    "Lrvm.C56_prepend_all_crashes",
    "Lrvm.C56_refuted"
   ],
   "note": "Append and prepend are proved; prepend_all inserts in the middle or crashes: exact conditions proved, the claim refuted."
  },
  {
   "property": "C57",
   "status": "partial",
   "theorems": [
    "Lrvm.C57_words_round_trip",
    "Lrvm.C57_bytes_round_trip",
    "Lrvm.C57_words_to_bytes",
    "Lrvm.C57_bytes_to_words",
    "Lrvm.C57_tail_refuted",
    "Lrvm.C57_tail_partial"
   ],
   "note": "Proved in full for whole words; one or two bytes of an incomplete last word are lost (refuted)."
  },
  {
   "property": "C58",
   "status": "partial",
   "theorems": [
    "Lrvm.C58_round_trip",
    "Lrvm.C58_step_partial",
    "Lrvm.C58_wide_data_refuted",
    "Lrvm.C58_unknown_aux_refuted",
    "Lrvm.C58_decode_partial"
   ],
   "note": "Round trip proved in full; what a step raises decodes correctly unless the data do not fit a byte or a component uses an unknown code (refuted)."
  },
  {
   "property": "C59",
   "status": "partial",
   "theorems": [
    "Lrvm.C59_round_trip",
    "Lrvm.C59_seen_partial",
    "Lrvm.C59_unknown_error_refuted"
   ],
   "note": "Round trip proved in full; UnknownError does not survive (refuted)."
  },
  {
   "property": "C60",
   "status": "partial",
   "theorems": [
    "Lrvm.C60_set_reg_partial",
    "Lrvm.C60_read_addr",
    "Lrvm.C60_read_addr_to_partial",
    "Lrvm.C60_write_addr_partial",
    "Lrvm.C60_write_addr_lit",
    "Lrvm.C60_set_reg_refuted",
    "Lrvm.C60_read_addr_to_refuted",
    "Lrvm.C60_write_addr_refuted",
    "Lrvm.C60_encodings"
   ],
   "note": "Proved for literals and for the registers that survive encoding; the forms that use a register as a two-byte operand are refuted."
  },
  {
   "property": "C61",
   "status": "partial",
   "theorems": [
    "Lrvm.C61_returns",
    "Lrvm.C61_stops",
    "Lrvm.C61_deterministic",
    "Lrvm.C61_panics",
    "Lrvm.C61_limit_partial",
    "Lrvm.C61_limit_refuted",
    "Lrvm.C61_text_refuted"
   ],
   "note": "Stopping conditions, determinism and panics are exact; a program that runs RESET never reaches the cycle limit, and describing some exceptions panics (both refuted)."
  },
  {
   "property": "C62",
   "status": "partial",
   "theorems": [
    "Lrvm.C62_succeeds_partial",
    "Lrvm.C62_succeeds_iff",
    "Lrvm.C62_last_byte_refuted",
    "Lrvm.C62_ready",
    "Lrvm.C62_panics"
   ],
   "note": "Proved: the state it returns (C62_ready), all the ways it panics (C62_panics), and exactly when it succeeds for components whose own reset does not panic (C62_succeeds_iff). False of the code in debug builds when the components fill the address space to its last byte (C62_last_byte_refuted): that case is missing from C62_succeeds_partial."
  },
  {
   "property": "C63",
   "status": "proved",
   "theorems": [
    "Lrvm.C63_metadata",
    "Lrvm.C63_size"
   ],
   "note": ""
  },
  {
   "property": "C64",
   "status": "proved",
   "theorems": [
    "Lrvm.C64_new",
    "Lrvm.C64_from",
    "Lrvm.C64_from_with_size"
   ],
   "note": ""
  },
  {
   "property": "C65",
   "status": "proved",
   "theorems": [
    "Lrvm.C65",
    "Lrvm.C65_serves"
   ],
   "note": ""
  },
  {
   "property": "C66",
   "status": "partial",
   "theorems": [
    "Lrvm.C66_new_partial",
    "Lrvm.C66_from_partial",
    "Lrvm.C66_from_with_size_partial",
    "Lrvm.C66_reset_refuted"
   ],
   "note": "Proved without resets; reset erases the content (refuted)."
  },
  {
   "property": "C67",
   "status": "partial",
   "theorems": [
    "Lrvm.C67_read",
    "Lrvm.C67_read_error",
    "Lrvm.C67_outside",
    "Lrvm.C67_write",
    "Lrvm.C67_readonly",
    "Lrvm.C67_history_partial",
    "Lrvm.C67_reopen_partial",
    "Lrvm.C67_size_refuted",
    "Lrvm.C67_grow_refuted",
    "Lrvm.C67_readonly_history",
    "Lrvm.C67_readonly_size"
   ],
   "note": "Reads, writes, refusals and histories mirror the file; the advertised size is four times too large and the file can grow (refuted)."
  },
  {
   "property": "C68",
   "status": "proved",
   "theorems": [
    "Lrvm.C68_display",
    "Lrvm.C68_display_lossy",
    "Lrvm.C68_calls",
    "Lrvm.C68_unknown"
   ],
   "note": ""
  },
  {
   "property": "C69",
   "status": "proved",
   "theorems": [
    "Lrvm.C69_char",
    "Lrvm.C69_number"
   ],
   "note": ""
  },
  {
   "property": "C70",
   "status": "proved",
   "theorems": [
    "Lrvm.C70_history",
    "Lrvm.C70",
    "Lrvm.C70_refused"
   ],
   "note": ""
  },
  {
   "property": "C71",
   "status": "partial",
   "theorems": [
    "Lrvm.C71_history_partial",
    "Lrvm.C71_line_partial",
    "Lrvm.C71_padding_refuted"
   ],
   "note": "Proved when the buffer was cleared before the request; otherwise the remains of a longer previous line stay (refuted)."
  },
  {
   "property": "C72",
   "status": "partial",
   "theorems": [
    "Lrvm.C72_system_seconds_partial",
    "Lrvm.C72_elapsed_seconds_partial",
    "Lrvm.C72_fraction_partial",
    "Lrvm.C72_epoch",
    "Lrvm.C72_fraction_refuted",
    "Lrvm.C72_word3_refuted",
    "Lrvm.C72_word3_partial",
    "Lrvm.C72_origin"
   ],
   "note": "System and elapsed seconds proved; the fraction word and word 3 are refuted, with what they are as _partial."
  },
  {
   "property": "C73",
   "status": "partial",
   "theorems": [
    "Lrvm.C73_clock",
    "Lrvm.C73_buffered_display",
    "Lrvm.C73_char_display",
    "Lrvm.C73_number_display",
    "Lrvm.C73_basic_debug",
    "Lrvm.C73_file_write_refuted",
    "Lrvm.C73_file_size_refuted",
    "Lrvm.C73_file_partial",
    "Lrvm.C73_char_keyboard",
    "Lrvm.C73_line_keyboard",
    "Lrvm.C73_ram",
    "Lrvm.C73_persistent",
    "Lrvm.C73_bootrom"
   ],
   "note": "Proved in full for every component but the file-backed memory (I/O errors and sizes can panic: refuted, _partial under I/O success)."
  },
  {
   "property": "C74",
   "status": "proved",
   "theorems": [
    "Lrvm.C74",
    "Lrvm.C74_no_map_abs"
   ],
   "note": ""
  },
  {
   "property": "C75",
   "status": "proved",
   "theorems": [
    "Lrvm.Counter.C75_one_thread",
    "Lrvm.Counter.C75_joined_first",
    "Lrvm.Counter.C75_read",
    "Lrvm.Counter.C75_accepts",
    "Lrvm.Counter.C75_stopped",
    "Lrvm.Counter.C75_join_progress",
    "Lrvm.Counter.C75_join_bounded"
   ],
   "note": ""
  },
  {
   "property": "C76",
   "status": "partial",
   "theorems": [
    "Lrvm.C76_display_refuted",
    "Lrvm.C76_clear_partial"
   ],
   "note": "Proved for the clear command; display commands do not clear the buffer (refuted)."
  },
  {
   "property": "C77",
   "status": "partial",
   "theorems": [
    "Lrvm.C77_reports_partial",
    "Lrvm.C77_words_refuted"
   ],
   "note": "Proved for the words inside the advertised 32 bytes; the interface advertises half of the documented range (refuted)."
  },
  {
   "property": "C78",
   "status": "partial",
   "theorems": [
    "Lrvm.C78_utf8_refuted",
    "Lrvm.C78_utf8_partial"
   ],
   "note": "Proved when the line fits; a line cut inside a character leaves invalid UTF-8 (refuted)."
  },
  {
   "property": "C79",
   "status": "partial",
   "theorems": [
    "Lrvm.Counter.C79_period_partial",
    "Lrvm.Counter.C79_second_refuted"
   ],
   "note": "Proved: exactly 99 sleeps of 10 ms between two increments; the documented second is refuted."
  },
  {
   "property": "C80",
   "status": "partial",
   "theorems": [
    "Lrvm.C80_lines_partial",
    "Lrvm.C80_refuted",
    "Lrvm.C80_annotated_partial",
    "Lrvm.C80_words"
   ],
   "note": "Proved for all programs, except that one instruction (jpr -0x8000) crashes the disassembler in debug builds (refuted)."
  },
  {
   "property": "C81",
   "status": "partial",
   "theorems": [
    "Lrvm.C81_table_partial",
    "Lrvm.C81_program_partial",
    "Lrvm.C81_code_partial",
    "Lrvm.C81_refuted"
   ],
   "note": "Exact characterisation of the programs that come back (C81_program_partial); others are refuted."
  },
  {
   "property": "C82",
   "status": "partial",
   "theorems": [
    "Lrvm.C82_source_partial",
    "Lrvm.C82_instruction_partial",
    "Lrvm.C82_srm_refuted",
    "Lrvm.C82_itr_refuted",
    "Lrvm.C82_division_refuted",
    "Lrvm.C82_lea_refuted",
    "Lrvm.C82_address_only_partial",
    "Lrvm.C82_numbers_refuted"
   ],
   "note": "Proved for all documented forms but those of Misassembled, each of which is refuted for all its operands (or shown equivalent: C82_address_only_partial). Labels are in C84."
  },
  {
   "property": "C83",
   "status": "partial",
   "theorems": [
    "Lrvm.C83_lsa_partial",
    "Lrvm.C83_lea_partial",
    "Lrvm.C83_wsa_partial",
    "Lrvm.C83_wea_partial",
    "Lrvm.C83_srm_partial",
    "Lrvm.C83_lsa_negative_refuted",
    "Lrvm.C83_refuted"
   ],
   "note": "Proved for registers and non-negative constants; negative constants are zero-extended (refuted; for LSA in general), and a negative register makes SRM crash in debug builds."
  },
  {
   "property": "C84",
   "status": "proved",
   "theorems": [
    "Lrvm.C84_labels",
    "Lrvm.C84_duplicate"
   ],
   "note": "For the forms of C82 that are not misassembled. Relative to the reading of customasm stated in DESIGN.md."
  },
  {
   "property": "C85",
   "status": "proved",
   "theorems": [
    "Lrvm.HelloWorld.C85_hello",
    "Lrvm.HelloWorld.C85_long"
   ],
   "note": "The whole stack: assembler (relative to the reading of customasm stated in DESIGN.md), motherboard, CPU, BootRom, Ram, BufferedDisplay, the loop of main. For all messages, not only the one of the repository."
  },
  {
   "property": "C86",
   "status": "proved",
   "theorems": [
    "Lrvm.Benchmark.C86_benchmark",
    "Lrvm.Benchmark.C86_minimal"
   ],
   "note": "For every shift below 32 and both build profiles, with the exact number of cycles. Relative to the reading of customasm stated in DESIGN.md."
  },
  {
   "property": "C87",
   "status": "proved",
   "theorems": [
    "Lrvm.HwDetect.C87_detect",
    "Lrvm.HwDetect.C87_repository"
   ],
   "note": "For any other components of any kind (at most 50 of them), not only the three of the repository; C87_repository gives the exact entries shown there. The formatting of the printed lines is not modelled. Relative to the reading of customasm stated in DESIGN.md."
  },
  {
   "property": "C88",
   "status": "proved",
   "theorems": [
    "Lrvm.ElapsedTime.C88_elapsed_time",
    "Lrvm.ElapsedTime.C88_monotone"
   ],
   "note": "For every sequence of clock readings; C88_monotone restates it for clocks that go forward. Relative to the reading of customasm stated in DESIGN.md."
  },
  {
   "property": "C89",
   "status": "partial",
   "theorems": [
    "Lrvm.AsyncHw.C89_ends_partial",
    "Lrvm.AsyncHw.C89_runs_partial",
    "Lrvm.AsyncHw.C89_readings",
    "Lrvm.AsyncHw.C89_slow_counter_partial",
    "Lrvm.AsyncHw.C89_missed_refuted"
   ],
   "note": "False if the counter jumps over 5 between two readings (C89_missed_refuted: the program compares for equality, and then never stops). Proved: it ends exactly when some reading is 5, with the exact lines, cycles and address (C89_ends_partial); otherwise it runs forever without exception, and displays exactly the readings that differ from the one before (C89_runs_partial); a counter read often enough displays 1 to 5 (C89_slow_counter_partial)."
  },
  {
   "property": "C90",
   "status": "proved",
   "theorems": [
    "Lrvm.C90_halt",
    "Lrvm.C90_only_halt",
    "Lrvm.C90_stopped_by_halt",
    "Lrvm.C90_cycles",
    "Lrvm.C90_cycles_refused",
    "Lrvm.C90_elapsed"
   ],
   "note": "The supervisor check the documentation asks for is C14's claim and is refuted there; C90 is about what the two instructions do."
  },
  {
   "property": "C91",
   "status": "partial",
   "theorems": [
    "Lrvm.Disassemble.C91_documented",
    "Lrvm.Disassemble.C91_settles",
    "Lrvm.Disassemble.C91_idempotent_partial",
    "Lrvm.Disassemble.C91_accepted_iff",
    "Lrvm.Disassemble.C91_example",
    "Lrvm.Disassemble.C91_example_settled",
    "Lrvm.Disassemble.C91_refuted"
   ],
   "note": "Idempotence holds for every source without `srm` whose text assembles; `srm` (which can only come from data) is shown as `srm` and then read as `wea` (`C91_refuted`); exactly which texts cannot be re-assembled is `C91_accepted_iff`."
  },
  {
   "property": "C92",
   "status": "partial",
   "theorems": [
    "Lrvm.Brainfuck.C92_ends_partial",
    "Lrvm.Brainfuck.C92_misaligned_partial",
    "Lrvm.Brainfuck.C92_diverges_partial",
    "Lrvm.Brainfuck.C92_brainfuck_partial",
    "Lrvm.Brainfuck.C92_move_refuted",
    "Lrvm.Brainfuck.C92_skip_refuted"
   ],
   "note": "Proved: for every typed line, the machine follows the character-by-character semantics Lang (C92_ends, C92_misaligned, C92_diverges), and for every structured Brainfuck program with moves written four times, at most 1021 nested loops, and no non-empty loop reached with a zero cell, it displays what Brainfuck says. False in general (proved): `>` moves one byte while cells are four bytes wide, so `>+` raises exception 5 (C92_move_refuted); a non-empty loop reached with a zero cell is reported as unclosed, at a position that is an address in the example's memory (C92_skip_refuted). Missing: what happens once the pointer leaves the cells (it then reads and writes other components) and after 1021 nested loops."
  },
  {
   "property": "C93",
   "status": "proved",
   "theorems": [
    "Lrvm.C93_decoding_errors",
    "Lrvm.C93_accepted"
   ],
   "note": "Proved in both directions for every word."
  },
  {
   "property": "C94",
   "status": "proved",
   "theorems": [
    "Lrvm.C94_registers",
    "Lrvm.C94_requests",
    "Lrvm.C94_requests_fault",
    "Lrvm.C94_no_request"
   ],
   "note": "C94_registers, C94_requests, C94_requests_fault, C94_no_request. RESET is excluded from the register part (its effect on the registers is C-claims on reset)."
  },
  {
   "property": "C95",
   "status": "proved",
   "theorems": [
    "Lrvm.C95_lines",
    "Lrvm.C95_quiet"
   ],
   "note": "C95_lines, C95_quiet."
  },
  {
   "property": "C96",
   "status": "partial",
   "theorems": [
    "Lrvm.C96_once_refuted",
    "Lrvm.C96_halting_partial",
    "Lrvm.C96_every_cycle_partial"
   ],
   "note": "False of the code. C96_once_refuted: after one handled exception every later cycle is reported as an exception. Proved instead: C96_halting_partial (a run that stops on exceptions reports exactly the one that stopped it) and C96_every_cycle_partial (otherwise every later cycle is reported)."
  },
  {
   "property": "C97",
   "status": "partial",
   "theorems": [
    "Lrvm.C97_same",
    "Lrvm.C97_quiet_returns",
    "Lrvm.C97_panic_refuted",
    "Lrvm.C97_returns_partial"
   ],
   "note": "The second half is false of the code (C97_panic_refuted: an et without text makes the printing run panic). C97_same and C97_quiet_returns hold in full; C97_returns_partial for machines whose et always has a text."
  },
  {
   "property": "C98",
   "status": "partial",
   "theorems": [
    "Lrvm.C98_resume",
    "Lrvm.C98_resume_returns",
    "Lrvm.C98_lines",
    "Lrvm.C98_exception_refuted",
    "Lrvm.C98_exception_partial"
   ],
   "note": "C98_resume, C98_resume_returns and C98_lines prove the cycle-limit half. The exception half is false of the code (C98_exception_refuted): with halt_on_exception every further call runs exactly one cycle (C98_exception_partial)."
  },
  {
   "property": "C99",
   "status": "partial",
   "theorems": [
    "Lrvm.C99_number",
    "Lrvm.C99_char",
    "Lrvm.C99_buffered",
    "Lrvm.C99_buffered_unique",
    "Lrvm.C99_debug_partial",
    "Lrvm.C99_debug_refuted"
   ],
   "note": "False for the debug interface in debug builds: `-n` overflows on the least number of each signed type, so a program can crash the virtual machine by writing 0x80 to word 3 (C99_debug_refuted); the partial theorem covers release builds and all other words, all sixteen words. C99_number, C99_char and C99_buffered hold without restriction."
  },
  {
   "property": "C100",
   "status": "partial",
   "theorems": [
    "Lrvm.C100_report_partial",
    "Lrvm.C100_overflow_refuted"
   ],
   "note": "False in debug builds: the default end address is computed before the size is checked, so a first component of fewer than 4 bytes or components that do not fit panic without any report (C100_overflow_refuted). The partial theorem is exact for all lists: it says when that happens, and all lines, the result and the mapped ranges otherwise (always in release builds)."
  },
  {
   "property": "C101",
   "status": "partial",
   "theorems": [
    "Lrvm.C101_options",
    "Lrvm.C101_newline_partial",
    "Lrvm.C101_newline_refuted"
   ],
   "note": "C101_options is proved for all sequences. The newline is only printed together with the final message: C101_newline_refuted (all quiet configurations), C101_newline_partial (with the message)."
  },
  {
   "property": "C102",
   "status": "partial",
   "theorems": [
    "Lrvm.C102_partial",
    "Lrvm.C102_negative_partial",
    "Lrvm.C102_refuted",
    "Lrvm.C102_jpr",
    "Lrvm.C102_widened",
    "Lrvm.C102_text_partial",
    "Lrvm.C102_unsigned_byte"
   ],
   "note": "Full claim false for every negative literal in cpy/add/sub (C102_refuted, all states). Exact: C102_partial (literals >= 0), C102_negative_partial (what happens instead); C102_jpr and C102_widened hold for every literal; C102_text_partial: all but i16::MIN, which panics in debug builds."
  },
  {
   "property": "C103",
   "status": "partial",
   "theorems": [
    "Lrvm.C103_partial",
    "Lrvm.C103_zero_partial",
    "Lrvm.C103_refuted"
   ],
   "note": "Full claim false: cpy r,0 (text also sets the flags), xor a,b (text zeroes b), srm (assembled as wea), division mode ZRO_MAX (text says MIN): C103_refuted. C103_partial covers every other instruction of every code that disassembles to an assemblable text; C103_zero_partial says exactly what cpy r,0 becomes."
  },
  {
   "property": "C104",
   "status": "proved",
   "theorems": [
    "Lrvm.C104_exception",
    "Lrvm.C104_category",
    "Lrvm.C104_decoding",
    "Lrvm.C104_decoding_text",
    "Lrvm.C104_mapping"
   ],
   "note": "Exceptions whose text cannot be made (register codes above 31 in 0x03/0x04, see C58/C95) have none, hence the hypotheses."
  },
  {
   "property": "C105",
   "status": "proved",
   "theorems": [
    "Lrvm.C105",
    "Lrvm.C105_next",
    "Lrvm.C105_ram"
   ],
   "note": "composition of C36 and C64/C66: the reads seen inside a whole board"
  },
  {
   "property": "C106",
   "status": "proved",
   "theorems": [
    "Lrvm.C106",
    "Lrvm.C106_memory",
    "Lrvm.C106_taped"
   ],
   "note": "C106 for any components; C106_memory for arrays of words; C106_taped shows the recording wrapper used by C105 changes nothing."
  },
  {
   "property": "C107",
   "status": "proved",
   "theorems": [
    "Lrvm.C107",
    "Lrvm.C107_unmapped",
    "Lrvm.C107_buffered_display_shows",
    "Lrvm.C107_char_display_shows",
    "Lrvm.C107_number_display_shows",
    "Lrvm.C107_basic_debug_shows",
    "Lrvm.C107_memory"
   ],
   "note": "C107 for any rebooting components; C107_memory and C108_* give the components; C107_*_shows for what displays show."
  },
  {
   "property": "C108",
   "status": "partial",
   "theorems": [
    "Lrvm.C108_buffered_display",
    "Lrvm.C108_char_display",
    "Lrvm.C108_number_display",
    "Lrvm.C108_basic_debug",
    "Lrvm.C108_memory_partial",
    "Lrvm.C108_memory_refuted",
    "Lrvm.C108_ram",
    "Lrvm.C108_persistent",
    "Lrvm.C108_bootrom",
    "Lrvm.C108_file_refuted",
    "Lrvm.C108_char_keyboard_partial",
    "Lrvm.C108_keyboard_refuted",
    "Lrvm.C108_line_keyboard_partial",
    "Lrvm.C108_clock_partial",
    "Lrvm.C108_file_partial"
   ],
   "note": "Holds for Ram::new, PersistentMem::new, boot ROM, displays, debug interface. Refuted for memories created with a non-zero content (C108_memory_partial: exactly when every reachable word is zero), for the file-backed memory and for keyboards; C108_char_keyboard_partial, C108_line_keyboard_partial and C108_clock_partial give the exact state after the reset: that of a component created with what remains of the input, or created at the time of the reset; C108_file_partial: of a component opened on the file as it is."
  },
  {
   "property": "C109",
   "status": "partial",
   "theorems": [
    "Lrvm.C109_integrity_partial",
    "Lrvm.C109_reset_refuted"
   ],
   "note": "Exact except for RESET, which the code lets userland execute: it erases the RAM (C109_reset_refuted)."
  },
  {
   "property": "C110",
   "status": "partial",
   "theorems": [
    "Lrvm.C110_confidentiality_partial",
    "Lrvm.C110_reset_refuted"
   ],
   "note": "Exact except for RESET: a reset of the processor alone puts it in supervisor mode at address 0 with the MMU off, so instructions of the program's own there read the secret (C110_reset_refuted)."
  },
  {
   "property": "C111",
   "status": "partial",
   "theorems": [
    "Lrvm.C111_place_lost_partial",
    "Lrvm.C111_no_handler_partial",
    "Lrvm.C111_refuted",
    "Lrvm.C111_stub_partial"
   ],
   "note": "False of the code: era is never written, so the place of the program is lost. C111_place_lost_partial: after the same interruption at p or at q the machine is the same. C111_no_handler_partial: hence no handler resumes both programs. C111_refuted: a machine where the program is never resumed. C111_stub_partial: what a user can do instead - call a stub 'itr n; pop pc' and let the handler end with 'lsm stub'; the program then goes on after its call with its registers as the handler left them. Missing: the claim itself."
  },
  {
   "property": "C112",
   "status": "proved",
   "theorems": [
    "Lrvm.C112_bad_vector",
    "Lrvm.C112_unaligned_vector",
    "Lrvm.C112_no_program",
    "Lrvm.C112_runs_forever",
    "Lrvm.C112_limit"
   ],
   "note": "C112_bad_vector and C112_unaligned_vector: from the vector, for every number of cycles, only et and the cycles tell the machine from what it was. C112_no_program: the same for a machine made by prepare_vm, from reset. C112_runs_forever: run_vm is related to no result, not even a panic. C112_limit: with a limit l it returns after l+1 cycles at address 0. The program shown at that point of the tutorial contains assert_eq!(cpu.regs.et, 0), which would stop it after one cycle, contrary to the text; the theorem is about the text (and about run_vm)."
  },
  {
   "property": "C113",
   "status": "proved",
   "theorems": [
    "Lrvm.C113_reported",
    "Lrvm.C113_explained",
    "Lrvm.C113_unique"
   ],
   "note": "C113_reported: each cause leads to its exception (full effect of the cycle). C113_explained: conversely, after any fetch, either a cause was reported or there is none and et is unchanged (or RESET reset the CPU). C113_unique: causes do not conflict. Faults of the fetch itself are C04 and C25. The flags left by an operation whose destination is refused are those of the operation (C16, C17), and are not repeated here."
  },
  {
   "property": "C114",
   "status": "proved",
   "theorems": [
    "Lrvm.C114_step",
    "Lrvm.C114_run",
    "Lrvm.C114_boards",
    "Lrvm.C114_reset",
    "Lrvm.C114_hwd_differs"
   ],
   "note": "All orders, with any further unmapped components; HWD and RESET take positions and are excluded (C114_hwd_differs shows that this is needed)."
  },
  {
   "property": "C115",
   "status": "proved",
   "theorems": [
    "Lrvm.C115_session",
    "Lrvm.C115_file",
    "Lrvm.C115",
    "Lrvm.C115_next"
   ],
   "note": "Chains of any number of machines; the file is used by the component alone, and the process is stopped between host calls (a panic in the middle of a write_all is not a stopping point)."
  },
  {
   "property": "C116",
   "status": "proved",
   "theorems": [
    "Lrvm.C116"
   ],
   "note": "For every component that is an array of words (C64, C66)."
  },
  {
   "property": "C117",
   "status": "proved",
   "theorems": [
    "Lrvm.C117_step",
    "Lrvm.C117_run",
    "Lrvm.C117",
    "Lrvm.C117_reads_pc",
    "Lrvm.C117_call"
   ],
   "note": "Instructions that read pc and CALL are excluded by hypothesis; C117_reads_pc and C117_call show that they must be."
  },
  {
   "property": "C118",
   "status": "proved",
   "theorems": [
    "Lrvm.C118_step",
    "Lrvm.C118",
    "Lrvm.C118_jpr_zero"
   ],
   "note": "C118_jpr_zero: with a jump by 0 the code runs forever."
  },
  {
   "property": "C119",
   "status": "proved",
   "theorems": [
    "Lrvm.C119_bundled",
    "Lrvm.C119_read",
    "Lrvm.C119"
   ],
   "note": "The realtime clock, the file-backed memory and the counter, whose answers depend on events outside the machine, are not in the list."
  },
  {
   "property": "C120",
   "status": "proved",
   "theorems": [
    "Lrvm.C120_unused",
    "Lrvm.C120_direct",
    "Lrvm.C120_restrictions"
   ],
   "note": "C120_restrictions shows that neither restriction can be dropped."
  },
  {
   "property": "C121",
   "status": "proved",
   "theorems": [
    "Lrvm.C121_step",
    "Lrvm.C121_run",
    "Lrvm.C121_unmapped",
    "Lrvm.C121_restrictions"
   ],
   "note": "C121_restrictions shows that a program reading mtt and a table with a refusing entry do tell the difference."
  },
  {
   "property": "C122",
   "status": "proved",
   "theorems": [
    "Lrvm.C122_calls",
    "Lrvm.C122_history",
    "Lrvm.C122_run",
    "Lrvm.C122_prepare",
    "Lrvm.C122_texts",
    "Lrvm.C122_components",
    "Lrvm.C122_needs_no_panic"
   ],
   "note": "C122_needs_no_panic shows that the condition is needed: IF2 with flag 8 panics in debug builds only."
  },
  {
   "property": "C123",
   "status": "proved",
   "theorems": [
    "Lrvm.C123",
    "Lrvm.C123_map",
    "Lrvm.C123_ids",
    "Lrvm.C123_needs_not_asking"
   ],
   "note": "C123_needs_not_asking: a program that asks for an identifier tells the boards apart."
  },
  {
   "property": "C124",
   "status": "partial",
   "theorems": [
    "Lrvm.C124_false",
    "Lrvm.C124_partial"
   ],
   "note": "False of the code (C124_false): even two names of 65 letters a and b share an identifier. C124_partial: the bytes hashed are different for different names, and never begin those of another name, so that identifiers coincide only by a collision of the hash function. By C123 a collision does not crash the machine."
  },
  {
   "property": "C125",
   "status": "proved",
   "theorems": [
    "Lrvm.C125",
    "Lrvm.C125_run",
    "Lrvm.C125_answers",
    "Lrvm.C125_needs_no_cycles"
   ],
   "note": "C125_needs_no_cycles: CYCLES tells such machines apart."
  },
  {
   "property": "C126",
   "status": "partial",
   "theorems": [
    "Lrvm.C126_accepts_partial",
    "Lrvm.C126_with_size_partial",
    "Lrvm.C126_from_partial",
    "Lrvm.C126_false",
    "Lrvm.C126_size_partial"
   ],
   "note": "False of the code (C126_false). Exact: which sizes are accepted, when the storage is contained, what size() gives."
  },
  {
   "property": "C127",
   "status": "proved",
   "theorems": [
    "Lrvm.C127_step",
    "Lrvm.C127_run",
    "Lrvm.C127",
    "Lrvm.C127_special"
   ],
   "note": "Proved, for one step (any instruction when the machines are at the same place, position-free ones otherwise), for runs, and for two boot ROMs. C127_special shows that ssp may not be renamed."
  },
  {
   "property": "C128",
   "status": "proved",
   "theorems": [
    "Lrvm.C128",
    "Lrvm.C128_players"
   ],
   "note": "Proved, for any replacement and for players."
  },
  {
   "property": "C129",
   "status": "proved",
   "theorems": [
    "Lrvm.C129",
    "Lrvm.C129_rom"
   ],
   "note": "Proved for arrays of words (C64, C66 give the hypothesis for Ram and PersistentMem) and for boot ROMs."
  },
  {
   "property": "C130",
   "status": "proved",
   "theorems": [
    "Lrvm.C130_step",
    "Lrvm.C130_run",
    "Lrvm.C130_cut",
    "Lrvm.C130_cut_run",
    "Lrvm.C130_read"
   ],
   "note": "Proved. C114_hwd_differs shows that the restriction is needed."
  },
  {
   "property": "C131",
   "status": "proved",
   "theorems": [
    "Lrvm.C131",
    "Lrvm.C131_run"
   ],
   "note": "Proved. That CYCLES must be excluded is the cycle counter of the processor, which the interface cannot set."
  },
  {
   "property": "C132",
   "status": "partial",
   "theorems": [
    "Lrvm.C132_assembles",
    "Lrvm.C132_set_reg",
    "Lrvm.C132_read_addr",
    "Lrvm.C132_read_addr_to",
    "Lrvm.C132_write_addr_partial",
    "Lrvm.C132_write_addr_refuted",
    "Lrvm.C132_write_addr_lit"
   ],
   "note": "Proved for SetReg, ReadAddr, ReadAddrTo and WriteAddrLit (under the conditions of C60 on r). False of WriteAddr with rr0 or pc (C132_write_addr_refuted, all states); C132_write_addr_partial: every other readable register but af. Direct encoding gets ReadAddrTo and WriteAddr wrong (C60)."
  },
  {
   "property": "C133",
   "status": "proved",
   "theorems": [
    "Lrvm.C133_unmapped",
    "Lrvm.C133_never_named",
    "Lrvm.C133_unmappable",
    "Lrvm.C133_set_size",
    "Lrvm.C133_new_refuses"
   ],
   "note": "Proved. C133_unmapped (not in the table at the end), C133_never_named (in terms of the calls), C133_unmappable (sizes no call accepts), C133_set_size and C133_new_refuses (set_size does not check what new checks)."
  },
  {
   "property": "C134",
   "status": "proved",
   "theorems": [
    "Lrvm.C134_step",
    "Lrvm.C134_no_fetch",
    "Lrvm.C134_any_step",
    "Lrvm.C134_run"
   ],
   "note": "Proved (C134_step, C134_no_fetch, C134_run); the bounds are reached by an SRM with translation on. RESET is the only instruction that resets components (C94, C41) and is not counted here."
  },
  {
   "property": "C135",
   "status": "partial",
   "theorems": [
    "Lrvm.C135_map",
    "Lrvm.C135_map_abs_partial",
    "Lrvm.C135_refused_unchanged",
    "Lrvm.C135_whole_space_refuted",
    "Lrvm.C135_one_word_more_refuted"
   ],
   "note": "`map`: proved in full (C135_map). `map_abs`: C135_map_abs_partial, all requests but two kinds; false of the code for those: a range one word larger than the component is accepted (C135_one_word_more_refuted), and in release builds the whole address space is called a null range (C135_whole_space_refuted). When the calls panic instead of returning is C49_map_panics_iff and C49_map_abs_panics_iff."
  },
  {
   "property": "C136",
   "status": "proved",
   "theorems": [
    "Lrvm.C136_crash",
    "Lrvm.C136_file",
    "Lrvm.C136_kept",
    "Lrvm.C136_untouched",
    "Lrvm.C136_next",
    "Lrvm.C136_mixed",
    "Lrvm.C136_answered",
    "Lrvm.C136_before"
   ],
   "note": "Proved: one crash (C136_crash), chains of machines and crashes (C136_file, C136_kept, C136_untouched), the next machine (C136_next). C136_mixed, C136_answered and C136_before say what the definitions mean: bytes of a half-written word, an answered write is the last stopping state, a component that has not stopped yet answers as usual. That the bytes of one write reach the file in order is assumed."
  },
  {
   "property": "C137",
   "status": "proved",
   "theorems": [
    "Lrvm.C137_memory",
    "Lrvm.C137_lost",
    "Lrvm.C137_tells",
    "Lrvm.C137_line",
    "Lrvm.C137_line_kept",
    "Lrvm.C137_file"
   ],
   "note": "Proved: memory (C137_memory, C137_lost, C137_tells), line keyboard (C137_line, C137_line_kept), files (C137_file). The lines printed during a CPU cycle are not collected: the claim is per access."
  }
 ]
}