{
 "claims": [
  {
   "property": "C01",
   "status": "proved",
   "theorems": [
    "Armips.Props.passes_bounded",
    "Armips.Props.output_only_when_settled",
    "Armips.Props.output_sizes_settled",
    "Armips.Props.settled_command",
    "Armips.Props.pass_limit_fails"
   ],
   "note": "At most 100 passes, for every command tree and every instruction semantics."
  },
  {
   "property": "C02",
   "status": "proved",
   "theorems": [
    "Armips.Props.label_is_address",
    "Armips.Props.label_points_at_bytes",
    "Armips.Props.bytes_in_output",
    "Armips.Props.assembled_layout",
    "Armips.Props.label_of_earlier_pass"
   ],
   "note": "For all command trees; label_of_earlier_pass records that a label whose definition is not executed in the last pass keeps its old value (outside the property, see DESIGN)."
  },
  {
   "property": "C03",
   "status": "proved",
   "theorems": [
    "Armips.Props.encode_moves_like_validate",
    "Armips.Props.ready_start",
    "Armips.Props.ready_rest"
   ],
   "note": ""
  },
  {
   "property": "C04",
   "status": "proved",
   "theorems": [
    "Armips.Props.final_values_used",
    "Armips.Props.assembled_layout",
    "Armips.Props.definelabel_forward_fails"
   ],
   "note": ""
  },
  {
   "property": "C05",
   "status": "proved",
   "theorems": [
    "Armips.Props.isPowerOfTwo_exact",
    "Armips.Props.align_rejects",
    "Armips.Props.align_minimal",
    "Armips.Props.align_negative"
   ],
   "note": "The property is about nonnegative addresses; align_negative shows what happens otherwise."
  },
  {
   "property": "C06",
   "status": "proved",
   "theorems": [
    "Armips.Props.fill_skip_exact",
    "Armips.Props.negative_fill_ub"
   ],
   "note": ""
  },
  {
   "property": "C07",
   "status": "proved",
   "theorems": [
    "Armips.Props.fm_addresses",
    "Armips.Props.fm_open",
    "Armips.Props.headersize_without_file_ub"
   ],
   "note": "Every history of output file operations keeps virtual minus physical equal to the header size; the missing null check of .headersize is proved as a finding."
  },
  {
   "property": "C08",
   "status": "proved",
   "theorems": [
    "Armips.Props.fm_contents",
    "Armips.Props.fm_open_contents",
    "Armips.Props.fm_check_only"
   ],
   "note": "Every byte of the output after any sequence of writes and seeks is the last one written there, the old content or zero."
  },
  {
   "property": "C09",
   "status": "proved",
   "theorems": [
    "Armips.Props.writeU8_bytes",
    "Armips.Props.writeU16_bytes",
    "Armips.Props.writeU32_bytes",
    "Armips.Props.writeU64_bytes"
   ],
   "note": ""
  },
  {
   "property": "C10",
   "status": "proved",
   "theorems": [
    "Armips.Props.string_operators",
    "Armips.Props.abs_integer",
    "Armips.Props.abs_float",
    "Armips.Props.int_operators",
    "Armips.Props.int_result_unique",
    "Armips.Props.int_overflow_undefined",
    "Armips.Props.int_neg",
    "Armips.Props.int_complement"
   ],
   "note": ""
  },
  {
   "property": "C11",
   "status": "partial",
   "theorems": [
    "Armips.Props.logical_operators_partial",
    "Armips.Props.logical_operators_float",
    "Armips.Props.logical_operators_can_exceed_one"
   ],
   "note": "The full property is false of the code: logical_operators_can_exceed_one."
  },
  {
   "property": "C12",
   "status": "proved",
   "theorems": [
    "Armips.Props.simplify_preserves_value",
    "Armips.Props.simplify_success_constant"
   ],
   "note": ""
  },
  {
   "property": "C13",
   "status": "proved",
   "theorems": [
    "Armips.Props.expr_read",
    "Armips.Props.expr_read_all",
    "Armips.Props.expr_full",
    "Armips.Props.expr_short",
    "Armips.Props.expr_shortest",
    "Armips.Props.expr_left",
    "Armips.Props.expr_stronger_right",
    "Armips.Props.expr_conditional",
    "Armips.Props.writes_unique",
    "Armips.Props.expr_failure",
    "Armips.Props.expr_read_only_partial",
    "Armips.Props.expr_two_prefixes",
    "Armips.Props.expr_unclosed_wrong",
    "Armips.Props.expr_broken_wrong",
    "Armips.Props.expr_not_written"
   ],
   "note": "All expressions and all ways to write them with tokens, followed by any tokens. The converse (nothing else is read) holds without parentheses only (expr_read_only_partial); with them some malformed input is read as something else (theorems named _wrong)."
  },
  {
   "property": "C14",
   "status": "proved",
   "theorems": [
    "Armips.Props.identifier_characters",
    "Armips.Props.label_identity",
    "Armips.Props.label_lookup_fails",
    "Armips.Props.valid_name"
   ],
   "note": ""
  },
  {
   "property": "C15",
   "status": "proved",
   "theorems": [
    "Armips.Props.label_defined_once",
    "Armips.Props.second_definition_rejected",
    "Armips.Props.label_then_equ",
    "Armips.Props.equ_then_label"
   ],
   "note": ""
  },
  {
   "property": "C16",
   "status": "proved",
   "theorems": [
    "Armips.Props.generated_names_fresh",
    "Armips.Props.generated_names_can_clash"
   ],
   "note": "Generated names are pairwise different; generated_names_can_clash shows a user label can have the same name."
  },
  {
   "property": "C17",
   "status": "proved",
   "theorems": [
    "Armips.Props.findSection_closest",
    "Armips.Props.sectionOf_unique",
    "Armips.Props.findSection_counts_undefined"
   ],
   "note": ""
  },
  {
   "property": "C18",
   "status": "partial",
   "theorems": [
    "Armips.Props.failure_discards_positions",
    "Armips.Props.no_overlap_reported",
    "Armips.Props.block_inside_region",
    "Armips.Props.blocks_ordered",
    "Armips.Props.blocks_disjoint",
    "Armips.Props.fill_spares_blocks",
    "Armips.Props.block_in_range_partial",
    "Armips.Props.block_in_range_fresh",
    "Armips.Props.kept_block_out_of_range",
    "Armips.Props.allocation_complete",
    "Armips.Props.autoregion_stale"
   ],
   "note": "Containment, disjointness and completeness are proved for all histories of allocator operations; the upper range bound is false of the code for a kept position (kept_block_out_of_range) and proved otherwise; at the level of whole programs a block can stay in a region that moved away (autoregion_stale)."
  },
  {
   "property": "C19",
   "status": "partial",
   "theorems": [
    "Armips.Props.area_fits_partial",
    "Armips.Props.area_overflow_unreported"
   ],
   "note": "The content's end is checked and the padding is exact; content that passes the end and moves back is not reported (area_overflow_unreported)."
  },
  {
   "property": "C20",
   "status": "proved",
   "theorems": [
    "Armips.Props.pool_request_served",
    "Armips.Props.pool_slots",
    "Armips.Props.thumb_pool_reaches"
   ],
   "note": ""
  },
  {
   "property": "C21",
   "status": "proved",
   "theorems": [
    "Armips.Props.arm_immediate_exact",
    "Armips.Props.arm_immediate_complete"
   ],
   "note": "All data processing instructions with an immediate; the constant is an integer modulo 2^32 or the bits of a float."
  },
  {
   "property": "C22",
   "status": "proved",
   "theorems": [
    "Armips.Props.arm_immediate_effect",
    "Armips.Props.arm_immediate_substitution_complete",
    "Armips.Props.thumb_opposite_effect"
   ],
   "note": "Result, carry and overflow for every register and flag value; the carry of the logical S forms, which comes from the rotation, is not compared."
  },
  {
   "property": "C23",
   "status": "proved",
   "theorems": [
    "Armips.Props.arm_branch_reaches",
    "Armips.Props.arm_blx_reaches",
    "Armips.Props.arm_branch_rejects",
    "Armips.Props.arm_branch_accepts"
   ],
   "note": "b, bl and blx; addresses modulo 2^32. The offset -32 MiB is refused although encodable."
  },
  {
   "property": "C24",
   "status": "partial",
   "theorems": [
    "Armips.Props.thumb_branch_reaches",
    "Armips.Props.thumb_branch_rejects",
    "Armips.Props.thumb_bl_reaches",
    "Armips.Props.thumb_blx_reaches_partial",
    "Armips.Props.thumb_blx_wraps",
    "Armips.Props.thumb_long_rejects",
    "Armips.Props.thumb_literal_reaches",
    "Armips.Props.thumb_literal_rejects"
   ],
   "note": "Conditional branches, b, bl, PC-relative loads and additions in full; blx is false for the largest distance (thumb_blx_wraps), proved for all others."
  },
  {
   "property": "C25",
   "status": "partial",
   "theorems": [
    "Armips.Props.thumb_layouts_cover",
    "Armips.Props.thumb_register_word",
    "Armips.Props.thumb_constant_word",
    "Armips.Props.thumb_constant_rejects",
    "Armips.Props.thumb_shift_word",
    "Armips.Props.thumb_shift_rejects",
    "Armips.Props.thumb_multiple_word_partial",
    "Armips.Props.thumb_stack_word_partial",
    "Armips.Props.thumb_block_drops",
    "Armips.Props.thumb_push_pc_wrong",
    "Armips.Props.thumb_ldr_pc_wrong",
    "Armips.Props.thumb_nop",
    "Armips.Props.arm_layouts_cover",
    "Armips.Props.arm_rows_covered",
    "Armips.Props.arm_bx_word",
    "Armips.Props.arm_multiply_word",
    "Armips.Props.arm_swap_word",
    "Armips.Props.arm_saturating_word",
    "Armips.Props.arm_clz_word",
    "Armips.Props.arm_mrs_word",
    "Armips.Props.arm_msr_word",
    "Armips.Props.arm_block_word",
    "Armips.Props.arm_push_word",
    "Armips.Props.arm_cdp_word",
    "Armips.Props.arm_mcr_word",
    "Armips.Props.arm_mcrr_word",
    "Armips.Props.arm_register_word",
    "Armips.Props.arm_shifted_word",
    "Armips.Props.arm_shifted_register_word",
    "Armips.Props.arm_register_accepted",
    "Armips.Props.arm_shift_accepted",
    "Armips.Props.arm_shift_rejected",
    "Armips.Props.arm_shift_pseudo_word",
    "Armips.Props.arm_shift_pseudo_register_word",
    "Armips.Props.arm_swi_word",
    "Armips.Props.arm_bkpt_word",
    "Armips.Props.arm_load_plain_word",
    "Armips.Props.arm_load_const_word",
    "Armips.Props.arm_load_const_accepted",
    "Armips.Props.arm_load_register_word",
    "Armips.Props.arm_misc_plain_word",
    "Armips.Props.arm_misc_register_word",
    "Armips.Props.arm_misc_const_word",
    "Armips.Props.arm_misc_const_accepted",
    "Armips.Props.arm_absolute_word",
    "Armips.Props.arm_msr_immediate_word",
    "Armips.Props.arm_adr_word",
    "Armips.Props.arm_literal_word",
    "Armips.Props.arm_literal_accepted",
    "Armips.Props.arm_pld_word",
    "Armips.Props.arm_nop_word"
   ],
   "note": "All rows of both tables. Partial because the property is false for some rows; what the code does there is stated in theorems named _wrong, _drops and _spills."
  },
  {
   "property": "C26",
   "status": "partial",
   "theorems": [
    "Armips.Props.mips_branch_reaches_partial",
    "Armips.Props.mips_branch_accepted",
    "Armips.Props.mips_branch_rejected",
    "Armips.Props.mips_jump_reaches_partial",
    "Armips.Props.mips_no_branch_in_delay_slot",
    "Armips.Props.mips_branch_boundary_wrong",
    "Armips.Props.mips_branch_misaligned_wrong",
    "Armips.Props.mips_branch_after_nop_wrong",
    "Armips.Props.mips_jump_region_wrong"
   ],
   "note": "All branches and jumps of the table. The property is false for one distance and for targets that are not aligned (theorems named _wrong); proved for all others."
  },
  {
   "property": "C27",
   "status": "partial",
   "theorems": [
    "Armips.Props.mips_immediate_partial",
    "Armips.Props.mips_immediate_accepted",
    "Armips.Props.mips_immediate_rejected",
    "Armips.Props.mips_immediate_wraps",
    "Armips.Props.mips_immediate_min_undefined"
   ],
   "note": "All immediates. Representable numbers are accepted, larger ones rejected, and fields hold the number modulo 2^n; the property is false for negative numbers below the signed range (mips_immediate_wraps)."
  },
  {
   "property": "C28",
   "status": "partial",
   "theorems": [
    "Armips.Props.mips_writes_word",
    "Armips.Props.mips_word_holds",
    "Armips.Props.mips_word_layout",
    "Armips.Props.mips_layouts_complete",
    "Armips.Props.mips_operands_determined",
    "Armips.Props.mips_ins_spills",
    "Armips.Props.mips_seb_short_wrong",
    "Armips.Props.mips_vcmov_clash",
    "Armips.Props.mips_vmtvc_size_lost"
   ],
   "note": "All 702 rows of the table, against layouts taken from the manuals. Partial because the property is false for the rows named in the theorems mips_ins_spills, mips_seb_short_wrong, mips_vcmov_clash and mips_vmtvc_size_lost."
  },
  {
   "property": "C29",
   "status": "proved",
   "theorems": [
    "Armips.Props.mips_li_loads",
    "Armips.Props.mips_li_float",
    "Armips.Props.mips_li_range",
    "Armips.Props.mips_li_halves"
   ],
   "note": "li and la, whole and in halves, with every immediate whose text can be printed; executed on an instruction set specification written from the manual."
  },
  {
   "property": "C30",
   "status": "partial",
   "theorems": [
    "Armips.Props.mips_load_address_partial",
    "Armips.Props.mips_store_address_partial",
    "Armips.Props.mips_fpu_address",
    "Armips.Props.mips_load_halves_partial",
    "Armips.Props.mips_store_halves",
    "Armips.Props.mips_fpu_halves",
    "Armips.Props.mips_load_zero_wrong",
    "Armips.Props.mips_store_at_wrong"
   ],
   "note": "All load and store macros, whole and in halves. The property is false for loads to r0 and stores of r1 (theorems named _wrong)."
  },
  {
   "property": "C31",
   "status": "partial",
   "theorems": [
    "Armips.Props.mips_branch_registers",
    "Armips.Props.mips_branch_immediate_partial",
    "Armips.Props.mips_branch_equal_partial",
    "Armips.Props.mips_set_registers",
    "Armips.Props.mips_set_immediate_partial",
    "Armips.Props.mips_branch_at_wrong",
    "Armips.Props.mips_set_same_wrong"
   ],
   "note": "All branching and setting macros, relation and branch target. The property is false when the immediate has to be loaded to the source register (theorems named _wrong)."
  },
  {
   "property": "C32",
   "status": "partial",
   "theorems": [
    "Armips.Props.mips_rotate_register_partial",
    "Armips.Props.mips_rotate_constant_partial",
    "Armips.Props.mips_abs_partial",
    "Armips.Props.mips_dabs_partial",
    "Armips.Props.mips_rotate_negative_refused",
    "Armips.Props.mips_abs_at_wrong"
   ],
   "note": "All register values and amounts; dabs on a 64-bit machine. Register 1 must not be an operand (mips_abs_at_wrong shows that it goes wrong); negative constants are refused (mips_rotate_negative_refused)."
  },
  {
   "property": "C33",
   "status": "partial",
   "theorems": [
    "Armips.Props.mips_ulhu_partial",
    "Armips.Props.mips_ulh_partial",
    "Armips.Props.mips_ulw_partial",
    "Armips.Props.mips_ush_partial",
    "Armips.Props.mips_usw_partial",
    "Armips.Props.mips_uld_partial",
    "Armips.Props.mips_usd_partial",
    "Armips.Props.mips_ulh_wrong",
    "Armips.Props.mips_ulw_big_endian_wrong",
    "Armips.Props.mips_uld_big_endian_wrong",
    "Armips.Props.mips_usw_same_refused",
    "Armips.Props.mips_usd_same_refused"
   ],
   "note": "All memories, addresses and values, on a little-endian machine, with offsets from -2^15 to 2^15 - 1. The property is false for ulh with a low byte from 0x80 on and on big-endian machines (theorems named _wrong). uld and usd are on a 64-bit machine."
  },
  {
   "property": "C34",
   "status": "proved",
   "theorems": [
    "Armips.Props.hi_lo_recombine",
    "Armips.Props.hi_lo_callable"
   ],
   "note": ""
  },
  {
   "property": "C35",
   "status": "partial",
   "theorems": [
    "Armips.Props.mips_hi_lo",
    "Armips.Props.mips_hi_lo_mismatch",
    "Armips.Props.mips_pair_accepted",
    "Armips.Props.mips_word_reloc",
    "Armips.Props.mips_other_bytes",
    "Armips.Props.mips_unknown_type",
    "Armips.Props.mips_symbol_here",
    "Armips.Props.mips_symbol_elsewhere",
    "Armips.Props.mips_hi_alone_wrong",
    "Armips.Props.mips_hi_lo_undefined"
   ],
   "note": "Any number and order of relocations in a section. Partial because a HI16 without LO16 is not reported (mips_hi_alone_wrong) and one case is undefined (mips_hi_lo_undefined)."
  },
  {
   "property": "C36",
   "status": "partial",
   "theorems": [
    "Armips.Props.arm_call_reloc",
    "Armips.Props.arm_call_reported",
    "Armips.Props.thumb_call_reloc",
    "Armips.Props.thumb_call_reported",
    "Armips.Props.arm_word_reloc",
    "Armips.Props.arm_unknown_type",
    "Armips.Props.arm_other_bytes",
    "Armips.Props.arm_symbol_here",
    "Armips.Props.sh_word_reloc",
    "Armips.Props.thumb_blx_bit_wrong",
    "Armips.Props.arm_blx_kept_wrong",
    "Armips.Props.thumb_blx_kept_wrong",
    "Armips.Props.arm_call_undefined"
   ],
   "note": "All instructions, addresses and symbols, in sections with any relocations. Partial because some blx instructions come out wrong (theorems named _wrong)."
  },
  {
   "property": "C37",
   "status": "proved",
   "theorems": [
    "Armips.Props.mips_no_load_delay",
    "Armips.Props.mips_delay_size",
    "Armips.Props.mips_delay_revalidates",
    "Armips.Props.mips_move_delay_ignored"
   ],
   "note": "All straight-line sequences of PlayStation instructions. mips_move_delay_ignored records that moves from a coprocessor are not tracked."
  },
  {
   "property": "C38",
   "status": "partial",
   "theorems": [
    "Armips.Props.sh_branch_reaches",
    "Armips.Props.sh_branch_accepted_partial",
    "Armips.Props.sh_branch_refused",
    "Armips.Props.sh_branch_lowest_wrong",
    "Armips.Props.sh_branch_high_wrong",
    "Armips.Props.sh_data_reaches",
    "Armips.Props.sh_data_accepted_partial",
    "Armips.Props.sh_data_refused",
    "Armips.Props.sh_pc_displacement",
    "Armips.Props.sh_pc_displacement_wrong"
   ],
   "note": "All branches and all accesses relative to the program counter, all addresses and targets: what is accepted reaches its target, everything out of reach or misaligned is refused. Partial because some reachable targets are refused as well (theorems named _wrong)."
  },
  {
   "property": "C39",
   "status": "partial",
   "theorems": [
    "Armips.Props.sh_word",
    "Armips.Props.sh_registers",
    "Armips.Props.sh_unique",
    "Armips.Props.sh_immediate_partial",
    "Armips.Props.sh_immediate_refused",
    "Armips.Props.sh_immediate_wrong",
    "Armips.Props.sh_displacement_partial",
    "Armips.Props.sh_displacement_refused",
    "Armips.Props.sh_displacement_wrong",
    "Armips.Props.sh_odd_address",
    "Armips.Props.sh_at_register_wrong"
   ],
   "note": "All 145 instructions of the manual with their operands, from the parser to the bits. Partial because negative immediates and displacements that do not fit are accepted (theorems named _wrong)."
  },
  {
   "property": "C40",
   "status": "proved",
   "theorems": [
    "Armips.Props.crc32_standard",
    "Armips.Props.crc16_standard",
    "Armips.Props.checksum_sum"
   ],
   "note": "CRC-16 in the code is the reflected 0xA001 polynomial with initial value 0xFFFF."
  },
  {
   "property": "C41",
   "status": "proved",
   "theorems": [
    "Armips.Props.hex_digits",
    "Armips.Props.table_encode",
    "Armips.Props.greedy_total",
    "Armips.Props.greedy_unique",
    "Armips.Props.longestMatch_unique",
    "Armips.Props.parseHex_even",
    "Armips.Props.parseHex_reject",
    "Armips.Props.table_load",
    "Armips.Props.table_reload_stale",
    "Armips.Props.table_line_without_equals"
   ],
   "note": "Holds for a table loaded into a fresh object; table_reload_stale is the negation for a second load into the same object (see DESIGN findings)."
  },
  {
   "property": "C42",
   "status": "proved",
   "theorems": [
    "Armips.Props.utf8_reader_diagnosis",
    "Armips.Props.utf8_reader_roundtrip",
    "Armips.Props.utf8_tokenizer_roundtrip"
   ],
   "note": ""
  },
  {
   "property": "C43",
   "status": "proved",
   "theorems": [
    "Armips.Props.literal_accepted",
    "Armips.Props.literal_rejected",
    "Armips.Props.literal_reading_unique",
    "Armips.Props.literal_minus_accepted",
    "Armips.Props.literal_empty_ub"
   ],
   "note": "literal_minus_accepted and literal_empty_ub record inputs outside the property where the parser misbehaves."
  },
  {
   "property": "C44",
   "status": "proved",
   "theorems": [
    "Armips.Props.ba_empty",
    "Armips.Props.ba_append",
    "Armips.Props.ba_reserve",
    "Armips.Props.ba_alignSize",
    "Armips.Props.ba_replaceBytes",
    "Armips.Props.ba_replaceWord",
    "Armips.Props.ba_replaceDoubleWord",
    "Armips.Props.ba_getWord",
    "Armips.Props.ba_getDoubleWord",
    "Armips.Props.ba_word_roundtrip",
    "Armips.Props.ba_doubleWord_roundtrip",
    "Armips.Props.ba_outOfRange",
    "Armips.Props.ba_mid",
    "Armips.Props.ba_mid_overread",
    "Armips.Props.ba_outOfRange_wraps"
   ],
   "note": "ba_mid_overread and ba_outOfRange_wraps are counterexamples at extreme arguments."
  },
  {
   "property": "C45",
   "status": "partial",
   "theorems": [
    "Armips.Props.text_memory",
    "Armips.Props.text_marked_partial",
    "Armips.Props.text_unmarked_partial",
    "Armips.Props.text_write_read",
    "Armips.Props.text_lone_cr_wrong",
    "Armips.Props.text_lone_cr_repeats",
    "Armips.Props.text_tiny_hangs",
    "Armips.Props.text_ascii_wrong",
    "Armips.Props.text_sjis_katakana_wrong"
   ],
   "note": "All texts in memory; files in UTF-8, UTF-16 and Shift-JIS (for every table of two-byte codes). The property is false for files with a CR alone, files of one or two bytes, the encoding ascii and one-byte katakana in Shift-JIS (theorems named _wrong, _repeats and _hangs)."
  },
  {
   "property": "C46",
   "status": "proved",
   "theorems": [
    "Armips.Props.text_output",
    "Armips.Props.text_write_read"
   ],
   "note": "All sequences of writes. Each piece is a C string, it ends before its first 0."
  },
  {
   "property": "C47",
   "status": "proved",
   "theorems": [
    "Armips.Props.logger_failed",
    "Armips.Props.logger_errors",
    "Armips.Props.logger_notice",
    "Armips.Props.logger_discarded"
   ],
   "note": ""
  },
  {
   "property": "C48",
   "status": "proved",
   "theorems": [
    "Armips.Props.incbin_slice",
    "Armips.Props.incbin_start_past_end",
    "Armips.Props.incbin_truncation_warns"
   ],
   "note": ""
  },
  {
   "property": "C49",
   "status": "proved",
   "theorems": [
    "Armips.Props.cond_selects_one",
    "Armips.Props.cond_other_branch_inert"
   ],
   "note": ""
  },
  {
   "property": "C50",
   "status": "proved",
   "theorems": [
    "Armips.Props.data_elements"
   ],
   "note": ""
  },
  {
   "property": "C51",
   "status": "proved",
   "theorems": [
    "Armips.Props.half_roundtrip",
    "Armips.Props.half_sign",
    "Armips.Props.half_flush",
    "Armips.Props.half_nearest",
    "Armips.Props.half_special"
   ],
   "note": ""
  },
  {
   "property": "C52",
   "status": "proved",
   "theorems": [
    "Armips.Props.documented_arities",
    "Armips.Props.functions_by_name",
    "Armips.Props.position_functions",
    "Armips.Props.label_functions",
    "Armips.Props.generic_functions_stay",
    "Armips.Props.register_never_overwrites",
    "Armips.Props.callable_functions",
    "Armips.Props.architecture_functions_available",
    "Armips.Props.argument_count_enforced",
    "Armips.Props.unknown_function"
   ],
   "note": ""
  },
  {
   "property": "C53",
   "status": "partial",
   "theorems": [
    "Armips.Props.min_max_integers",
    "Armips.Props.min_max_floats_partial",
    "Armips.Props.max_of_negative_floats_wrong"
   ],
   "note": "Proved for all integer lists; the float case is false of the code (max_of_negative_floats_wrong) and proved for lists with an argument the initial value does not beat."
  },
  {
   "property": "C54",
   "status": "partial",
   "theorems": [
    "Armips.Props.symfile_exact_partial",
    "Armips.Props.symfile_once",
    "Armips.Props.symfile_numbers",
    "Armips.Props.symfile_double_end",
    "Armips.Props.symfile_unnamed_function",
    "Armips.Props.symfile_twice_wrong",
    "Armips.Props.symfile_function_across_wrong"
   ],
   "note": "All histories of calls in which no module begins within a function. Partial: with several ELF files a label can be listed twice, a function without a label is not listed, and a module that begins within a function leads to an access out of range (theorems named _wrong and symfile_unnamed_function)."
  },
  {
   "property": "C55",
   "status": "partial",
   "theorems": [
    "Armips.Props.equ_terminates_partial",
    "Armips.Props.equ_definition_terminates_partial",
    "Armips.Props.equ_expands_partial",
    "Armips.Props.expansion_is_unique",
    "Armips.Props.equ_result_unique",
    "Armips.Props.equ_recursion_refused",
    "Armips.Props.equ_loop_wrong",
    "Armips.Props.equ_capital_wrong",
    "Armips.Props.equ_empty_wrong"
   ],
   "note": "All sequences of labels and accepted definitions, all tokens. Partial: the property is false for static equs across files (equ_loop_wrong), for names with capitals on the command line (equ_capital_wrong) and a value that is empty crashes (equ_empty_wrong). equ_terminates_partial needs one file or no static equs; equ_expands_partial states the result for global names. Tokens are read in order, lookahead is not modelled."
  },
  {
   "property": "C56",
   "status": "partial",
   "theorems": [
    "Armips.Props.macro_labels_distinct",
    "Armips.Props.macro_call_labels",
    "Armips.Props.macro_label_renamed",
    "Armips.Props.macro_label_scope",
    "Armips.Props.macro_labels_meet_wrong"
   ],
   "note": "All macros, labels and expansions below 2^32: distinct within a macro. Partial: labels of two different macros can meet (macro_labels_meet_wrong)."
  },
  {
   "property": "C57",
   "status": "proved",
   "theorems": [
    "Armips.Props.elf_sections_aligned",
    "Armips.Props.elf_sections_in_order",
    "Armips.Props.elf_sections_contents",
    "Armips.Props.elf_rest_zero",
    "Armips.Props.elf_failure_reported",
    "Armips.Props.elf_symbols_placed",
    "Armips.Props.elf_files_in_a_row",
    "Armips.Props.elf_machines",
    "Armips.Props.elf_alignment_zero_undefined",
    "Armips.Props.elf_common_symbol_wrong",
    "Armips.Props.elf_no_symbol_wrong"
   ],
   "note": "All lists of files, sections, sizes, alignments and addresses, for every relocator. Alignment 0 is undefined (elf_alignment_zero_undefined)."
  },
  {
   "property": "C58",
   "status": "partial",
   "theorems": [
    "Armips.Props.arm_list_parses",
    "Armips.Props.arm_list_sound",
    "Armips.Props.arm_mnemonic_iff",
    "Armips.Props.arm_block_word",
    "Armips.Props.arm_push_word",
    "Armips.Props.thumb_multiple_word_partial",
    "Armips.Props.thumb_stack_word_partial",
    "Armips.Props.thumb_block_drops",
    "Armips.Props.thumb_push_pc_wrong"
   ],
   "note": "Parsing of register lists (ARM and Thumb share it) and of mode suffixes, encoding of the list and of the eight modes. The property is false for Thumb lists with registers that have no bit in the opcode (theorems thumb_block_drops and thumb_push_pc_wrong)."
  },
  {
   "property": "C59",
   "status": "proved",
   "theorems": [
    "Armips.Props.arm_mnemonic_iff",
    "Armips.Props.arm_mnemonic_unique",
    "Armips.Props.arm_mnemonic_condition",
    "Armips.Props.arm_condition_place"
   ],
   "note": "All ARM mnemonics and all entries of the opcode table: settings of a mnemonic, uniqueness, condition field."
  },
  {
   "property": "C60",
   "status": "partial",
   "theorems": [
    "Armips.Props.nesting_bounded",
    "Armips.Props.nesting_error",
    "Armips.Props.nesting_self",
    "Armips.Props.nesting_blocks_wrong"
   ],
   "note": "All programs. Files and macros are bounded, with an error exactly beyond 150. Partial: blocks and conditionals are not bounded (nesting_blocks_wrong)."
  },
  {
   "property": "C61",
   "status": "proved",
   "theorems": [
    "Armips.Props.find_first",
    "Armips.Props.rfind_last",
    "Armips.Props.substr_bytes",
    "Armips.Props.substr_out_of_range"
   ],
   "note": "substr_out_of_range records that an out-of-range start aborts the program."
  },
  {
   "property": "C62",
   "status": "proved",
   "theorems": [
    "Armips.Props.readers_by_name",
    "Armips.Props.sizes",
    "Armips.Props.read_number"
   ],
   "note": ""
  },
  {
   "property": "C63",
   "status": "proved",
   "theorems": [
    "Armips.Props.conditional_exact",
    "Armips.Props.means_unique",
    "Armips.Props.conditional_false",
    "Armips.Props.conditional_macro_wrong"
   ],
   "note": "All programs that parse without the error of too deep nesting, all outcomes of unknown conditions. conditional_macro_wrong: that error also comes for a recursive macro in a conditional that is not known at parse time."
  },
  {
   "property": "C64",
   "status": "partial",
   "theorems": [
    "Armips.Props.macro_arguments_partial",
    "Armips.Props.macro_argument_wrong"
   ],
   "note": "All macros, contents and arguments in which no token behind the first of an argument is the name of a parameter or label, and without equs. Otherwise the property is false (macro_argument_wrong)."
  },
  {
   "property": "C65",
   "status": "partial",
   "theorems": [
    "Armips.Props.tokens_read_partial",
    "Armips.Props.tokens_unique",
    "Armips.Props.tokens_total",
    "Armips.Props.tokens_names",
    "Armips.Props.tokens_small",
    "Armips.Props.tokens_unclosed_comment",
    "Armips.Props.tokens_unclosed_string",
    "Armips.Props.tokens_example",
    "Armips.Props.tokens_quote_wrong",
    "Armips.Props.tokens_character_wrong",
    "Armips.Props.tokens_equ_string_wrong",
    "Armips.Props.tokens_equ_line_wrong"
   ],
   "note": "Every text that follows the lexical rules of the small specification (Spec/Tokenizer.lean) gives exactly their tokens. Partial: character constants of four bytes are refused or read out of bounds, a quotation mark at the end of a line is read out of bounds, an equ cuts strings at a semicolon and takes the next line if it has no value. strtod is a parameter."
  },
  {
   "property": "C66",
   "status": "partial",
   "theorems": [
    "Armips.Props.expr_text_roundtrip_partial",
    "Armips.Props.expr_text_negative_wrong",
    "Armips.Props.expr_text_quote_wrong"
   ],
   "note": "For integers that are not negative, names, strings without quotation marks and backslashes and all operators, at any depth. Partial: negative numbers are read as an operator and a number, strings with quotation marks are written without escapes, the texts of floating point numbers depend on printf, and a call has no text."
  },
  {
   "property": "C67",
   "status": "partial",
   "theorems": [
    "Armips.Props.ElfFile.elf_save_header",
    "Armips.Props.ElfFile.elf_save_tables",
    "Armips.Props.ElfFile.elf_save_segments",
    "Armips.Props.ElfFile.elf_save_sections",
    "Armips.Props.ElfFile.elf_save_aligned",
    "Armips.Props.ElfFile.elf_save_wellformed",
    "Armips.Props.ElfFile.elf_stripped_wrong",
    "Armips.Props.ElfFile.elf_segment_alignment_wrong"
   ],
   "note": "Every well-formed ELF file that can be loaded, any lawful sorting function, output below 4 GiB. Partial because the property is false of segments without a section, which lose their bytes (elf_stripped_wrong), and because the alignment of segments is not kept (elf_segment_alignment_wrong)."
  },
  {
   "property": "C68",
   "status": "partial",
   "theorems": [
    "Armips.Props.ElfFile.elf_session",
    "Armips.Props.ElfFile.elf_session_headers",
    "Armips.Props.ElfFile.step_unique",
    "Armips.Props.ElfFile.elf_patch",
    "Armips.Props.ElfFile.elf_org_address",
    "Armips.Props.ElfFile.elf_orga_function_wrong",
    "Armips.Props.ElfFile.elf_last_byte_wrong",
    "Armips.Props.ElfFile.elf_free_section_wrong",
    "Armips.Props.ElfFile.elf_write_outside_wrong"
   ],
   "note": "All sequences of .org, .orga and emitted bytes, as a refinement of a small step relation over segment contents. Partial: orga() gives the start of the section (elf_orga_function_wrong), the address behind the last byte is an error (elf_last_byte_wrong), bytes for sections outside of the segments are dropped silently (elf_free_section_wrong), writing behind a segment is undefined behaviour (elf_write_outside_wrong)."
  },
  {
   "property": "C69",
   "status": "partial",
   "theorems": [
    "Armips.Props.ObjFile.archive_members",
    "Armips.Props.ObjFile.archive_single",
    "Armips.Props.ObjFile.archive_refused",
    "Armips.Props.ObjFile.object_archive",
    "Armips.Props.ObjFile.archive_long_name_wrong",
    "Armips.Props.ObjFile.archive_short_member_wrong"
   ],
   "note": "All archives whose members have at least four bytes and less than 2 GiB, and all other files. Partial because the property is false of object files with a long name in BSD archives, which are passed over (archive_long_name_wrong), and of a last member of less than four bytes (archive_short_member_wrong)."
  },
  {
   "property": "C70",
   "status": "partial",
   "theorems": [
    "Armips.Props.ObjFile.object_kind",
    "Armips.Props.ObjFile.object_refused",
    "Armips.Props.ObjFile.object_accepted",
    "Armips.Props.ObjFile.object_sections",
    "Armips.Props.ObjFile.object_relocations",
    "Armips.Props.ObjFile.object_symbols",
    "Armips.Props.ObjFile.object_marks",
    "Armips.Props.ObjFile.object_exported",
    "Armips.Props.ObjFile.object_wellformed",
    "Armips.Props.ObjFile.object_keeps",
    "Armips.Props.ObjFile.object_import",
    "Armips.Props.ObjFile.object_export_addresses",
    "Armips.Props.ObjFile.object_word_mips",
    "Armips.Props.ObjFile.object_string_table_wrong"
   ],
   "note": "All readable object files, for MIPS, ARM and SuperH. Partial: names are right if there is one string table besides that of the section names (object_string_table_wrong), a section has one table of relocations, constructor sections are not modelled. The labels of exported symbols are the subject of C79."
  },
  {
   "property": "C71",
   "status": "partial",
   "theorems": [
    "Armips.Props.mips_register",
    "Armips.Props.mips_vector",
    "Armips.Props.mips_matrix",
    "Armips.Props.mips_rotation",
    "Armips.Props.mips_source_prefix",
    "Armips.Props.mips_source_prefix_read",
    "Armips.Props.mips_dest_prefix",
    "Armips.Props.mips_dest_prefix_read",
    "Armips.Props.mips_constant",
    "Armips.Props.mips_constant_read",
    "Armips.Props.mips_rsp_element",
    "Armips.Props.mips_line",
    "Armips.Props.mips_unambiguous",
    "Armips.Props.mips_line_valid",
    "Armips.Props.mips_line_word",
    "Armips.Props.mips_line_row",
    "Armips.Props.mips_mult_ps2",
    "Armips.Props.mips_negative_register_wrong",
    "Armips.Props.mips_zero_rotation_wrong",
    "Armips.Props.mips_sqrt_half_wrong"
   ],
   "note": "All rows, processors, operands and spellings of the small grammar in Spec/MipsParse.lean. Partial because negative numbers are accepted as registers (mips_negative_register_wrong) and a constant and some rotations cannot be written (mips_sqrt_half_wrong, mips_zero_rotation_wrong). Macros are tried before instructions and are not part of this."
  },
  {
   "property": "C72",
   "status": "partial",
   "theorems": [
    "Armips.Props.arm_line",
    "Armips.Props.thumb_line",
    "Armips.Props.arm_line_valid",
    "Armips.Props.thumb_line_valid",
    "Armips.Props.arm_line_unique",
    "Armips.Props.thumb_line_unique",
    "Armips.Props.arm_line_version",
    "Armips.Props.arm_store_sign_wrong",
    "Armips.Props.arm_load_sign",
    "Armips.Props.arm_rrx_wrong",
    "Armips.Props.arm_fields_wrong",
    "Armips.Props.thumb_push_wrong"
   ],
   "note": "All rows, processors, operands and spellings of the small grammar in Spec/ArmLine.lean, whatever is left in the parser. Partial because the property is false of stores with a signed register behind the address (arm_store_sign_wrong), of rrx without an amount (arm_rrx_wrong), of status registers with wrong fields (arm_fields_wrong) and of the registers of THUMB push (thumb_push_wrong)."
  },
  {
   "property": "C73",
   "status": "partial",
   "theorems": [
    "Armips.Props.program_read",
    "Armips.Props.program_meaning_unique",
    "Armips.Props.program_read_whole",
    "Armips.Props.program_unclosed_refused",
    "Armips.Props.program_arity_refused",
    "Armips.Props.program_stray_end_refused",
    "Armips.Props.false_block_no_statements",
    "Armips.Props.arm_program_read",
    "Armips.Props.false_block_changes_wrong",
    "Armips.Props.false_block_cpu_wrong",
    "Armips.Props.elseifdef_null_wrong",
    "Armips.Props.ifdef_section_wrong",
    "Armips.Props.message_without_text"
   ],
   "note": "All programs of the small grammar in Spec/Directive.lean, of any length and nesting, for any way to write instructions; with C72 for ARM and THUMB programs down to the operands. Partial because blocks that do not count still change the state of the parser (false_block_changes_wrong, false_block_cpu_wrong), .elseifdef without a name ends a conditional (elseifdef_null_wrong) and local names of .ifdef are looked up in the section behind the blocks (ifdef_section_wrong). Definitions of macros, equs and expression functions within the text are the subject of C15, C16 and C41."
  },
  {
   "property": "C74",
   "status": "partial",
   "theorems": [
    "Armips.Props.cli_read",
    "Armips.Props.cli_only",
    "Armips.Props.cli_unique",
    "Armips.Props.cli_inside",
    "Armips.Props.cli_exit",
    "Armips.Props.cli_equs_as_code",
    "Armips.Props.cli_strequ",
    "Armips.Props.cli_labels_defined",
    "Armips.Props.cli_negative_wrong",
    "Armips.Props.cli_empty_value_wrong",
    "Armips.Props.cli_label_case_wrong",
    "Armips.Props.cli_label_equ_wrong",
    "Armips.Props.cli_equ_case_wrong",
    "Armips.Props.cli_equ_loop_wrong",
    "Armips.Props.cli_strequ_quote_wrong",
    "Armips.Props.cli_strequ_backslash_wrong",
    "Armips.Props.cli_empty_argument"
   ],
   "note": "All lists of arguments. Partial because the property is false of label values with a sign (cli_negative_wrong), empty label values (cli_empty_value_wrong), names that differ in capital letters only (cli_label_case_wrong, cli_equ_case_wrong), labels with the name of an equation (cli_label_equ_wrong), recursive equations with capital letters (cli_equ_loop_wrong), and quotation marks and backslashes in -strequ (cli_strequ_quote_wrong, cli_strequ_backslash_wrong)."
  },
  {
   "property": "C75",
   "status": "partial",
   "theorems": [
    "Armips.Props.psx_object_read",
    "Armips.Props.psx_library_read",
    "Armips.Props.psx_single_object",
    "Armips.Props.psx_import_read",
    "Armips.Props.psx_unknown_record",
    "Armips.Props.psx_unknown_reloc",
    "Armips.Props.psx_other_files",
    "Armips.Props.psxSample_valid",
    "Armips.Props.psx_library_endless_wrong",
    "Armips.Props.psx_truncated_wrong",
    "Armips.Props.psx_two_shifts_wrong",
    "Armips.Props.psx_part_wrong",
    "Armips.Props.psx_no_segment_undefined"
   ],
   "note": "All object files and libraries that follow the small description of the formats in Spec/Psx.lean. Partial because the property is false of relocations that follow the selection of their segment directly (psx_part_wrong), of two added numbers (psx_two_shifts_wrong), of files that end early (psx_truncated_wrong), of entries of size 0 (psx_library_endless_wrong) and of data without a segment (psx_no_segment_undefined)."
  },
  {
   "property": "C76",
   "status": "partial",
   "theorems": [
    "Armips.Props.psx_layout",
    "Armips.Props.psx_contents",
    "Armips.Props.psx_labels",
    "Armips.Props.psx_undefined",
    "Armips.Props.psx_word",
    "Armips.Props.psx_call",
    "Armips.Props.psx_lower",
    "Armips.Props.psx_pair_number",
    "Armips.Props.psx_pair",
    "Armips.Props.psx_pair_further",
    "Armips.Props.psx_files",
    "Armips.Props.psx_files_length",
    "Armips.Props.psx_validate",
    "Armips.Props.psx_import_placed",
    "Armips.Props.psxSample_placed",
    "Armips.Props.psx_two_numbers_wrong",
    "Armips.Props.psx_unknown_symbol_wrong",
    "Armips.Props.psx_unknown_segment_wrong",
    "Armips.Props.psx_negative_labels_wrong"
   ],
   "note": "All objects whose numbers and names are distinct and whose relocations concern different words, all addresses modulo 2^32. Partial because the property is false of two references to a symbol with different added numbers, which cannot be imported (psx_two_numbers_wrong), of references to unknown symbols and segments, which count as address 0 (psx_unknown_symbol_wrong, psx_unknown_segment_wrong), and of labels from 0x80000000 on, which are negative (psx_negative_labels_wrong)."
  },
  {
   "property": "C77",
   "status": "partial",
   "theorems": [
    "Armips.Props.sh_line_read",
    "Armips.Props.sh_line_assembles",
    "Armips.Props.sh_line_word",
    "Armips.Props.sh_line_registers",
    "Armips.Props.sh_line_immediate_partial",
    "Armips.Props.sh_line_displacement_partial",
    "Armips.Props.sh_line_branch",
    "Armips.Props.sh_line_data",
    "Armips.Props.sh_line_hash",
    "Armips.Props.sh_line_unique",
    "Armips.Props.sh_program_read",
    "Armips.Props.sh_line_at_wrong",
    "Armips.Props.sh_line_special_wrong"
   ],
   "note": "All instructions of the manual in Spec/Sh.lean, all registers and expressions. Partial because lines that are not in the manual are read, too (sh_line_at_wrong, sh_line_special_wrong), trapa needs its #, and for the reasons given for C38 and C39."
  },
  {
   "property": "C78",
   "status": "partial",
   "theorems": [
    "Armips.Props.mips_macro_line",
    "Armips.Props.mips_instruction_line",
    "Armips.Props.mips_macro_no_instruction",
    "Armips.Props.mips_macro_unambiguous",
    "Armips.Props.mips_line_kind",
    "Armips.Props.mips_macro_operands",
    "Armips.Props.mips_instruction_operands",
    "Armips.Props.mips_li_text",
    "Armips.Props.mips_program_read",
    "Armips.Props.mips_lwc2_wrong",
    "Armips.Props.mips_ldc2_wrong"
   ],
   "note": "All macros and rows of the tables and all operands. Partial because the macros of lwc2 and swc2 take other names of registers than the instructions (mips_lwc2_wrong), those of ldc2 and sdc2 have no instruction (mips_ldc2_wrong), and mult and multu with r0 on the PS2 are excepted as in C71. mips_instruction_operands is for rows with registers of the CPU and the FPU and immediates."
  },
  {
   "property": "C79",
   "status": "partial",
   "theorems": [
    "Armips.Props.import_accepted",
    "Armips.Props.import_defines",
    "Armips.Props.import_pass",
    "Armips.Props.import_settled",
    "Armips.Props.import_change",
    "Armips.Props.import_symbols",
    "Armips.Props.import_twice_refused",
    "Armips.Props.import_first_pass_wrong"
   ],
   "note": "All files, symbols and histories. Partial because the first pass can report no change although labels changed, since addresses are compared with memory that was not initialised (import_first_pass_wrong), and names of object files, which distinguish case and may be weak and defined twice, are refused (import_twice_refused). Changes of the data are decided on the data, not on its checksum; constructor sections and their stubs are not modelled."
  },
  {
   "property": "C80",
   "status": "partial",
   "theorems": [
    "Armips.Props.mips_ctor_calls",
    "Armips.Props.mips_ctor_text",
    "Armips.Props.mips_ctor_entries",
    "Armips.Props.mips_ctor_none",
    "Armips.Props.ctor_size_text",
    "Armips.Props.mips_ctor_other_lines",
    "Armips.Props.mips_ctor_head",
    "Armips.Props.mips_ctor_rest",
    "Armips.Props.mips_ctor_empty_wrong",
    "Armips.Props.mips_ctor_home_wrong",
    "Armips.Props.mips_ctor_delay_wrong",
    "Armips.Props.arm_ctor_wrong",
    "Armips.Props.sh_ctor_wrong"
   ],
   "note": "MIPS: all sections, constructors and addresses. Partial because the code violates the rest: an empty section is not skipped, the return address is kept where constructors may store their arguments, the load delay of the PlayStation is not respected, the ARM text is never assembled and the SuperH text reads behind its table. The text is stated for all names and sections; its lines are related to words for one set of label names; that the two li load the ends of the table is C29."
  }
 ]
}