{
 "claims": [
  {
   "property": "C01",
   "status": "proved",
   "theorems": [
    "Perf.c01_record_with_header",
    "Perf.c01_record",
    "Perf.c01_parse_record_with_header",
    "Perf.c01_parse_record",
    "Perf.c01_slice",
    "Perf.c01_reader",
    "Perf.c01_pieces"
   ],
   "note": "Every lawful buffer, content, config and header; any visitor whose own methods return."
  },
  {
   "property": "C02",
   "status": "partial",
   "theorems": [
    "Perf.c02_chunking_partial",
    "Perf.c02_plain_partial",
    "Perf.c02_foreign_partial",
    "Perf.c02_aligned_partial",
    "Perf.c02_text_poke_partial",
    "Perf.c02_buffers_partial",
    "Perf.c02_align_false",
    "Perf.c02_poke_false"
   ],
   "note": "False of the code for a misaligned native list (c02_align_false) and for TEXT_POKE without old code (c02_poke_false); proved otherwise for every pair of lawful buffers."
  },
  {
   "property": "C03",
   "status": "proved",
   "theorems": [
    "Perf.c03_fast_path",
    "Perf.c03_taken"
   ],
   "note": "For every ParseBuf, lawful or not: result and remaining buffer of the fast path are those of the general path."
  },
  {
   "property": "C04",
   "status": "proved",
   "theorems": [
    "Perf.c04_record"
   ],
   "note": ""
  },
  {
   "property": "C05",
   "status": "proved",
   "theorems": [
    "Perf.c05_resync"
   ],
   "note": ""
  },
  {
   "property": "C06",
   "status": "proved",
   "theorems": [
    "Perf.c06_truncated",
    "Perf.c06_slice_prefix"
   ],
   "note": ""
  },
  {
   "property": "C07",
   "status": "proved",
   "theorems": [
    "Perf.c07_small_size"
   ],
   "note": ""
  },
  {
   "property": "C08",
   "status": "proved",
   "theorems": [
    "Perf.c08_small_trailer"
   ],
   "note": ""
  },
  {
   "property": "C09",
   "status": "proved",
   "theorems": [
    "Perf.c09_slice",
    "Perf.c09_reader",
    "Perf.c09_reader_shared",
    "Perf.c09_pieces",
    "Perf.c09_incomplete"
   ],
   "note": "For slices, readers and pieces: what follows a complete record does not matter."
  },
  {
   "property": "C10",
   "status": "partial",
   "theorems": [
    "Perf.c10_each_partial",
    "Perf.c10_stream_partial",
    "Perf.c10_end",
    "Perf.c10_switch_false",
    "Perf.c10_frames"
   ],
   "note": "Proved for every sequence of well-formed records other than SWITCH, and framing for any records; SWITCH with an empty body fails (c10_switch_false)."
  },
  {
   "property": "C11",
   "status": "proved",
   "theorems": [
    "Perf.c11_fixed"
   ],
   "note": ""
  },
  {
   "property": "C12",
   "status": "proved",
   "theorems": [
    "Perf.c12_mmap",
    "Perf.c12_comm",
    "Perf.c12_cgroup",
    "Perf.c12_ksymbol"
   ],
   "note": ""
  },
  {
   "property": "C13",
   "status": "proved",
   "theorems": [
    "Perf.c13_mmap2",
    "Perf.c13_inode_accessors",
    "Perf.c13_build_id_accessors",
    "Perf.c13_build_id_too_long",
    "Perf.c13_build_id_returns",
    "Perf.c13_record_build_id_returns"
   ],
   "note": ""
  },
  {
   "property": "C14",
   "status": "partial",
   "theorems": [
    "Perf.c14_misaligned_native",
    "Perf.c14_empty_native",
    "Perf.c14_uts_record_false",
    "Perf.c14_namespaces_partial",
    "Perf.c14_empty_native_false",
    "Perf.c14_accessors_partial",
    "Perf.c14_uts_is_user",
    "Perf.c14_uts_false"
   ],
   "note": "False of the code: uts() returns the user namespace (c14_uts_false), and an empty native list at the end of the record is Eof, as is every list at a misaligned address (c14_misaligned_native). The rest is proved."
  },
  {
   "property": "C15",
   "status": "partial",
   "theorems": [
    "Perf.c15_text_poke_memory",
    "Perf.c15_reader_exact",
    "Perf.c15_text_poke_partial",
    "Perf.c15_owned_false",
    "Perf.c15_borrowed_example"
   ],
   "note": "False of the code for owned data when a part is empty (c15_owned_false); proved when both parts are non-empty."
  },
  {
   "property": "C16",
   "status": "proved",
   "theorems": [
    "Perf.c16_read",
    "Perf.c16_read_value"
   ],
   "note": ""
  },
  {
   "property": "C17",
   "status": "partial",
   "theorems": [
    "Perf.c17_sample_partial"
   ],
   "note": "Proved for every flag set under KSample.Ok, which excludes the shapes refuted in C48, C49 and C50."
  },
  {
   "property": "C18",
   "status": "proved",
   "theorems": [
    "Perf.c18_present",
    "Perf.c18_record"
   ],
   "note": ""
  },
  {
   "property": "C19",
   "status": "proved",
   "theorems": [
    "Perf.c19_raw",
    "Perf.c19_sample"
   ],
   "note": ""
  },
  {
   "property": "C20",
   "status": "proved",
   "theorems": [
    "Perf.c20_stack",
    "Perf.c20_too_large",
    "Perf.c20_zero",
    "Perf.c20_sample"
   ],
   "note": ""
  },
  {
   "property": "C21",
   "status": "proved",
   "theorems": [
    "Perf.c21_sample",
    "Perf.c22_trailer"
   ],
   "note": ""
  },
  {
   "property": "C22",
   "status": "proved",
   "theorems": [
    "Perf.c22_from_sample",
    "Perf.c22_from_sample_fields",
    "Perf.c22_trailer",
    "Perf.c22_estimate",
    "Perf.c22_estimate_len",
    "Perf.c22_off"
   ],
   "note": ""
  },
  {
   "property": "C23",
   "status": "partial",
   "theorems": [
    "Perf.c23_misaligned_group",
    "Perf.c23_empty_at_end",
    "Perf.c23_group_partial",
    "Perf.c23_sample_values_partial",
    "Perf.c23_misaligned_false",
    "Perf.c23_empty_false"
   ],
   "note": "False of the code for a misaligned native list (c23_misaligned_false) and for an empty native list at the end of the record (c23_empty_false); proved otherwise."
  },
  {
   "property": "C24",
   "status": "proved",
   "theorems": [
    "Perf.c24_iterator",
    "Perf.c24_at_most_once"
   ],
   "note": ""
  },
  {
   "property": "C25",
   "status": "proved",
   "theorems": [
    "Perf.c25_to_group",
    "Perf.c25_back",
    "Perf.c25_try_from"
   ],
   "note": ""
  },
  {
   "property": "C26",
   "status": "proved",
   "theorems": [
    "Perf.c26_unknown_bits",
    "Perf.c26_group",
    "Perf.c26_value_group",
    "Perf.c26_records"
   ],
   "note": ""
  },
  {
   "property": "C27",
   "status": "proved",
   "theorems": [
    "Perf.c27_attr",
    "Perf.c27_packed",
    "Perf.c27_with_endian",
    "Perf.c27_default",
    "Perf.c27_spare_bits"
   ],
   "note": ""
  },
  {
   "property": "C28",
   "status": "proved",
   "theorems": [
    "Perf.c28_with_misc",
    "Perf.c28_parser_config",
    "Perf.c28_record"
   ],
   "note": ""
  },
  {
   "property": "C29",
   "status": "proved",
   "theorems": [
    "Perf.c29_decodes",
    "Perf.c29_is_native"
   ],
   "note": ""
  },
  {
   "property": "C30",
   "status": "partial",
   "theorems": [
    "Perf.c30_byte_order_partial"
   ],
   "note": "Same exclusions as the round-trip theorems it is built from."
  },
  {
   "property": "C31",
   "status": "proved",
   "theorems": [
    "Perf.c31_bytes",
    "Perf.c31_eof"
   ],
   "note": ""
  },
  {
   "property": "C32",
   "status": "proved",
   "theorems": [
    "Perf.c32_rest",
    "Perf.c32_rest_end",
    "Perf.c32_trim"
   ],
   "note": ""
  },
  {
   "property": "C33",
   "status": "partial",
   "theorems": [
    "Perf.c33_misaligned_skips",
    "Perf.c33_misaligned_words",
    "Perf.c33_slice_partial",
    "Perf.c33_misaligned_false"
   ],
   "note": "False of the code for a misaligned native slice (c33_misaligned_false); proved when aligned, non-native or copied."
  },
  {
   "property": "C34",
   "status": "proved",
   "theorems": [
    "Perf.c34_bounded_allocation"
   ],
   "note": ""
  },
  {
   "property": "C35",
   "status": "partial",
   "theorems": [
    "Perf.c35_cursor_constant_false",
    "Perf.c35_cursor_false",
    "Perf.c35_partial",
    "Perf.c35_cursor_partial"
   ],
   "note": "False of the code for ParseBufCursor (c35_cursor_false); proved for the other buffers and for the cursor before any advance."
  },
  {
   "property": "C36",
   "status": "partial",
   "theorems": [
    "Perf.c36_eof_false",
    "Perf.c36_false",
    "Perf.c36_refused_false",
    "Perf.c36_partial",
    "Perf.c36_u8_partial"
   ],
   "note": "False of the code: a refused parse has moved the parser (c36_false, c36_refused_false); what is left in place is proved."
  },
  {
   "property": "C37",
   "status": "partial",
   "theorems": [
    "Perf.c37_empty_unknown",
    "Perf.c37_visit",
    "Perf.c37_type",
    "Perf.c37_metadata",
    "Perf.c37_unknown_partial",
    "Perf.c37_empty_false"
   ],
   "note": "Proved in full except that an unknown record with an empty body is Eof instead of visit_unknown (c37_empty_false)."
  },
  {
   "property": "C38",
   "status": "partial",
   "theorems": [
    "Perf.c38_every_switch_false",
    "Perf.c38_never_false",
    "Perf.c38_false",
    "Perf.c38_partial"
   ],
   "note": "False of the code for every input (c38_never_false, c38_false)."
  },
  {
   "property": "C39",
   "status": "partial",
   "theorems": [
    "Perf.c39_published_partial",
    "Perf.c39_larger_partial",
    "Perf.c39_exact_false"
   ],
   "note": "False of the code for every structure not followed by 4 more bytes (c39_exact_false); proved when they follow (zero ones for sizes above 136)."
  },
  {
   "property": "C40",
   "status": "partial",
   "theorems": [
    "Perf.c40_size",
    "Perf.c40_unknown_partial",
    "Perf.c40_exact_false",
    "Perf.c40_contaminated_false"
   ],
   "note": "The size check is proved in full; the check of unknown bytes needs 4 more bytes after the structure (c40_exact_false) and includes them (c40_contaminated_false)."
  },
  {
   "property": "C41",
   "status": "partial",
   "theorems": [
    "Perf.c41_split_partial",
    "Perf.c41_owned_false",
    "Perf.c41_kept",
    "Perf.c41_truncate"
   ],
   "note": "False of the code for owned data split at either end (c41_owned_false); proved for borrowed data, interior splits and truncate."
  },
  {
   "property": "C42",
   "status": "proved",
   "theorems": [
    "Perf.c42_sample",
    "Perf.c42_sample_drop",
    "Perf.c42_sample_id",
    "Perf.c42_new",
    "Perf.c42_default"
   ],
   "note": ""
  },
  {
   "property": "C43",
   "status": "partial",
   "theorems": [
    "Perf.c43_hex_partial",
    "Perf.c43_false",
    "Perf.c43_injective"
   ],
   "note": "False of the code: low nibble first and wrong letters (c43_false); c43_hex_partial gives the exact bytes printed correctly."
  },
  {
   "property": "C44",
   "status": "proved",
   "theorems": [
    "Perf.c44_name"
   ],
   "note": "The escape_debug tables of the standard library are a parameter."
  },
  {
   "property": "C45",
   "status": "partial",
   "theorems": [
    "Perf.c45_error_kinds",
    "Perf.c45_external",
    "Perf.c45_eof_partial",
    "Perf.c45_eof_false"
   ],
   "note": "False of the code for Eof: a complete record that is too short for its type gives Eof with input left (c45_eof_false); c45_eof_partial says exactly when Eof appears. The other kinds are proved."
  },
  {
   "property": "C46",
   "status": "partial",
   "theorems": [
    "Perf.c46_io",
    "Perf.c46_other",
    "Perf.c46_display_partial",
    "Perf.c46_display_false"
   ],
   "note": "The conversion is proved; the displayed text has no separator and no description for External (c46_display_false)."
  },
  {
   "property": "C47",
   "status": "proved",
   "theorems": [
    "Perf.c47_borrowed",
    "Perf.c47_borrowed_record",
    "Perf.c47_external",
    "Perf.c47_temporary",
    "Perf.c47_reader"
   ],
   "note": "Any buffer for the copied half; one slice for the borrowed half. c47_borrowed compares contents, not addresses."
  },
  {
   "property": "C48",
   "status": "partial",
   "theorems": [
    "Perf.c48_list_at_end",
    "Perf.c48_area_at_end",
    "Perf.c48_registers_at_end",
    "Perf.c48_empty_partial",
    "Perf.c48_callchain_false",
    "Perf.c48_lbr_false",
    "Perf.c48_regs_false",
    "Perf.c48_stack_false",
    "Perf.c48_aux_false"
   ],
   "note": "False of the code for a native source (five witnesses); proved for non-native sources."
  },
  {
   "property": "C49",
   "status": "partial",
   "theorems": [
    "Perf.c49_any_abi",
    "Perf.c49_registers_partial",
    "Perf.c49_abi_none_false",
    "Perf.c49_sample_partial"
   ],
   "note": "False of the code for abi NONE (witness); proved otherwise."
  },
  {
   "property": "C50",
   "status": "partial",
   "theorems": [
    "Perf.c50_consumed_partial",
    "Perf.c50_weight_struct_false",
    "Perf.c50_weight_struct_ignored"
   ],
   "note": "False of the code for WEIGHT_STRUCT (witness); proved for the others."
  },
  {
   "property": "C51",
   "status": "proved",
   "theorems": [
    "Perf.c51_entry",
    "Perf.c51_sample"
   ],
   "note": ""
  },
  {
   "property": "C52",
   "status": "proved",
   "theorems": [
    "Perf.c52_fields",
    "Perf.c52_all",
    "Perf.c52_sample"
   ],
   "note": ""
  },
  {
   "property": "C53",
   "status": "proved",
   "theorems": [
    "Perf.c53_subfields",
    "Perf.c53_aux",
    "Perf.c53_ksymbol",
    "Perf.c53_txn"
   ],
   "note": ""
  },
  {
   "property": "C54",
   "status": "proved",
   "theorems": [
    "Perf.c54_metadata",
    "Perf.c54_use"
   ],
   "note": ""
  },
  {
   "property": "C55",
   "status": "proved",
   "theorems": [
    "Perf.c55_split",
    "Perf.c55_record",
    "Perf.c55_pieces",
    "Perf.c55_stalled"
   ],
   "note": "Any buffer with a bound on the number of chunks left; c55_stalled shows the bound is needed."
  },
  {
   "property": "C56",
   "status": "proved",
   "theorems": [
    "Perf.c56_owned",
    "Perf.c56_accessors",
    "Perf.c56_mmap"
   ],
   "note": ""
  },
  {
   "property": "C57",
   "status": "proved",
   "theorems": [
    "Perf.c57_after",
    "Perf.c57_error",
    "Perf.c57_converted"
   ],
   "note": "Both halves: an I/O error inside the record surfaces, one after it does not matter."
  },
  {
   "property": "C58",
   "status": "partial",
   "theorems": [
    "Perf.c58_contaminated_false",
    "Perf.c58_partial",
    "Perf.c58_false"
   ],
   "note": "False of the code whenever a trailer is written (c58_contaminated_false); proved when none is."
  },
  {
   "property": "C59",
   "status": "partial",
   "theorems": [
    "Perf.c59_branch_false",
    "Perf.c59_sample_id_all_false",
    "Perf.c59_partial",
    "Perf.c59_foreign_branch_false",
    "Perf.c59_foreign_attr_false"
   ],
   "note": "False of the code for branch entries and for the flag bits of an attr of the other byte order (c59_foreign_branch_false, c59_foreign_attr_false: for all inputs); proved for data_src and native sources."
  },
  {
   "property": "C60",
   "status": "proved",
   "theorems": [
    "Perf.c60_denotes",
    "Perf.c60_injective",
    "Perf.c60_width"
   ],
   "note": ""
  },
  {
   "property": "C61",
   "status": "proved",
   "theorems": [
    "Perf.c61_option_struct",
    "Perf.c61_default",
    "Perf.c61_sample_names",
    "Perf.c61_sample",
    "Perf.c61_sample_values",
    "Perf.c61_sample_id",
    "Perf.c61_read_value",
    "Perf.c61_group_entry",
    "Perf.c61_read_group",
    "Perf.c61_prints",
    "Perf.c61_stored",
    "Perf.c61_stored_id",
    "Perf.c61_stored_all"
   ],
   "note": "Text of bitflags!/c_enum! values, of perf_branch_entry and of escape_debug are parameters; {:#?}, {:x?} and {:X?} included."
  },
  {
   "property": "C62",
   "status": "partial",
   "theorems": [
    "Perf.c62_visit_partial",
    "Perf.c62_record_partial",
    "Perf.c62_plain_partial",
    "Perf.c62_aligned_partial",
    "Perf.c62_text_poke_partial",
    "Perf.c62_weight_struct_false",
    "Perf.c62_abi_none_false"
   ],
   "note": "Proved for all record types where the outcome does not depend on alignment (C02), SAMPLE without WEIGHT_STRUCT (B8) and with no registers claimed for ABI NONE (B10); both exceptions are shown to be necessary. Without exceptions, and as an equivalence, for the corrected crate in C94."
  },
  {
   "property": "C63",
   "status": "partial",
   "theorems": [
    "Perf.c63_foreign",
    "Perf.c63_foreign_reader",
    "Perf.c63_foreign_pieces",
    "Perf.c63_foreign_case",
    "Perf.c63_foreign_false",
    "Perf.c63_visitor",
    "Perf.c63_no_panic",
    "Perf.c63_slice",
    "Perf.c63_reader",
    "Perf.c63_pieces",
    "Perf.c63_chunking_partial",
    "Perf.c63_plain",
    "Perf.c63_recover_partial",
    "Perf.c63_recover",
    "Perf.c63_slice_pieces",
    "Perf.c63_slice_reader",
    "Perf.c63_after_end",
    "Perf.c63_words_false"
   ],
   "note": "Panic freedom is proved for all programs. Independence of the chunks is proved without condition for programs that do not call parse_slice, parse_slice_direct or parsers of things that contain lists of words (ReadGroup, SAMPLE, NAMESPACES, TEXT_POKE, a Record of any type); with them, for runs that do not depend on alignment (B2; c63_words_false is the counterexample) and do not split a list at its end (B7). Readers may revive after their end, so for BufReader the program must stop at the first error and not read to the end. In a foreign byte order only TEXT_POKE has to be excluded, and a BufReader may take part if it ends for good (c63_foreign, c63_foreign_reader). Between readers that end for good none of these conditions is needed (C90); for memory alone the exact answer is in C91. With B2 and B7 corrected the statement holds without exceptions (C92)."
  },
  {
   "property": "C64",
   "status": "proved",
   "theorems": [
    "Perf.c64_input",
    "Perf.c64_slice_input",
    "Perf.c64_with_header",
    "Perf.c64_record",
    "Perf.c64_absolute",
    "Perf.c64_metadata",
    "Perf.c64_borrowed",
    "Perf.c64_slice",
    "Perf.c64_pieces",
    "Perf.c64_consumed",
    "Perf.c64_stream"
   ],
   "note": ""
  },
  {
   "property": "C65",
   "status": "proved",
   "theorems": [
    "Perf.c65_slice",
    "Perf.c65_slice_foreign",
    "Perf.c65_pieces",
    "Perf.c65_pieces_foreign",
    "Perf.c65_program",
    "Perf.c65_program_pieces",
    "Perf.c65_address_matters"
   ],
   "note": ""
  },
  {
   "property": "C66",
   "status": "proved",
   "theorems": [
    "Perf.c66_with_header",
    "Perf.c66_record",
    "Perf.c66_metadata",
    "Perf.c66_order_only",
    "Perf.c66_mmap",
    "Perf.c66_misc",
    "Perf.c66_native",
    "Perf.c66_sample_bits_matter",
    "Perf.c66_sample_parts_matter",
    "Perf.c66_rest_matters",
    "Perf.c66_native_matters"
   ],
   "note": ""
  },
  {
   "property": "C67",
   "status": "proved",
   "theorems": [
    "Perf.c67_primitives",
    "Perf.c67_body",
    "Perf.c67_record",
    "Perf.c67_cut_off"
   ],
   "note": ""
  },
  {
   "property": "C68",
   "status": "proved",
   "theorems": [
    "Perf.c68_read_value",
    "Perf.c68_group_entry",
    "Perf.c68_read_group",
    "Perf.c68_sample",
    "Perf.c68_sample_id",
    "Perf.c68_metadata",
    "Perf.c68_config",
    "Perf.c68_record",
    "Perf.c68_unique",
    "Perf.c68_numbers"
   ],
   "note": ""
  },
  {
   "property": "C69",
   "status": "partial",
   "theorems": [
    "Perf.c69_config",
    "Perf.c69_records_partial",
    "Perf.c69_recording_partial",
    "Perf.c69_same_order",
    "Perf.c69_false"
   ],
   "note": "Not covered: SWITCH records (B3), the shapes of C48-C50, native data that is not aligned (B2), sample_id_all of an attr of the other byte order (B14) and attrs not followed by 4 more bytes (B5). c69_false is a counterexample."
  },
  {
   "property": "C70",
   "status": "proved",
   "theorems": [
    "Perf.c70_slice",
    "Perf.c70_one_piece",
    "Perf.c70_address",
    "Perf.c70_kernel_record",
    "Perf.c70_callchain_misaligned",
    "Perf.c70_branches_misaligned",
    "Perf.c70_registers_misaligned"
   ],
   "note": "The misaligned lists are stated for their parsers (call chain, branches, registers, group) and, for NAMESPACES, for whole records (c14_misaligned_native)."
  },
  {
   "property": "C71",
   "status": "proved",
   "theorems": [
    "Perf.c71_stream",
    "Perf.c71_input",
    "Perf.c71_slice_input",
    "Perf.c71_counting",
    "Perf.c71_calls",
    "Perf.c71_size",
    "Perf.c71_absolute",
    "Perf.c71_std",
    "Perf.c71_body",
    "Perf.c71_extent",
    "Perf.c71_region",
    "Perf.c71_trailer"
   ],
   "note": "Promptness (no empty chunks) is proved for slices, BufReader and the crate's own cursors."
  },
  {
   "property": "C72",
   "status": "partial",
   "theorems": [
    "Perf.c72_ways",
    "Perf.c72_with_header_partial",
    "Perf.c72_by_hand_partial",
    "Perf.c72_switch_false",
    "Perf.c72_mmap2_false",
    "Perf.c72_configured"
   ],
   "note": "False for MMAP2 with MMAP_BUILD_ID and for SWITCH_CPU_WIDE with SWITCH_OUT (B15): the parser returned by parse_metadata does not carry the record's misc bits. c72_switch_false shows for all such SWITCH_CPU_WIDE records that the two steps give In where parse_record gives Out; c72_mmap2_false is a witness. The partial theorems cover every other type, and these two when the bit agrees."
  },
  {
   "property": "C73",
   "status": "partial",
   "theorems": [
    "Perf.c73_blocks",
    "Perf.c73_fresh",
    "Perf.c73_fresh_program",
    "Perf.c73_position",
    "Perf.c73_end",
    "Perf.c73_chunking_partial",
    "Perf.c73_slice",
    "Perf.c73_while_ends",
    "Perf.c73_while_partial",
    "Perf.c73_while_false",
    "Perf.c73_switch_false"
   ],
   "note": "False of the code for loops that stop at Eof: a record that is too short, or a SWITCH record, ends them early (c73_while_false, c73_switch_false). c73_chunking_partial has the exclusions of C02. Everything else is proved for all inputs."
  },
  {
   "property": "C74",
   "status": "partial",
   "theorems": [
    "Perf.c74_kernel",
    "Perf.c74_agree_partial",
    "Perf.c74_misaligned_false"
   ],
   "note": "Agreement with Sample fails for borrowed data at addresses that are not multiples of 8 in the host byte order (B2), where Sample is wrong and the custom type right; and for lists of 2^64 bytes or more the two errors differ."
  },
  {
   "property": "C75",
   "status": "partial",
   "theorems": [
    "Perf.c75_endians",
    "Perf.c75_no_lists",
    "Perf.c75_with_header_partial",
    "Perf.c75_record_partial",
    "Perf.c75_accepted_partial",
    "Perf.c75_reader_partial",
    "Perf.c75_slice_partial",
    "Perf.c75_false",
    "Perf.c75_overlong_false"
   ],
   "note": "False of the code in three ways, each with a witness: an empty list at the end of the record is Eof with is_native (B9), a list at a misaligned address is lost with is_native (B2), and a list of 2^64 bytes or more is a differently worded error. The theorems say that nothing else differs; for readers there is no condition on addresses."
  },
  {
   "property": "C76",
   "status": "proved",
   "theorems": [
    "Perf.c76_to_slice",
    "Perf.c76_bytes",
    "Perf.c76_bytes_capacity",
    "Perf.c76_array",
    "Perf.c76_align_to",
    "Perf.c76_slice_direct",
    "Perf.c76_lengths",
    "Perf.c76_capacity_false",
    "Perf.c76_record",
    "Perf.c76_slice",
    "Perf.c76_memory",
    "Perf.c76_no_panic"
   ],
   "note": "`c76_capacity_false` shows that consumption (not safety) relies on `Vec::with_capacity` being exact. A buffer that never stops showing empty chunks makes the loops endless (`diverge`), which is not excluded. That the bytes of an external chunk stay valid for their lifetime is the obligation of `unsafe impl ParseBuf` and is not modelled."
  },
  {
   "property": "C77",
   "status": "partial",
   "theorems": [
    "Perf.c77_blank",
    "Perf.c77_blank_complete",
    "Perf.c77_content_partial",
    "Perf.c77_exact"
   ],
   "note": "`_partial` inherits the exclusions of C62: records whose outcome depends on alignment or on the variant of a `Cow` (B2, B7), WEIGHT_STRUCT (B8), register dumps with ABI NONE (B10). `c77_exact` needs none of them for the twelve fixed types. Without exceptions for the corrected crate in C94."
  },
  {
   "property": "C78",
   "status": "proved",
   "theorems": [
    "Perf.c78_record"
   ],
   "note": ""
  },
  {
   "property": "C79",
   "status": "proved",
   "theorems": [
    "Perf.c79_program",
    "Perf.c79_slice",
    "Perf.c79_reader",
    "Perf.c79_pieces"
   ],
   "note": ""
  },
  {
   "property": "C80",
   "status": "proved",
   "theorems": [
    "Perf.c80_same",
    "Perf.c80_with_header",
    "Perf.c80_record",
    "Perf.c80_absolute",
    "Perf.c80_consumed",
    "Perf.c80_stream",
    "Perf.c80_slice"
   ],
   "note": ""
  },
  {
   "property": "C81",
   "status": "proved",
   "theorems": [
    "Perf.c81_record",
    "Perf.c81_basic",
    "Perf.c81_config",
    "Perf.c81_attr",
    "Perf.c81_reach",
    "Perf.c81_attr_reach"
   ],
   "note": ""
  },
  {
   "property": "C82",
   "status": "proved",
   "theorems": [
    "Perf.c82_with_header",
    "Perf.c82_metadata",
    "Perf.c82_record",
    "Perf.c82_any",
    "Perf.c82_slice",
    "Perf.c82_reader"
   ],
   "note": ""
  },
  {
   "property": "C83",
   "status": "partial",
   "theorems": [
    "Perf.c83_wide",
    "Perf.c83_record_partial",
    "Perf.c83_same_partial",
    "Perf.c83_slice_partial",
    "Perf.c83_reader_partial",
    "Perf.c83_returns",
    "Perf.c83_framing",
    "Perf.c83_false",
    "Perf.c83_x86_false"
   ],
   "note": "False of the code on 32-bit machines: counts are truncated by `as usize` (c83_false), and x86 aligns u64 to 4 (c83_x86_false); proved for everything the 64-bit build returns, and framing, memory and termination for every machine. With B2 and B17 corrected the statement holds on every machine (C93)."
  },
  {
   "property": "C84",
   "status": "proved",
   "theorems": [
    "Perf.c84_chunking",
    "Perf.c84_native",
    "Perf.c84_inputs",
    "Perf.c84_total",
    "Perf.c84_round_trip",
    "Perf.c84_stream",
    "Perf.c84_keeps",
    "Perf.c84_witnesses",
    "Perf.c84_parts"
   ],
   "note": "About a corrected variant of the crate (Model/Mended), not about the code of /repo: shows that the defects B2, B3, B7, B8, B9, B10, B12 are all that the conditions of C02, C75, C10 and C69 come from, and that correcting them changes nothing else."
  },
  {
   "property": "C85",
   "status": "proved",
   "theorems": [
    "Perf.c85_attr",
    "Perf.c85_attr_exact",
    "Perf.c85_attr_chunking",
    "Perf.c85_endians",
    "Perf.c85_config",
    "Perf.c85_records",
    "Perf.c85_recording",
    "Perf.c85_by_hand",
    "Perf.c85_example",
    "Perf.c85_by_hand_example"
   ],
   "note": "About a corrected variant of the crate (Model/Mended, Model/MendedAttr), not about the code of /repo. Remaining conditions are the limits of the settings word: sample_type below 2^40, read_format below 2^5."
  },
  {
   "property": "C86",
   "status": "proved",
   "theorems": [
    "Perf.c86_temporary",
    "Perf.c86_reader",
    "Perf.c86_portions",
    "Perf.c86_chunking",
    "Perf.c86_calls",
    "Perf.c86_reader_calls",
    "Perf.c86_loops_temporary",
    "Perf.c86_each",
    "Perf.c86_loops",
    "Perf.c86_end",
    "Perf.c86_example",
    "Perf.c86_unsettled"
   ],
   "note": "Loops need a reader that ends for good (or complete records only); c86_unsettled shows why."
  },
  {
   "property": "C87",
   "status": "proved",
   "theorems": [
    "Perf.c87_reader",
    "Perf.c87_memory",
    "Perf.c87_behind",
    "Perf.c87_error",
    "Perf.c87_reader_stream",
    "Perf.c87_memory_stream",
    "Perf.c87_ok",
    "Perf.c87_slice",
    "Perf.c87_script",
    "Perf.c87_example"
   ],
   "note": "In the host's byte order a slice must be at an address divisible by 8 and its records multiples of 8 bytes, as in a mapped ring buffer."
  },
  {
   "property": "C88",
   "status": "proved",
   "theorems": [
    "Perf.c88_reads",
    "Perf.c88_metadata",
    "Perf.c88_buffered",
    "Perf.c88_prompt",
    "Perf.c88_calls",
    "Perf.c88_example"
   ],
   "note": "Every reader that respects the contract of Read; BufReader itself is modelled by its documented behaviour."
  },
  {
   "property": "C89",
   "status": "proved",
   "theorems": [
    "Perf.c89_eof",
    "Perf.c89_same",
    "Perf.c89_loop",
    "Perf.c89_kernel",
    "Perf.c89_cursor",
    "Perf.c89_hint",
    "Perf.c89_branch",
    "Perf.c89_uts",
    "Perf.c89_hex",
    "Perf.c89_display",
    "Perf.c89_while",
    "Perf.c89_switch",
    "Perf.c89_witnesses",
    "Perf.c89_visitors"
   ],
   "note": "About a corrected variant of the crate (Model/MendedRest on top of Model/Mended), not about the code of /repo: shows that B1, B4, B6, B13, B14 and B16 are all that the exceptions of C14, C35, C43, C45, C46, C59 and C73 come from."
  },
  {
   "property": "C90",
   "status": "proved",
   "theorems": [
    "Perf.c90_temporary",
    "Perf.c90_reader",
    "Perf.c90_portions",
    "Perf.c90_returns",
    "Perf.c90_position",
    "Perf.c90_straight",
    "Perf.c90_straight_reader",
    "Perf.c90_straight_portions",
    "Perf.c90_words",
    "Perf.c90_stumble",
    "Perf.c90_unsettled"
   ],
   "note": "Programs that go on after errors need a reader that ends for good; c90_unsettled shows why."
  },
  {
   "property": "C91",
   "status": "proved",
   "theorems": [
    "Perf.c91_one_piece",
    "Perf.c91_slice",
    "Perf.c91_returns",
    "Perf.c91_position",
    "Perf.c91_left",
    "Perf.c91_address",
    "Perf.c91_words",
    "Perf.c91_stumble"
   ],
   "note": "Which bytes a list is read from does depend on the address modulo 8 (B2); the spec says how."
  },
  {
   "property": "C92",
   "status": "proved",
   "theorems": [
    "Perf.c92_program",
    "Perf.c92_position",
    "Perf.c92_returns",
    "Perf.c92_same",
    "Perf.c92_inputs",
    "Perf.c92_words",
    "Perf.c92_poke",
    "Perf.c92_stumble",
    "Perf.c92_misc",
    "Perf.c92_direct"
   ],
   "note": "About the corrected crate, not the code in /repo; parse_slice_direct is excepted because its answer is meant to depend on where the data is."
  },
  {
   "property": "C93",
   "status": "proved",
   "theorems": [
    "Perf.c93_record",
    "Perf.c93_machines",
    "Perf.c93_accepts",
    "Perf.c93_round_trip",
    "Perf.c93_framing",
    "Perf.c93_overlong",
    "Perf.c93_chain",
    "Perf.c93_instead",
    "Perf.c93_bits"
   ],
   "note": "About the corrected crate, not the code in /repo."
  },
  {
   "property": "C94",
   "status": "proved",
   "theorems": [
    "Perf.c94_visit",
    "Perf.c94_exact",
    "Perf.c94_accepts",
    "Perf.c94_unambiguous",
    "Perf.c94_blank",
    "Perf.c94_content",
    "Perf.c94_same_content",
    "Perf.c94_recording",
    "Perf.c94_delivers",
    "Perf.c94_example"
   ],
   "note": "About the corrected crate, not the code in /repo."
  },
  {
   "property": "C95",
   "status": "proved",
   "theorems": [
    "Perf.c95_visit",
    "Perf.c95_exact",
    "Perf.c95_accepts",
    "Perf.c95_unambiguous",
    "Perf.c95_calls",
    "Perf.c95_reader",
    "Perf.c95_settled",
    "Perf.c95_plain",
    "Perf.c95_memory",
    "Perf.c95_kernel",
    "Perf.c95_example"
   ],
   "note": ""
  },
  {
   "property": "C96",
   "status": "proved",
   "theorems": [
    "Perf.c96_visit",
    "Perf.c96_exact",
    "Perf.c96_accepts",
    "Perf.c96_unambiguous",
    "Perf.c96_calls",
    "Perf.c96_slice",
    "Perf.c96_even",
    "Perf.c96_kernel",
    "Perf.c96_example"
   ],
   "note": ""
  },
  {
   "property": "C97",
   "status": "proved",
   "theorems": [
    "Perf.c97_visit",
    "Perf.c97_exact",
    "Perf.c97_accepts",
    "Perf.c97_unambiguous",
    "Perf.c97_calls",
    "Perf.c97_pieces",
    "Perf.c97_slice",
    "Perf.c97_copied",
    "Perf.c97_temporary",
    "Perf.c97_example"
   ],
   "note": ""
  },
  {
   "property": "C98",
   "status": "proved",
   "theorems": [
    "Perf.c98_attr",
    "Perf.c98_exact",
    "Perf.c98_unambiguous",
    "Perf.c98_config",
    "Perf.c98_recording",
    "Perf.c98_reader",
    "Perf.c98_example"
   ],
   "note": ""
  },
  {
   "property": "C99",
   "status": "proved",
   "theorems": [
    "Perf.c99_loop",
    "Perf.c99_determined",
    "Perf.c99_pieces",
    "Perf.c99_through",
    "Perf.c99_reader",
    "Perf.c99_damaged",
    "Perf.c99_damaged_pieces",
    "Perf.c99_example"
   ],
   "note": ""
  },
  {
   "property": "C100",
   "status": "proved",
   "theorems": [
    "Perf.c100_wrong",
    "Perf.c100_visit",
    "Perf.c100_eof",
    "Perf.c100_unique",
    "Perf.c100_exact",
    "Perf.c100_loop",
    "Perf.c100_pieces",
    "Perf.c100_slice",
    "Perf.c100_reader",
    "Perf.c100_reader_loop",
    "Perf.c100_example",
    "Perf.c100_live"
   ],
   "note": ""
  },
  {
   "property": "C101",
   "status": "proved",
   "theorems": [
    "Perf.c101_record",
    "Perf.c101_stream",
    "Perf.c101_ring",
    "Perf.c101_whole",
    "Perf.c101_wrapped",
    "Perf.c101_example"
   ],
   "note": ""
  },
  {
   "property": "C102",
   "status": "proved",
   "theorems": [
    "Perf.c102_unique",
    "Perf.c102_returns",
    "Perf.c102_exact",
    "Perf.c102_error",
    "Perf.c102_record",
    "Perf.c102_example"
   ],
   "note": ""
  },
  {
   "property": "C103",
   "status": "proved",
   "theorems": [
    "Perf.c103_exact",
    "Perf.c103_visit",
    "Perf.c103_pieces",
    "Perf.c103_slice",
    "Perf.c103_reader",
    "Perf.c103_example"
   ],
   "note": ""
  },
  {
   "property": "C104",
   "status": "proved",
   "theorems": [
    "Perf.c104_record",
    "Perf.c104_loop",
    "Perf.c104_moved",
    "Perf.c104_reader",
    "Perf.c104_example"
   ],
   "note": ""
  },
  {
   "property": "C105",
   "status": "proved",
   "theorems": [
    "Perf.c105_pieces",
    "Perf.c105_ring",
    "Perf.c105_moved",
    "Perf.c105_example",
    "Perf.c105_goes_on",
    "Perf.c105_refused"
   ],
   "note": ""
  },
  {
   "property": "C106",
   "status": "proved",
   "theorems": [
    "Perf.c106_look",
    "Perf.c106_cursor",
    "Perf.c106_slice",
    "Perf.c106_reader",
    "Perf.c106_reader_unseen",
    "Perf.c106_reader_within",
    "Perf.c106_reader_differs",
    "Perf.c106_split",
    "Perf.c106_within",
    "Perf.c106_within_reader",
    "Perf.c106_example"
   ],
   "note": ""
  }
 ]
}