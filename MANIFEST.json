{
 "claims": [
  {
   "property": "C01",
   "status": "proved",
   "theorems": [
    "Dtf.DataRange.C01_ranges_refine_memory_files",
    "Dtf.DataRange.C01_invalid_window_refuses"
   ],
   "note": ""
  },
  {
   "property": "C02",
   "status": "partial",
   "theorems": [
    "Dtf.DataRange.C02_negative_size_escapes",
    "Dtf.DataRange.C02_contained_partial",
    "Dtf.DataRange.C02_negative_size_reads_parent"
   ],
   "note": "False of the code for negative sizes (C02_negative_size_escapes); holds for absent or non-negative sizes."
  },
  {
   "property": "C03",
   "status": "proved",
   "theorems": [
    "Dtf.DataRange.C03_failed_call_has_no_effect",
    "Dtf.DataRange.C03_seek_fails_iff"
   ],
   "note": ""
  },
  {
   "property": "C04",
   "status": "proved",
   "theorems": [
    "Dtf.DataRange.C04_chunks_reassemble",
    "Dtf.DataRange.C04_empty_only_at_end",
    "Dtf.DataRange.C04_loop_ends"
   ],
   "note": ""
  },
  {
   "property": "C05",
   "status": "partial",
   "theorems": [
    "Dtf.DataFormat.C05_follows_protocol",
    "Dtf.DataFormat.C05_refused_call_changes_nothing",
    "Dtf.DataFormat.C05_failed_open_leaks",
    "Dtf.DataFormat.C05_live_handles_partial",
    "Dtf.DataFormat.C05_no_leak_partial"
   ],
   "note": "The handle part is false of the code: a parse that raises leaks its handle (C05_failed_open_leaks). The two-state protocol is proved, and the exact number of live handles."
  },
  {
   "property": "C06",
   "status": "proved",
   "theorems": [
    "Dtf.DataFormat.C06_exact_or_error",
    "Dtf.DataFormat.C06_short_is_parse_error",
    "Dtf.DataFormat.C06_negative_offset"
   ],
   "note": ""
  },
  {
   "property": "C07",
   "status": "proved",
   "theorems": [
    "Dtf.DataFormat.C07_structure_is_contiguous",
    "Dtf.DataFormat.C07_terminates",
    "Dtf.DataFormat.C07_fuel_irrelevant",
    "Dtf.DataFormat.C07_from_byte_stream"
   ],
   "note": ""
  },
  {
   "property": "C08",
   "status": "proved",
   "theorems": [
    "Dtf.HexDump.C08_dump_is_lossless",
    "Dtf.HexDump.C08_rows_are_aligned"
   ],
   "note": ""
  },
  {
   "property": "C09",
   "status": "proved",
   "theorems": [
    "Dtf.Prefetch.C09_vista_is_polynomial",
    "Dtf.Prefetch.C09_2008_is_polynomial",
    "Dtf.Prefetch.C09_2008_eq_vista",
    "Dtf.Prefetch.C09_xp_is_signed_product"
   ],
   "note": ""
  },
  {
   "property": "C10",
   "status": "proved",
   "theorems": [
    "Dtf.Prefetch.C10_xp_range",
    "Dtf.Prefetch.C10_vista_range",
    "Dtf.Prefetch.C10_2008_range"
   ],
   "note": ""
  },
  {
   "property": "C11",
   "status": "partial",
   "theorems": [
    "Dtf.ChromeCache.C11_unsigned_variant",
    "Dtf.ChromeCache.C11_is_32_bit",
    "Dtf.ChromeCache.C11_sign_extension_missing",
    "Dtf.ChromeCache.C11_published_partial"
   ],
   "note": "False of the code for keys of odd length whose last byte is 0x80 or more (C11_sign_extension_missing); equal to the unsigned-char variant for all keys and to the publication for all other keys."
  },
  {
   "property": "C12",
   "status": "partial",
   "theorems": [
    "Dtf.ChromeCache.C12_flag_and_type",
    "Dtf.ChromeCache.C12_separate_file",
    "Dtf.ChromeCache.C12_block_address",
    "Dtf.ChromeCache.C12_collision",
    "Dtf.ChromeCache.C12_reserved_bits_collide",
    "Dtf.ChromeCache.C12_no_collision_partial",
    "Dtf.ChromeCache.C12_describe_unknown_type",
    "Dtf.ChromeCache.C12_describe_not_total",
    "Dtf.ChromeCache.C12_describe_partial"
   ],
   "note": "The collision claim is false of the code (C12_collision, C12_reserved_bits_collide) and describing unknown types raises (C12_describe_unknown_type). Fields, rebuild and the largest collision-free part are proved."
  },
  {
   "property": "C13",
   "status": "partial",
   "theorems": [
    "Dtf.ChromeCache.C13_last_run_lost",
    "Dtf.ChromeCache.C13_runs_before_last_clear_bit",
    "Dtf.ChromeCache.C13_complete_partial"
   ],
   "note": "False of the code when the last bit is set (C13_last_run_lost). The exact set of reported runs is proved for all bitmaps."
  },
  {
   "property": "C14",
   "status": "proved",
   "theorems": [
    "Dtf.LevelDB.C14_round_trip",
    "Dtf.LevelDB.C14_consumes_available",
    "Dtf.LevelDB.C14_prefix_free",
    "Dtf.LevelDB.C14_truncation_accepted"
   ],
   "note": ""
  },
  {
   "property": "C15",
   "status": "proved",
   "theorems": [
    "Dtf.LevelDB.C15_records_survive",
    "Dtf.LevelDB.C15_writer_layout",
    "Dtf.LevelDB.C15_write_then_read"
   ],
   "note": ""
  },
  {
   "property": "C16",
   "status": "proved",
   "theorems": [
    "Dtf.LevelDB.C16_terminates",
    "Dtf.LevelDB.C16_blocks"
   ],
   "note": ""
  },
  {
   "property": "C17",
   "status": "proved",
   "theorems": [
    "Dtf.LevelDB.C17_table_round_trip",
    "Dtf.LevelDB.C17_terminates"
   ],
   "note": ""
  },
  {
   "property": "C18",
   "status": "proved",
   "theorems": [
    "Dtf.LevelDB.C18_suffix_exact",
    "Dtf.LevelDB.C18_suffix_round_trip"
   ],
   "note": ""
  },
  {
   "property": "C19",
   "status": "proved",
   "theorems": [
    "Dtf.IndexedDB.C19_round_trip",
    "Dtf.IndexedDB.C19_decodes",
    "Dtf.IndexedDB.C19_repr_injective",
    "Dtf.IndexedDB.C19_segments_lossless",
    "Dtf.IndexedDB.C19_segments_not_injective",
    "Dtf.IndexedDB.C19_entries"
   ],
   "note": ""
  },
  {
   "property": "C20",
   "status": "partial",
   "theorems": [
    "Dtf.Cpio.C20_negative_size_loops",
    "Dtf.Cpio.C20_terminates_partial",
    "Dtf.Cpio.C20_binary_terminates",
    "Dtf.Cpio.C20_no_minus_terminates"
   ],
   "note": "False of the code: a signed size field makes the loop go backwards for ever (C20_negative_size_loops). Termination is proved for the binary formats and for all archives without a minus sign in a size field."
  },
  {
   "property": "C21",
   "status": "proved",
   "theorems": [
    "Dtf.Cpio.C21_round_trip",
    "Dtf.Cpio.C21_round_trip_no_trailer",
    "Dtf.Cpio.C21_contents",
    "Dtf.Cpio.C21_odc_header_exists",
    "Dtf.Cpio.C21_newc_header_exists"
   ],
   "note": ""
  },
  {
   "property": "C22",
   "status": "proved",
   "theorems": [
    "Dtf.Cpio.C22_lookup",
    "Dtf.Cpio.C22_exists",
    "Dtf.Cpio.C22_listing",
    "Dtf.Cpio.C22_state",
    "Dtf.Cpio.C22_false_without_entries"
   ],
   "note": ""
  },
  {
   "property": "C23",
   "status": "proved",
   "theorems": [
    "Dtf.DataRange.C23_members_are_isolated",
    "Dtf.DataRange.C01_ranges_refine_memory_files"
   ],
   "note": ""
  },
  {
   "property": "C24",
   "status": "partial",
   "theorems": [
    "Dtf.Spotlight.C24_decodes",
    "Dtf.Spotlight.C24_empty",
    "Dtf.Spotlight.C24_round_trip",
    "Dtf.Spotlight.C24_spare_bits_dropped",
    "Dtf.Spotlight.C24_injective_partial"
   ],
   "note": "The injectivity half is false for encodings of six and seven bytes, whose spare bits are dropped (C24_spare_bits_dropped); proved for all other lengths. Sizes, values and the round trip are proved for all lengths."
  },
  {
   "property": "C25",
   "status": "proved",
   "theorems": [
    "Dtf.Asl.C25_inline_round_trip",
    "Dtf.Asl.C25_inline_injective",
    "Dtf.Asl.C25_zero",
    "Dtf.Asl.C25_inline_no_access",
    "Dtf.Asl.C25_inline_refused",
    "Dtf.Asl.C25_stored_round_trip",
    "Dtf.Asl.C25_stored_zero_terminated"
   ],
   "note": ""
  },
  {
   "property": "C26",
   "status": "partial",
   "theorems": [
    "Dtf.Asl.C26_record_cycle_loops",
    "Dtf.Asl.C26_terminates_partial",
    "Dtf.Asl.C26_inline_terminates_partial"
   ],
   "note": "False of the code: a record can be its own next record (C26_record_cycle_loops). Proved for files whose offsets increase or whose extra fields use no stored strings."
  },
  {
   "property": "C27",
   "status": "proved",
   "theorems": [
    "Dtf.Unified.C27_tokens_are_the_string",
    "Dtf.Unified.C27_every_string",
    "Dtf.Unified.C27_renders",
    "Dtf.Unified.C27_operators",
    "Dtf.Unified.C27_operators_valid"
   ],
   "note": ""
  },
  {
   "property": "C28",
   "status": "partial",
   "theorems": [
    "Dtf.Unified.C28_integer_precision",
    "Dtf.Unified.C28_string_width",
    "Dtf.Unified.C28_pointer",
    "Dtf.Unified.C28_float_width",
    "Dtf.Unified.C28_float_not",
    "Dtf.Unified.C28_float_partial",
    "Dtf.Unified.C28_string_partial",
    "Dtf.Unified.C28_zero_not_padded"
   ],
   "note": "False of the code for operators with both width and precision (C28_integer_precision, C28_string_width, C28_float_width, C28_pointer, C28_zero_not_padded). Proved for a width only and for a precision only, integers in C84_*_partial. The text of floating-point numbers is not modelled, only the format specification."
  },
  {
   "property": "C29",
   "status": "proved",
   "theorems": [
    "Dtf.Unified.C29_cache_sound",
    "Dtf.Unified.C29_right_file",
    "Dtf.Unified.C29_none_only_if_missing",
    "Dtf.Unified.C29_least_recently_used"
   ],
   "note": ""
  },
  {
   "property": "C30",
   "status": "partial",
   "theorems": [
    "Dtf.Unified.C30_uuidtext",
    "Dtf.Unified.C30_shared_cache",
    "Dtf.Unified.C30_key_too_small",
    "Dtf.Unified.C30_wrong_load_address",
    "Dtf.Unified.C30_transparent_partial"
   ],
   "note": "False of the code: the key has only the identifier and the string reference (two refutations). Proved for histories in which lookups with the same key have the same result."
  },
  {
   "property": "C31",
   "status": "partial",
   "theorems": [
    "Dtf.Unified.C31_next_range_lost",
    "Dtf.Unified.C31_end_of_range_resolved",
    "Dtf.Unified.C31_first_range_partial",
    "Dtf.Unified.C31_resolved_partial"
   ],
   "note": "False of the code at the end of a range, which is treated as part of it (C31_next_range_lost, C31_end_of_range_resolved); C31_first_range_partial gives the exact behaviour for all tables."
  },
  {
   "property": "C32",
   "status": "partial",
   "theorems": [
    "Dtf.Unified.C32_next_entry_lost",
    "Dtf.Unified.C32_first_entry_partial",
    "Dtf.Unified.C32_layout",
    "Dtf.Unified.C32_string_partial"
   ],
   "note": "False of the code at the end of an entry (C32_next_entry_lost); the layout and the exact behaviour are proved for all files."
  },
  {
   "property": "C33",
   "status": "proved",
   "theorems": [
    "Dtf.Unified.C33_recovers",
    "Dtf.Unified.C33_injective"
   ],
   "note": ""
  },
  {
   "property": "C34",
   "status": "proved",
   "theorems": [
    "Dtf.Unified.C34_record_used",
    "Dtf.Unified.C34_no_record",
    "Dtf.Unified.C34_timestamp"
   ],
   "note": ""
  },
  {
   "property": "C35",
   "status": "proved",
   "theorems": [
    "Dtf.Unified.C35_file_terminates",
    "Dtf.Unified.C35_chunk_set_terminates",
    "Dtf.Unified.C35_firehose_terminates",
    "Dtf.Unified.C35_file_chunks_placed",
    "Dtf.Unified.C35_set_chunks_placed"
   ],
   "note": ""
  },
  {
   "property": "C36",
   "status": "partial",
   "theorems": [
    "Dtf.Wmi.C36_terminates",
    "Dtf.Wmi.C36_record",
    "Dtf.Wmi.C36_descriptors",
    "Dtf.Wmi.C36_too_large",
    "Dtf.Wmi.C36_size_partial"
   ],
   "note": "False of the code: a descriptor with a data offset of 8193 makes the segment read everything up to the end of the file (C36_too_large). Proved for descriptors within the page, and termination for all files."
  },
  {
   "property": "C37",
   "status": "partial",
   "theorems": [
    "Dtf.Wmi.C37_value",
    "Dtf.Wmi.C37_preorder",
    "Dtf.Wmi.C37_reachable",
    "Dtf.Wmi.C37_cycle",
    "Dtf.Wmi.C37_terminates_claim_false",
    "Dtf.Wmi.C37_leaf",
    "Dtf.Wmi.C37_root",
    "Dtf.Wmi.C37_mapped"
   ],
   "note": "False of the code: an index with a cycle ends in a RecursionError (C37_cycle, C37_terminates_claim_false). Proved: pre-order for trees up to the recursion limit, and that the keys that are returned are exactly those of the reachable pages, for indexes of all shapes."
  },
  {
   "property": "C38",
   "status": "partial",
   "theorems": [
    "Dtf.Wmi.C38_newest_partial",
    "Dtf.Wmi.C38_fails",
    "Dtf.Wmi.C38_found_claim_false"
   ],
   "note": "False of the code: the pattern is taken apart as if it were two values, a ValueError in all directories (C38_fails). The choice among the files is proved for all lists (C38_newest_partial)."
  },
  {
   "property": "C39",
   "status": "partial",
   "theorems": [
    "Dtf.Wmi.C39_glob",
    "Dtf.Wmi.C39_open_fails",
    "Dtf.Wmi.C39_open_claim_false"
   ],
   "note": "False of the code: opening is a ValueError for all paths (C39_open_fails). That the pattern matches exactly the name up to case is proved."
  },
  {
   "property": "C40",
   "status": "proved",
   "theorems": [
    "Dtf.Wmi.C40_override",
    "Dtf.Wmi.C40_undefined",
    "Dtf.Wmi.C40_complete",
    "Dtf.Wmi.C40_derivation",
    "Dtf.Wmi.C40_untyped"
   ],
   "note": "Proved. Names are lowered as in ASCII."
  },
  {
   "property": "C41",
   "status": "proved",
   "theorems": [
    "Dtf.Formats.C41_rebuild",
    "Dtf.Formats.C41_disjoint",
    "Dtf.Formats.C41_fields_independent",
    "Dtf.Formats.C41_text_injective"
   ],
   "note": ""
  },
  {
   "property": "C42",
   "status": "partial",
   "theorems": [
    "Dtf.Systemd.C42_cycle",
    "Dtf.Systemd.C42_claim_false",
    "Dtf.Systemd.C42_terminates_partial"
   ],
   "note": "False of the code: an entry array that points to itself is read again and again (C42_cycle). Proved for chains in which the offsets grow."
  },
  {
   "property": "C43",
   "status": "partial",
   "theorems": [
    "Dtf.Usn.C43_full_blocks_partial",
    "Dtf.Usn.C43_one_block_partial",
    "Dtf.Usn.C43_lost",
    "Dtf.Usn.C43_rejected",
    "Dtf.Usn.C43_claim_false",
    "Dtf.Usn.C43_terminates"
   ],
   "note": "False of the code: zero padding in a block is not skipped in the file and a record of 60 bytes at the end of a block is missed (C43_lost, C43_rejected). Proved for blocks that are full of records and for a single block; termination for all files."
  },
  {
   "property": "C44",
   "status": "partial",
   "theorems": [
    "Dtf.ChangeLog.C44_copy",
    "Dtf.ChangeLog.C44_tiling_partial",
    "Dtf.ChangeLog.C44_tiling_claim_false",
    "Dtf.ChangeLog.C44_truncated",
    "Dtf.ChangeLog.C44_terminates"
   ],
   "note": "False of the code: a record with a size of 71 makes the rest of the file its data (C44_tiling_claim_false), and a truncated last entry is accepted (C44_truncated). Proved: the copy of the size, termination, and tiling for other sizes."
  },
  {
   "property": "C45",
   "status": "partial",
   "theorems": [
    "Dtf.Fsevents.C45_pages",
    "Dtf.Fsevents.C45_terminates",
    "Dtf.Fsevents.C45_tiling_claim_false"
   ],
   "note": "False of the code for a page whose size ends within a record: the next page begins after the record, not where the page ends (C45_tiling_claim_false). Proved for well-formed pages; termination for all files. The decompressed stream is the input."
  },
  {
   "property": "C46",
   "status": "proved",
   "theorems": [
    "Dtf.Ipp.C46_items",
    "Dtf.Ipp.C46_terminates",
    "Dtf.Ipp.C46_end_tag",
    "Dtf.Ipp.C46_keyword_not_ascii"
   ],
   "note": "Proved."
  },
  {
   "property": "C47",
   "status": "partial",
   "theorems": [
    "Dtf.Gzip.C47_members_partial",
    "Dtf.Gzip.C47_empty",
    "Dtf.Gzip.C47_claim_false",
    "Dtf.Gzip.C47_terminates"
   ],
   "note": "False of the code: for a member of empty data the footer is searched where its stream begins (C47_empty). Proved for members of non-empty data whose stream fits the buffer; termination for all files. The decompressor is a parameter."
  },
  {
   "property": "C48",
   "status": "partial",
   "theorems": [
    "Dtf.Wemf.C48_terminates_partial",
    "Dtf.Wemf.C48_size_0_loops",
    "Dtf.Wemf.C48_claim_false",
    "Dtf.Wemf.C48_emf_partial",
    "Dtf.Wemf.C48_wmf_records"
   ],
   "note": "False of the code: a record of size 0 makes the reader loop for ever (C48_size_0_loops, C48_claim_false). Proved for files with record sizes that are not 0, with what is read."
  },
  {
   "property": "C49",
   "status": "partial",
   "theorems": [
    "Dtf.Bsm.C49_records",
    "Dtf.Bsm.C49_terminates",
    "Dtf.Bsm.C49_header_only",
    "Dtf.Bsm.C49_framing_claim_false",
    "Dtf.Bsm.C49_framing_partial",
    "Dtf.Bsm.C49_tiling_claim_false"
   ],
   "note": "False of the code: a record that is a header only is accepted (C49_framing_claim_false) and the size of a record does not say where the next one is (C49_tiling_claim_false). Termination is proved for all files; the framing for records longer than their header."
  },
  {
   "property": "C50",
   "status": "partial",
   "theorems": [
    "Dtf.Keychain.C50_parts",
    "Dtf.Keychain.C50_database_partial",
    "Dtf.Keychain.C50_signed",
    "Dtf.Keychain.C50_signed_claim_false",
    "Dtf.Keychain.C50_names_claim_false",
    "Dtf.Keychain.C50_order_claim_false",
    "Dtf.Keychain.C50_last_value",
    "Dtf.Keychain.C50_index",
    "Dtf.Keychain.C50_index_missing"
   ],
   "note": "False of the code for signed integers below zero, columns with the same name and rows before the schema (C50_signed_claim_false, C50_names_claim_false, C50_order_claim_false). Proved for databases whose schema tables come first, wherever their parts are."
  },
  {
   "property": "C51",
   "status": "proved",
   "theorems": [
    "Dtf.Formats.C51_split_join",
    "Dtf.Formats.C51_split",
    "Dtf.Formats.C51_join_split",
    "Dtf.Formats.C51_normal_unchanged"
   ],
   "note": ""
  },
  {
   "property": "C52",
   "status": "proved",
   "theorems": [
    "Dtf.Formats.C52_ipv4_defined",
    "Dtf.Formats.C52_ipv6_defined",
    "Dtf.Formats.C52_ipv4_round_trip",
    "Dtf.Formats.C52_ipv6_round_trip",
    "Dtf.Formats.C52_injective",
    "Dtf.Formats.C52_socket_ipv6_injective"
   ],
   "note": ""
  },
  {
   "property": "C53",
   "status": "partial",
   "theorems": [
    "Dtf.ChromeCache.C53_size_one_block_short",
    "Dtf.ChromeCache.C53_documented_size_false"
   ],
   "note": "False of the code for every block address: C53_size_one_block_short gives the exact value."
  },
  {
   "property": "C54",
   "status": "partial",
   "theorems": [
    "Dtf.ChromeCache.C54_index_table_entries",
    "Dtf.ChromeCache.C54_index_table_order",
    "Dtf.ChromeCache.C54_chain_bounded",
    "Dtf.ChromeCache.C54_chain_prefix"
   ],
   "note": "The index table is proved of the code. The chains are those of the loop of ParseDirectory, which the code never reaches with an entry (C160): what is proved of chains is what the loop does once the calls before it are repaired."
  },
  {
   "property": "C55",
   "status": "proved",
   "theorems": [
    "Dtf.LevelDB.C55_batch_round_trip",
    "Dtf.LevelDB.C55_terminates"
   ],
   "note": ""
  },
  {
   "property": "C56",
   "status": "proved",
   "theorems": [
    "Dtf.LevelDB.C56_terminates",
    "Dtf.LevelDB.C56_edit_round_trip",
    "Dtf.LevelDB.C56_unknown_tag"
   ],
   "note": ""
  },
  {
   "property": "C57",
   "status": "proved",
   "theorems": [
    "Dtf.LevelDB.C57_table_file"
   ],
   "note": ""
  },
  {
   "property": "C58",
   "status": "proved",
   "theorems": [
    "Dtf.Spotlight.C58_page_contents",
    "Dtf.Spotlight.C58_terminates",
    "Dtf.Spotlight.C58_needs_end_marker"
   ],
   "note": ""
  },
  {
   "property": "C59",
   "status": "partial",
   "theorems": [
    "Dtf.Spotlight.C59_list_starts_with_size",
    "Dtf.Spotlight.C59_list_size_partial",
    "Dtf.Spotlight.C59_list_shifted"
   ],
   "note": "False of the code: the list starts with its own size and lacks its end (C59_list_starts_with_size, C59_list_shifted gives what is read)."
  },
  {
   "property": "C60",
   "status": "partial",
   "theorems": [
    "Dtf.Spotlight.C60_record",
    "Dtf.Spotlight.C60_integer_value",
    "Dtf.Spotlight.C60_single_integer_value",
    "Dtf.Spotlight.C60_byte_value",
    "Dtf.Spotlight.C60_bytes_value",
    "Dtf.Spotlight.C60_data_value",
    "Dtf.Spotlight.C60_last_attributes_lost",
    "Dtf.Spotlight.C60_record_partial",
    "Dtf.Spotlight.C60_terminates"
   ],
   "note": "False of the code: attributes in the last four bytes of a record are lost (C60_last_attributes_lost). C60_record gives exactly which attributes are read, for all records. Values of types 0x09, 0x0A, 0x0B, 0x0C and 0x0F are a parameter."
  },
  {
   "property": "C61",
   "status": "partial",
   "theorems": [
    "Dtf.Spotlight.C61_value_at_offset_0_lost",
    "Dtf.Spotlight.C61_streams_partial",
    "Dtf.Spotlight.C61_last_lost"
   ],
   "note": "False of the code when the last value is at offset 0 (C61_value_at_offset_0_lost); proved otherwise."
  },
  {
   "property": "C62",
   "status": "partial",
   "theorems": [
    "Dtf.Spotlight.C62_map_size_0_loops",
    "Dtf.Spotlight.C62_map_terminates_partial",
    "Dtf.Spotlight.C62_property_cycle_loops",
    "Dtf.Spotlight.C62_property_terminates_partial",
    "Dtf.Spotlight.C62_property_chain"
   ],
   "note": "False of the code: map pages of size 0 (C62_map_size_0_loops) and cyclic chains (C62_property_cycle_loops) are read for ever."
  },
  {
   "property": "C63",
   "status": "proved",
   "theorems": [
    "Dtf.Spotlight.C63_page_descriptors",
    "Dtf.Spotlight.C63_descriptor_finds_record",
    "Dtf.Spotlight.C63_terminates"
   ],
   "note": ""
  },
  {
   "property": "C64",
   "status": "proved",
   "theorems": [
    "Dtf.Asl.C64_record",
    "Dtf.Asl.C64_denotes",
    "Dtf.Asl.C64_extra_fields",
    "Dtf.Asl.C64_file"
   ],
   "note": ""
  },
  {
   "property": "C65",
   "status": "proved",
   "theorems": [
    "Dtf.Formats.C65_decimals_injective",
    "Dtf.Formats.C65_offsets_injective",
    "Dtf.Formats.C65_offset_numbers"
   ],
   "note": ""
  },
  {
   "property": "C66",
   "status": "partial",
   "theorems": [
    "Dtf.Formats.C66_ff_not_escaped",
    "Dtf.Formats.C66_backslash_ambiguous",
    "Dtf.Formats.C66_printable_partial",
    "Dtf.Formats.C66_injective_partial"
   ],
   "note": "False of the code: the byte 0xff is shown as it is (C66_ff_not_escaped) and a backslash is not escaped (C66_backslash_ambiguous). Proved for streams without these."
  },
  {
   "property": "C67",
   "status": "partial",
   "theorems": [
    "Dtf.Formats.C67_long_description",
    "Dtf.Formats.C67_column_partial"
   ],
   "note": "False of the code for descriptions of 72 characters or more (C67_long_description); proved for all shorter ones."
  },
  {
   "property": "C68",
   "status": "partial",
   "theorems": [
    "Dtf.Formats.C68_shows_tuple",
    "Dtf.Formats.C68_single",
    "Dtf.Formats.C68_injective_partial"
   ],
   "note": "False of the code: the tuple of texts is shown instead of the offset (C68_shows_tuple, C68_single). That no two lists have the same text is proved."
  },
  {
   "property": "C69",
   "status": "partial",
   "theorems": [
    "Dtf.Formats.C69_minor_wrong",
    "Dtf.Formats.C69_right_iff_partial"
   ],
   "note": "False of the code: the minor version is taken from the wrong bits (C69_minor_wrong); C69_right_iff_partial gives exactly the values that are right."
  },
  {
   "property": "C70",
   "status": "partial",
   "theorems": [
    "Dtf.Formats.C70_fraction_wrong",
    "Dtf.Formats.C70_digits_partial"
   ],
   "note": "False of the code: the numerator is shown as if it were a decimal fraction (C70_fraction_wrong)."
  },
  {
   "property": "C71",
   "status": "partial",
   "theorems": [
    "Dtf.Formats.C71_no_empty_line",
    "Dtf.Formats.C71_attributes_partial",
    "Dtf.Formats.C71_fails_iff_partial",
    "Dtf.Formats.C71_empty_line_partial"
   ],
   "note": "False of the code: a text of several lines without a final line end gets no empty line after it (C71_no_empty_line). Order, texts and failures are proved for all structures, and the empty line for all other texts."
  },
  {
   "property": "C72",
   "status": "partial",
   "theorems": [
    "Dtf.Formats.C72_link_local_malformed",
    "Dtf.Formats.C72_no_zero_group_partial"
   ],
   "note": "False of the code: a zero group is shown as nothing (C72_link_local_malformed); proved for addresses without zero groups."
  },
  {
   "property": "C73",
   "status": "proved",
   "theorems": [
    "Dtf.Unified.C73_read_dsc"
   ],
   "note": ""
  },
  {
   "property": "C74",
   "status": "partial",
   "theorems": [
    "Dtf.Unified.C74_record_size_0_loops",
    "Dtf.Unified.C74_terminates_partial",
    "Dtf.Unified.C74_all_records",
    "Dtf.Unified.C74_records_of_boot"
   ],
   "note": "False of the code for a record whose size is 0: the loop does not end (C74_record_size_0_loops). Proved: termination if no record has size 0, that all records are returned, and that the records of the boot are used."
  },
  {
   "property": "C75",
   "status": "partial",
   "theorems": [
    "Dtf.Unified.C75_stale_records",
    "Dtf.Unified.C75_independent_partial"
   ],
   "note": "False of the code: if the boot identifier is not found, the sync records and the time base of the file before are used (C75_stale_records). Proved when the boot record is found."
  },
  {
   "property": "C76",
   "status": "partial",
   "theorems": [
    "Dtf.Unified.C76_no_dsc_no_timesync",
    "Dtf.Unified.C76_relative_path",
    "Dtf.Unified.C76_short_path",
    "Dtf.Unified.C76_archive_partial",
    "Dtf.Unified.C76_diagnostics_partial"
   ],
   "note": "False of the code: an archive without a dsc directory, relative paths and files near the root (three refutations). Proved for absolute paths of complete archives and of systems."
  },
  {
   "property": "C77",
   "status": "partial",
   "theorems": [
    "Dtf.Unified.C77_closed_file_returned",
    "Dtf.Unified.C77_all_closed_partial"
   ],
   "note": "False of the code: Close leaves the closed files in the cache (C77_closed_file_returned). Proved: the first Close closes every opened file once."
  },
  {
   "property": "C78",
   "status": "partial",
   "theorems": [
    "Dtf.Unified.C78_missing_file_evicts",
    "Dtf.Unified.C78_kept_partial"
   ],
   "note": "False of the code: looking up a missing file again evicts another one (C78_missing_file_evicts). Proved for histories without missing files."
  },
  {
   "property": "C79",
   "status": "partial",
   "theorems": [
    "Dtf.Unified.C79_next_image_lost",
    "Dtf.Unified.C79_image_partial",
    "Dtf.Unified.C79_sound_partial",
    "Dtf.Unified.C79_kind"
   ],
   "note": "False of the code at the end of an image: the comparison is <= (C79_next_image_lost). Proved for the other addresses."
  },
  {
   "property": "C80",
   "status": "proved",
   "theorems": [
    "Dtf.Unified.C80_oversize",
    "Dtf.Unified.C80_no_reference"
   ],
   "note": ""
  },
  {
   "property": "C81",
   "status": "partial",
   "theorems": [
    "Dtf.Unified.C81_not_again"
   ],
   "note": "False of the code: the second reading starts where the first one ended and finds nothing (C81_not_again)."
  },
  {
   "property": "C82",
   "status": "proved",
   "theorems": [
    "Dtf.Unified.C82_file_chunks",
    "Dtf.Unified.C82_set_chunks",
    "Dtf.Unified.C82_stored_block",
    "Dtf.Unified.C82_compressed_block",
    "Dtf.Unified.C82_chunk_set"
   ],
   "note": ""
  },
  {
   "property": "C83",
   "status": "partial",
   "theorems": [
    "Dtf.Unified.C83_supported",
    "Dtf.Unified.C83_loss_only",
    "Dtf.Unified.C83_empty",
    "Dtf.Unified.C83_records_partial"
   ],
   "note": "False of the code: a chunk of loss records only, or without records, ends with an UnboundLocalError because the private data is bound by the records before (C83_loss_only, C83_empty). Proved for chunks with at least one activity, log or signpost record."
  },
  {
   "property": "C84",
   "status": "partial",
   "theorems": [
    "Dtf.Unified.C84_signed_partial",
    "Dtf.Unified.C84_unsigned_partial",
    "Dtf.Unified.C84_trailing_zeros",
    "Dtf.Unified.C84_plus_fills",
    "Dtf.Unified.C84_error",
    "Dtf.Unified.C84_octal",
    "Dtf.Unified.C84_float_left"
   ],
   "note": "False of the code: %-05d shows 5 as 50000, %+-5d fills with plus signs, %0+5d is a ValueError, %#o has a prefix 0o (four refutations). Proved for the other usual combinations of flags, all widths and all values."
  },
  {
   "property": "C85",
   "status": "proved",
   "theorems": [
    "Dtf.Unified.C85_signed",
    "Dtf.Unified.C85_unsigned",
    "Dtf.Unified.C85_other_sizes",
    "Dtf.Unified.C85_string"
   ],
   "note": "Proved for operators without a precision and with the flags listed in the statement; the decoding of UTF-8 is a parameter."
  },
  {
   "property": "C86",
   "status": "proved",
   "theorems": [
    "Dtf.Wmi.C86_keys",
    "Dtf.Wmi.C86_split",
    "Dtf.Wmi.C86_segment_out_of_range"
   ],
   "note": "Proved, for values in ASCII."
  },
  {
   "property": "C87",
   "status": "partial",
   "theorems": [
    "Dtf.Wmi.C87_version2",
    "Dtf.Wmi.C87_version1_partial",
    "Dtf.Wmi.C87_trailing",
    "Dtf.Wmi.C87_tables",
    "Dtf.Wmi.C87_version1_claim_false"
   ],
   "note": "False of the code: a file of version 1 with one page more than entries is taken for version 2 (C87_version1_claim_false). Proved for version 2 and for all other files of version 1."
  },
  {
   "property": "C88",
   "status": "partial",
   "theorems": [
    "Dtf.Wmi.C88_covers_partial",
    "Dtf.Wmi.C88_covers_claim_false"
   ],
   "note": "False of the code: two properties at the same offset (C88_covers_claim_false). Proved for properties that do not overlap."
  },
  {
   "property": "C89",
   "status": "proved",
   "theorems": [
    "Dtf.Wmi.C89_key_values",
    "Dtf.Wmi.C89_injective",
    "Dtf.Wmi.C89_other"
   ],
   "note": "Proved; int() is a parameter that agrees with the decimal digits."
  },
  {
   "property": "C90",
   "status": "partial",
   "theorems": [
    "Dtf.Wmi.C90_found_partial",
    "Dtf.Wmi.C90_sound",
    "Dtf.Wmi.C90_order",
    "Dtf.Wmi.C90_found_claim_false"
   ],
   "note": "False of the code: there are five rounds only, and a namespace six levels below is found or not depending on the order (C90_order). Proved up to five levels, for all orders; soundness for all."
  },
  {
   "property": "C91",
   "status": "partial",
   "theorems": [
    "Dtf.Wmi.C91_cells",
    "Dtf.Wmi.C91_terminates_partial",
    "Dtf.Wmi.C91_terminates_claim_false"
   ],
   "note": "False of the code: a cell with a size that is zero but for its flags is read again and again (C91_terminates_claim_false). Proved for all other files, and that the right nodes are found."
  },
  {
   "property": "C92",
   "status": "partial",
   "theorems": [
    "Dtf.Wmi.C92_chain",
    "Dtf.Wmi.C92_terminates_claim_false",
    "Dtf.Wmi.C92_missing"
   ],
   "note": "False of the code: a cycle of super classes is never done with and a missing super class is an AttributeError (C92_terminates_claim_false, C92_missing). Proved for chains of any length."
  },
  {
   "property": "C93",
   "status": "proved",
   "theorems": [
    "Dtf.Systemd.C93_entries",
    "Dtf.Systemd.C93_array_complete"
   ],
   "note": "Proved."
  },
  {
   "property": "C94",
   "status": "partial",
   "theorems": [
    "Dtf.ChangeLog.C94_header",
    "Dtf.ChangeLog.C94_entries",
    "Dtf.ChangeLog.C94_empty_claim_false"
   ],
   "note": "False of the code: a record of a type other than 4, 5 and 9 reads another header after its own, so an empty last record is an error (C94_empty_claim_false). Proved for records with data."
  },
  {
   "property": "C95",
   "status": "partial",
   "theorems": [
    "Dtf.Wemf.C95_data",
    "Dtf.Wemf.C95_data_claim_false",
    "Dtf.Wemf.C95_header_100",
    "Dtf.Wemf.C95_header_claim_false"
   ],
   "note": "False of the code: the size of the header of a record is used as the offset of its data (C95_data_claim_false) and the EMF header is taken to be 108 bytes (C95_header_claim_false)."
  },
  {
   "property": "C96",
   "status": "partial",
   "theorems": [
    "Dtf.Bsm.C96_elements",
    "Dtf.Bsm.C96_bytes_partial",
    "Dtf.Bsm.C96_claim_false"
   ],
   "note": "False of the code: the number of elements is used as the size in bytes (C96_claim_false). Proved for elements of one byte."
  },
  {
   "property": "C97",
   "status": "partial",
   "theorems": [
    "Dtf.Tzif.C97_first_partial",
    "Dtf.Tzif.C97_second_partial",
    "Dtf.Tzif.C97_first_claim_false",
    "Dtf.Tzif.C97_second_claim_false",
    "Dtf.Tzif.C97_second_is_first"
   ],
   "note": "False of the code: a zone without transitions, such as UTC, is an error (C97_first_claim_false), and the header of the 64-bit block is read at offset 0, so that its times are pairs of 32-bit times (C97_second_claim_false, C97_second_is_first). Proved for the 32-bit block of zones with transitions."
  },
  {
   "property": "C98",
   "status": "partial",
   "theorems": [
    "Dtf.Cookies.C98_partial",
    "Dtf.Cookies.C98_claim_false"
   ],
   "note": "False of the code: a file without pages is an error (C98_claim_false). Proved for files with pages."
  },
  {
   "property": "C99",
   "status": "partial",
   "theorems": [
    "Dtf.Utmp.C99_entries",
    "Dtf.Utmp.C99_terminates",
    "Dtf.Utmp.C99_complete",
    "Dtf.Utmp.C99_xentries",
    "Dtf.Utmp.C99_xcomplete",
    "Dtf.Utmp.C99_string_partial",
    "Dtf.Utmp.C99_string_claim_false",
    "Dtf.Utmp.C99_address_claim_false",
    "Dtf.Utmp.C99_address_partial"
   ],
   "note": "False of the code: what is after the terminator of a string is shown as well (C99_string_claim_false) and the address is shown as the text of a tuple (C99_address_claim_false). The entries are proved to be read completely."
  },
  {
   "property": "C100",
   "status": "proved",
   "theorems": [
    "Dtf.Recycler.C100_entries",
    "Dtf.Recycler.C100_complete",
    "Dtf.Recycler.C100_terminates"
   ],
   "note": ""
  },
  {
   "property": "C101",
   "status": "proved",
   "theorems": [
    "Dtf.RecycleBin.C101_metadata",
    "Dtf.RecycleBin.C101_versions"
   ],
   "note": ""
  },
  {
   "property": "C102",
   "status": "partial",
   "theorems": [
    "Dtf.RpLog.C102_log",
    "Dtf.RpLog.C102_errors_claim_false",
    "Dtf.RpLog.C102_parts_claim_false",
    "Dtf.RpLog.C102_parts_partial"
   ],
   "note": "False of the code: a description that ends within the last 8 bytes gives a ValueError (C102_errors_claim_false) or has the footer in the data (C102_parts_claim_false). Proved for other files."
  },
  {
   "property": "C103",
   "status": "partial",
   "theorems": [
    "Dtf.JumpList.C103_entries_partial",
    "Dtf.JumpList.C103_number",
    "Dtf.JumpList.C103_again",
    "Dtf.JumpList.C103_fresh_claim_false",
    "Dtf.JumpList.C103_identifiers_claim_false",
    "Dtf.JumpList.C103_footer"
   ],
   "note": "False of the code: the entries of a file that was read before remain (C103_fresh_claim_false) and all entries have the identifier 0x00000000 (C103_identifiers_claim_false). Proved for an object that has read nothing before; the LNK library is a parameter."
  },
  {
   "property": "C104",
   "status": "proved",
   "theorems": [
    "Dtf.JumpList.C104_entries",
    "Dtf.JumpList.C104_empty",
    "Dtf.JumpList.C104_terminates"
   ],
   "note": "Proved."
  },
  {
   "property": "C105",
   "status": "partial",
   "theorems": [
    "Dtf.Firefox.C105_map",
    "Dtf.Firefox.C105_map_complete",
    "Dtf.Firefox.C105_blocks_partial",
    "Dtf.Firefox.C105_block_files",
    "Dtf.Firefox.C105_terminates",
    "Dtf.Firefox.C105_name",
    "Dtf.Firefox.C105_blocks_claim_false"
   ],
   "note": "False of the code: a block that is not in use can have sizes that make the reader skip the entries after it (C105_blocks_claim_false). Proved for unused blocks whose sizes are within the block; termination for all files."
  },
  {
   "property": "C106",
   "status": "partial",
   "theorems": [
    "Dtf.Amcache.C106_shown",
    "Dtf.Amcache.C106_error",
    "Dtf.Amcache.C106_exact_partial",
    "Dtf.Amcache.C106_other",
    "Dtf.Amcache.C106_claim_false",
    "Dtf.Amcache.C106_errors_claim_false"
   ],
   "note": "False of the code: sequence number 16 is shown as 1 (C106_claim_false) and MFT entry 65536 makes reading fail with a ValueError (C106_errors_claim_false). C106_exact_partial says exactly for which values the heading is right."
  },
  {
   "property": "C107",
   "status": "partial",
   "theorems": [
    "Dtf.Detection.C107_values",
    "Dtf.Detection.C107_terminates",
    "Dtf.Detection.C107_tracking",
    "Dtf.Detection.C107_shown",
    "Dtf.Detection.C107_errors_partial",
    "Dtf.Detection.C107_debug_claim_false",
    "Dtf.Detection.C107_errors_claim_false"
   ],
   "note": "False of the code: tracking data of size 0 makes reading fail only with debug (C107_debug_claim_false), with an error that is not a parse error (C107_errors_claim_false). Proved for well-formed files; without debug all errors are parse errors (C107_errors_partial)."
  },
  {
   "property": "C108",
   "status": "partial",
   "theorems": [
    "Dtf.Bookmark.C108_shown",
    "Dtf.Bookmark.C108_complete",
    "Dtf.Bookmark.C108_errors_partial",
    "Dtf.Bookmark.C108_errors_claim_false"
   ],
   "note": "False of the code: a record of another type than expected makes reading fail with an AttributeError (C108_errors_claim_false), empty flags with a ValueError. Proved for all other parts; C108_errors_partial bounds the errors. Decoding of UTF-8 is not modelled."
  },
  {
   "property": "C109",
   "status": "partial",
   "theorems": [
    "Dtf.Unified.C109_mode",
    "Dtf.Unified.C109_permissions",
    "Dtf.Unified.C109_special_claim_false"
   ],
   "note": "False of the code: set user id, set group id and the sticky bit are not shown (C109_special_claim_false). Kind and the nine permissions are proved for all values."
  },
  {
   "property": "C110",
   "status": "partial",
   "theorems": [
    "Dtf.Unified.C110_text",
    "Dtf.Unified.C110_injective",
    "Dtf.Unified.C110_truncated",
    "Dtf.Unified.C110_all_claim_false"
   ],
   "note": "False of the code for identifiers without sub authorities, whose text ends in a dash (C110_all_claim_false). Proved for all others."
  },
  {
   "property": "C111",
   "status": "partial",
   "theorems": [
    "Dtf.Unified.C111_flags",
    "Dtf.Unified.C111_flags_claim_false",
    "Dtf.Unified.C111_header",
    "Dtf.Unified.C111_header_injective",
    "Dtf.Unified.C111_counters",
    "Dtf.Unified.C111_idflags"
   ],
   "note": "False of the code for flags none of which is set: there is an empty part between two commas (C111_flags_claim_false). Everything else is proved."
  },
  {
   "property": "C112",
   "status": "proved",
   "theorems": [
    "Dtf.Unified.C112_uuid",
    "Dtf.Unified.C112_identifier",
    "Dtf.Unified.C112_name",
    "Dtf.Unified.C112_other"
   ],
   "note": "Decoding of UTF-8 is a parameter."
  },
  {
   "property": "C113",
   "status": "partial",
   "theorems": [
    "Dtf.Unified.C113_dns",
    "Dtf.Unified.C113_uuid",
    "Dtf.Unified.C113_sid",
    "Dtf.Unified.C113_total_claim_false",
    "Dtf.Unified.C113_failures"
   ],
   "note": "False of the code: UUIDs, security identifiers and membership details fail (C113_total_claim_false, C113_failures). Proved for the DNS decoders; C113_uuid and C113_sid say exactly when the others fail. C114_size and C115_size have the remaining decoders."
  },
  {
   "property": "C114",
   "status": "partial",
   "theorems": [
    "Dtf.Unified.C114_codes",
    "Dtf.Unified.C114_name",
    "Dtf.Unified.C114_number",
    "Dtf.Unified.C114_injective",
    "Dtf.Unified.C114_extended",
    "Dtf.Unified.C114_size",
    "Dtf.Unified.C114_boolean",
    "Dtf.Unified.C114_errors_claim_false",
    "Dtf.Unified.C114_negative_claim_false",
    "Dtf.Unified.C114_negative_unreachable",
    "Dtf.Unified.C114_errors_partial"
   ],
   "note": "False of the code in two ways: two error codes are both shown as Reserved (C114_errors_claim_false), and the names of codes below zero are never shown (C114_negative_claim_false, C114_negative_unreachable). The rest is proved."
  },
  {
   "property": "C115",
   "status": "proved",
   "theorems": [
    "Dtf.Unified.C115_layout",
    "Dtf.Unified.C115_versions",
    "Dtf.Unified.C115_names",
    "Dtf.Unified.C115_members",
    "Dtf.Unified.C115_location",
    "Dtf.Unified.C115_client",
    "Dtf.Unified.C115_client_text",
    "Dtf.Unified.C115_size"
   ],
   "note": "The text of floating-point numbers is a parameter that has no commas."
  },
  {
   "property": "C116",
   "status": "partial",
   "theorems": [
    "Dtf.Unified.C116_format",
    "Dtf.Unified.C116_format_injective",
    "Dtf.Unified.C116_name",
    "Dtf.Unified.C116_no_name",
    "Dtf.Unified.C116_counter",
    "Dtf.Unified.C116_counter_offset",
    "Dtf.Unified.C116_counter_shared",
    "Dtf.Unified.C116_load_claim_false",
    "Dtf.Unified.C116_distinct_claim_false",
    "Dtf.Unified.C116_distinct_partial",
    "Dtf.Unified.C116_negative_claim_false",
    "Dtf.Unified.C116_negative_partial"
   ],
   "note": "False of the code in three ways: the load address of the documented example with a large offset (C116_load_claim_false), odd large shared cache data that are joined with bit 31 of the reference (C116_distinct_claim_false) and program counters below the start of the range (C116_negative_claim_false). The rest is proved."
  },
  {
   "property": "C117",
   "status": "partial",
   "theorems": [
    "Dtf.Unified.C117_activity",
    "Dtf.Unified.C117_log_partial",
    "Dtf.Unified.C117_signpost_partial",
    "Dtf.Unified.C117_loss",
    "Dtf.Unified.C117_flags",
    "Dtf.Unified.C117_log_claim_false",
    "Dtf.Unified.C117_signpost_claim_false",
    "Dtf.Unified.C117_errors_claim_false",
    "Dtf.Unified.C117_errors_partial"
   ],
   "note": "Activity and loss records are proved. False of the code: the oversize data reference of log and signpost records has one byte in the definitions and two in the documentation (C117_log_claim_false, C117_signpost_claim_false), and a record without data is a ValueError (C117_errors_claim_false)."
  },
  {
   "property": "C118",
   "status": "partial",
   "theorems": [
    "Dtf.Unified.C118_no_range",
    "Dtf.Unified.C118_values",
    "Dtf.Unified.C118_private",
    "Dtf.Unified.C118_hidden",
    "Dtf.Unified.C118_private_data",
    "Dtf.Unified.C118_no_private_data",
    "Dtf.Unified.C118_private_claim_false",
    "Dtf.Unified.C118_private_partial",
    "Dtf.Unified.C118_types_claim_false",
    "Dtf.Unified.C118_types_partial"
   ],
   "note": "False of the code: a range before the private data is taken from its end (C118_private_claim_false), and a type that is not documented is a TypeError (C118_types_claim_false)."
  },
  {
   "property": "C119",
   "status": "partial",
   "theorems": [
    "Dtf.Unified.C119_frames",
    "Dtf.Unified.C119_no_flag",
    "Dtf.Unified.C119_errors_claim_false",
    "Dtf.Unified.C119_empty_claim_false",
    "Dtf.Unified.C119_errors_partial"
   ],
   "note": "False of the code for errors: an index of an identifier that is not there is an IndexError (C119_errors_claim_false), no data is a ValueError (C119_empty_claim_false)."
  },
  {
   "property": "C120",
   "status": "partial",
   "theorems": [
    "Dtf.Unified.C120_values",
    "Dtf.Unified.C120_errors_claim_false",
    "Dtf.Unified.C120_sizes_claim_false",
    "Dtf.Unified.C120_errors_partial"
   ],
   "note": "False of the code for errors: a record of four bytes is an IndexError (C120_errors_claim_false), and a size beyond the values is not refused (C120_sizes_claim_false)."
  },
  {
   "property": "C121",
   "status": "proved",
   "theorems": [
    "Dtf.Unified.C121_process",
    "Dtf.Unified.C121_catalog",
    "Dtf.Unified.C121_error"
   ],
   "note": "Decoding of UTF-8 is a parameter; a structure of the file is made of the bytes from its offset on (C07)."
  },
  {
   "property": "C122",
   "status": "partial",
   "theorems": [
    "Dtf.Unified.C122_strings_partial",
    "Dtf.Unified.C122_strings_claim_false",
    "Dtf.Unified.C122_sub_systems",
    "Dtf.Unified.C122_no_sub_system",
    "Dtf.Unified.C122_processes",
    "Dtf.Unified.C122_processes_claim_false",
    "Dtf.Unified.C122_processes_partial",
    "Dtf.Unified.C122_table",
    "Dtf.Unified.C122_twice",
    "Dtf.Unified.C122_image_claim_false",
    "Dtf.Unified.C122_image_partial",
    "Dtf.Utf.C122_utf8_partial",
    "Dtf.Utf.C122_utf8_claim_false"
   ],
   "note": "False of the code: offsets of strings are counted in characters, so a string after one that is not ASCII is not found (C122_strings_claim_false); an index that is too large is an IndexError (C122_processes_claim_false); the image of a process without a main image is an AttributeError (C122_image_claim_false)."
  },
  {
   "property": "C123",
   "status": "partial",
   "theorems": [
    "Dtf.Unified.C123_oversize_is",
    "Dtf.Unified.C123_values",
    "Dtf.Unified.C123_oversize_partial",
    "Dtf.Unified.C123_oversize_claim_false",
    "Dtf.Unified.C123_errors"
   ],
   "note": "False of the code: the private data is taken from too late an offset, since the size of the data includes the items (C123_oversize_claim_false). Chunks without private data are proved."
  },
  {
   "property": "C124",
   "status": "partial",
   "theorems": [
    "Dtf.Unified.C124_simple",
    "Dtf.Unified.C124_no_process",
    "Dtf.Unified.C124_types",
    "Dtf.Unified.C124_state_partial",
    "Dtf.Unified.C124_title_claim_false",
    "Dtf.Unified.C124_errors_claim_false",
    "Dtf.Unified.C124_errors_partial"
   ],
   "note": "Simple dumps are proved. False of the code: state dumps with a property list or a protocol buffer lose their title (C124_title_claim_false), and names of decoders that are not UTF-8 are a UnicodeDecodeError (C124_errors_claim_false)."
  },
  {
   "property": "C125",
   "status": "partial",
   "theorems": [
    "Dtf.Unified.C125_header",
    "Dtf.Unified.C125_flag",
    "Dtf.Unified.C125_tags",
    "Dtf.Unified.C125_errors_claim_false",
    "Dtf.Unified.C125_errors_partial"
   ],
   "note": "False of the code for errors: a denominator of 0 is a ZeroDivisionError (C125_errors_claim_false)."
  },
  {
   "property": "C126",
   "status": "partial",
   "theorems": [
    "Dtf.Unified.C126_order",
    "Dtf.Unified.C126_order_of_entries",
    "Dtf.Unified.C126_error",
    "Dtf.Unified.C126_exact_partial",
    "Dtf.Unified.C126_unit_partial",
    "Dtf.Unified.C126_exact_claim_false"
   ],
   "note": "Doubles are modelled (Verif/Double.lean). Order is proved. Exactness is false of the code: with a timebase of 125/3 the time 195 is off by one (C126_exact_claim_false); below 2^51 ns the error is at most 1 ns (C126_exact_partial), and with a timebase of 1 times up to 2^53 are exact (C126_unit_partial)."
  },
  {
   "property": "C127",
   "status": "partial",
   "theorems": [
    "Dtf.Unified.C127_common",
    "Dtf.Unified.C127_events",
    "Dtf.Unified.C127_scopes",
    "Dtf.Unified.C127_log_partial",
    "Dtf.Unified.C127_oversize_partial",
    "Dtf.Unified.C127_missing_partial",
    "Dtf.Unified.C127_activity",
    "Dtf.Unified.C127_signpost_partial",
    "Dtf.Unified.C127_loss",
    "Dtf.Unified.C127_loss_message",
    "Dtf.Unified.C127_chunk_partial"
   ],
   "note": "Log records and signposts: references of oversize data of one byte (see C117). Image values, decoders and formatting are parameters here, they are C30-C32, C85, C109-C115 and C27. A chunk without an activity, log or signpost is C83."
  },
  {
   "property": "C128",
   "status": "partial",
   "theorems": [
    "Dtf.Unified.C128_no_image",
    "Dtf.Unified.C128_name_claim_false",
    "Dtf.Unified.C128_process_claim_false",
    "Dtf.Unified.C128_errors_partial",
    "Dtf.Unified.C128_activity"
   ],
   "note": "False of the code: a signpost with a name whose image is not in the catalog is an AttributeError (C128_name_claim_false), and so is a trace point without a catalog (C128_process_claim_false). Activities are proved, the others if their values can be read."
  },
  {
   "property": "C129",
   "status": "partial",
   "theorems": [
    "Dtf.Wmi.C129_class_partial",
    "Dtf.Wmi.C129_class_claim_false",
    "Dtf.Wmi.C129_errors_claim_false",
    "Dtf.Wmi.C129_errors_partial",
    "Dtf.Wmi.C129_abstract"
   ],
   "note": "False of the code: the size of the values is read with 27 bits instead of 31 (C129_class_claim_false), and an offset beyond the values is a ValueError (C129_errors_claim_false). Proved for values below 2^27 bytes and qualifiers of the types of C130; all errors are parse errors or value errors."
  },
  {
   "property": "C130",
   "status": "partial",
   "theorems": [
    "Dtf.Wmi.C130_types",
    "Dtf.Wmi.C130_qualifiers_partial",
    "Dtf.Wmi.C130_uint32_missing",
    "Dtf.Wmi.C130_reference_error",
    "Dtf.Wmi.C130_qualifiers_claim_false",
    "Dtf.Wmi.C130_last",
    "Dtf.Wmi.C130_errors"
   ],
   "note": "False of the code: 32-bit unsigned values are always missing (C130_uint32_missing), a reference makes the class unreadable (C130_reference_error). Proved for all other scalar types. Arrays are not read by the code. Names are lowered as in ASCII."
  },
  {
   "property": "C131",
   "status": "partial",
   "theorems": [
    "Dtf.Wmi.C131_instance_partial",
    "Dtf.Wmi.C131_unreadable",
    "Dtf.Wmi.C131_instance_claim_false",
    "Dtf.Wmi.C131_array_missing",
    "Dtf.Wmi.C131_errors_partial",
    "Dtf.Wmi.C131_errors_claim_false"
   ],
   "note": "False of the code: signed integers of 8, 16 and 64 bits and floating-point numbers make the whole instance unreadable with a ValueError (C131_unreadable), and data that ends early may be a ValueError (C131_errors_claim_false). Arrays of anything but texts are always missing (C131_array_missing). The other types are proved."
  },
  {
   "property": "C132",
   "status": "partial",
   "theorems": [
    "Dtf.Wmi.C132_class",
    "Dtf.Wmi.C132_instance",
    "Dtf.Wmi.C132_instance_offset_partial",
    "Dtf.Wmi.C132_class_offset_claim_false",
    "Dtf.Wmi.C132_instance_offset_claim_false",
    "Dtf.Wmi.C132_errors"
   ],
   "note": "Texts and data are proved. False of the code: the offset of a class definition is that of its end (C132_class_offset_claim_false), and the offset of an instance of version 2.2 is that of its size (C132_instance_offset_claim_false)."
  },
  {
   "property": "C133",
   "status": "partial",
   "theorems": [
    "Dtf.Wmi.C133_instance_partial",
    "Dtf.Wmi.C133_super_missing",
    "Dtf.Wmi.C133_instance_claim_false"
   ],
   "note": "False of the code for derived classes: only the class itself is used, so the super classes are always missing (C133_super_missing, C133_instance_claim_false). Proved for classes that are not derived, whose properties have type qualifiers, names that differ and the types that C130 and C131 cover."
  },
  {
   "property": "C134",
   "status": "partial",
   "theorems": [
    "Dtf.Wmi.C134_instances",
    "Dtf.Wmi.C134_namespaces",
    "Dtf.Wmi.C134_ten",
    "Dtf.Wmi.C134_cycle",
    "Dtf.Wmi.C134_errors_claim_false"
   ],
   "note": "Proved for trees with fewer levels than nested calls, of classes that are not derived. False of the code: no object has more than ten children (C134_ten), a tree that is below itself always ends in a RecursionError (C134_cycle), and a file without root node is a TypeError (C134_errors_claim_false). The instances before an error are not modelled."
  },
  {
   "property": "C135",
   "status": "partial",
   "theorems": [
    "Dtf.Wmi.C135_list",
    "Dtf.Wmi.C135_classes",
    "Dtf.Wmi.C135_ends_claim_false"
   ],
   "note": "Order and completeness are proved for lists that end. False of the code: the reading of a list with a cycle never ends (C135_ends_claim_false). The class definitions themselves are not given by the code."
  },
  {
   "property": "C136",
   "status": "partial",
   "theorems": [
    "Dtf.Wmi.C136_definitions",
    "Dtf.Wmi.C136_cache",
    "Dtf.Wmi.C136_lookup_partial",
    "Dtf.Wmi.C136_instances",
    "Dtf.Wmi.C136_once_claim_false",
    "Dtf.Wmi.C136_lookup_claim_false"
   ],
   "note": "Order, values, overriding of properties, derivation and that the cache cannot be seen are proved (C136_instances, C136_cache, C136_definitions). False of the code: an instance with several keys is listed for each of them (C136_once_claim_false), and a class definition of the same name in another namespace replaces one (C136_lookup_claim_false; C136_lookup_partial is about the last of them). The keys and the data of records are parameters here, proved about in C36, C37 and C89; instances before an error are not modelled."
  },
  {
   "property": "C137",
   "status": "partial",
   "theorems": [
    "Dtf.Wmi.C137_namespaces_partial",
    "Dtf.Wmi.C137_errors_claim_false"
   ],
   "note": "Proved for namespaces up to five levels below known ones and hashes without collisions, as C90, from the keys on. False of the code: a key with nothing below its namespace is an IndexError (C137_errors_claim_false). Deeper levels: C90_found_claim_false. An instance without a name is an error in the model even if its parent is not known."
  },
  {
   "property": "C138",
   "status": "partial",
   "theorems": [
    "Dtf.Spotlight.C138_page",
    "Dtf.Spotlight.C138_chain",
    "Dtf.Spotlight.C138_lookup",
    "Dtf.Spotlight.C138_missing",
    "Dtf.Spotlight.C138_terminates",
    "Dtf.Spotlight.C138_errors_claim_false",
    "Dtf.Spotlight.C138_errors_partial"
   ],
   "note": "Proved for all pages and chains (C138_page, C138_chain, C138_lookup, C138_missing, C138_terminates). That a malformed page is a parse error is false of the code (C138_errors_claim_false). Lists in pages of types or values are modelled without names."
  },
  {
   "property": "C139",
   "status": "partial",
   "theorems": [
    "Dtf.Spotlight.C139_table",
    "Dtf.Spotlight.C139_files_partial",
    "Dtf.Spotlight.C139_files_claim_false",
    "Dtf.Spotlight.C139_errors_claim_false"
   ],
   "note": "C139_table is proved for all tables. False of the code: a single value at offset 0 is lost (C139_files_claim_false, C139_files_partial excludes it) and an empty value is an IndexError (C139_errors_claim_false)."
  },
  {
   "property": "C140",
   "status": "partial",
   "theorems": [
    "Dtf.Spotlight.C140_float",
    "Dtf.Spotlight.C140_floats",
    "Dtf.Spotlight.C140_texts",
    "Dtf.Spotlight.C140_text",
    "Dtf.Spotlight.C140_reference",
    "Dtf.Spotlight.C140_errors_claim_false",
    "Dtf.Spotlight.C140_record_claim_false"
   ],
   "note": "Round trips of all kinds of value are proved. False of the code: a malformed value is not always a parse error (C140_errors_claim_false), and kMDStoreAccumulatedSizes takes in the bytes of the next record (C140_record_claim_false). Floating-point values are kept as their bits; arrays have the number of whole elements."
  },
  {
   "property": "C141",
   "status": "partial",
   "theorems": [
    "Dtf.Spotlight.C141_page",
    "Dtf.Spotlight.C141_unused_fails",
    "Dtf.Spotlight.C141_unused_claim_false",
    "Dtf.Spotlight.C141_errors_claim_false"
   ],
   "note": "C141_page is proved for the three kinds of storage; zlib and LZ4 are parameters. False of the code: the unused part of a plain page is read as records, and no page of which the unused part is zero can be read (C141_unused_claim_false, C141_unused_fails); compressed pages without data are an IndexError (C141_errors_claim_false)."
  },
  {
   "property": "C142",
   "status": "partial",
   "theorems": [
    "Dtf.Spotlight.C142_cache",
    "Dtf.Spotlight.C142_missing",
    "Dtf.Spotlight.C142_item",
    "Dtf.Spotlight.C142_item_partial",
    "Dtf.Spotlight.C142_item_claim_false",
    "Dtf.Spotlight.C142_file"
   ],
   "note": "C142_missing, C142_cache and C142_file are proved. That the item has all attributes is false of the code (C142_item_claim_false, as C60); C142_item says which it has and C142_item_partial when it has all. Dictionaries are lists of items set."
  },
  {
   "property": "C143",
   "status": "partial",
   "theorems": [
    "Dtf.Alias.C143_version2",
    "Dtf.Alias.C143_version3",
    "Dtf.Alias.C143_terminates",
    "Dtf.Alias.C143_errors",
    "Dtf.Alias.C143_size",
    "Dtf.Alias.C143_records_claim_false",
    "Dtf.Alias.C143_terminator_claim_false"
   ],
   "note": "Proved for both versions (C143_version2, C143_version3, C143_terminates, C143_errors, C143_size). False of the code: data of more than one record, which the documentation allows, is refused (C143_records_claim_false), and padding after the terminator is read as values (C143_terminator_claim_false). A structure group is read by the size of its base structure; text that is not within the value is not read."
  },
  {
   "property": "C144",
   "status": "partial",
   "theorems": [
    "Dtf.Signposts.C144_character_partial",
    "Dtf.Signposts.C144_negative_fails",
    "Dtf.Signposts.C144_left_fails",
    "Dtf.Signposts.C144_character_claim_false",
    "Dtf.Signposts.C144_wide"
   ],
   "note": "C144_character_partial is proved for values less than 256 without flags. False of the code: a negative character and a character aligned to the left raise an exception (C144_negative_fails, C144_left_fails, C144_character_claim_false), and a value of more than a byte shows another character (C144_wide). The character of a surrogate is not modelled."
  },
  {
   "property": "C145",
   "status": "partial",
   "theorems": [
    "Dtf.Signposts.C145_sizes",
    "Dtf.Signposts.C145_name",
    "Dtf.Signposts.C145_marks",
    "Dtf.Signposts.C145_time",
    "Dtf.Signposts.C145_signed",
    "Dtf.Signposts.C145_unsigned",
    "Dtf.Signposts.C145_text",
    "Dtf.Signposts.C145_string",
    "Dtf.Signposts.C145_other_sizes",
    "Dtf.Signposts.C145_message_partial",
    "Dtf.Signposts.C145_message_claim_false",
    "Dtf.Signposts.C145_total_claim_false"
   ],
   "note": "Proved: names and marks (C145_name, C145_marks), times, signed and unsigned integers, text, telemetry strings and other sizes. False of the code: the end of a value cannot be told when the value has the end mark (C145_message_claim_false, C145_message_partial excludes it) and not every value gives a text (C145_total_claim_false). UTF-8 and the text of floating-point numbers are parameters."
  },
  {
   "property": "C146",
   "status": "proved",
   "theorems": [
    "Dtf.Signposts.C146_hash",
    "Dtf.Signposts.C146_characters",
    "Dtf.Signposts.C146_injective"
   ],
   "note": "Proved for all values (C146_hash, C146_characters, C146_injective) with base64 modelled from RFC 4648 and read by a separate decoder."
  },
  {
   "property": "C147",
   "status": "partial",
   "theorems": [
    "Dtf.Unified.C147_all_partial",
    "Dtf.Unified.C147_times",
    "Dtf.Unified.C147_terminates",
    "Dtf.Unified.C147_oversize_kept",
    "Dtf.Unified.C147_oversize_found",
    "Dtf.Unified.C147_last_catalog",
    "Dtf.Unified.C147_all_claim_false"
   ],
   "note": "C147_all_partial is proved for files of which every firehose chunk has an activity, log or signpost. False of the code: a firehose chunk without one, such as one of losses or trace records only, ends the reading with UnboundLocalError (C147_all_claim_false). Also proved: the time entries (C147_times), termination on all bytes (C147_terminates), oversize values stay available (C147_oversize_kept, C147_oversize_found) and the last catalog is used (C147_last_catalog). UTF-8, LZ4, image strings, decoders and formatting are parameters."
  },
  {
   "property": "C148",
   "status": "proved",
   "theorems": [
    "Dtf.Unified.C148_before",
    "Dtf.Unified.C148_in_set"
   ],
   "note": "Proved for a chunk and for a part of a chunk set, for any data that follows."
  },
  {
   "property": "C149",
   "status": "partial",
   "theorems": [
    "Dtf.Heap.C149_order_partial",
    "Dtf.Heap.C149_distinct",
    "Dtf.Heap.C149_order_claim_false"
   ],
   "note": "C149_order_partial: every entry is shown once and times never decrease; C149_distinct: with distinct times the order is determined. False of the code: entries with the same timestamp are not shown in the order of the file (C149_order_claim_false). The pure Python heapq is modelled; the one written in C does the same."
  },
  {
   "property": "C150",
   "status": "partial",
   "theorems": [
    "Dtf.LogJson.C150_document_partial",
    "Dtf.LogJson.C150_names",
    "Dtf.LogJson.C150_no_entries",
    "Dtf.LogJson.C150_heading",
    "Dtf.LogJson.C150_cut",
    "Dtf.LogJson.C150_parents",
    "Dtf.LogJson.C150_control",
    "Dtf.LogJson.C150_quote",
    "Dtf.LogJson.C150_backslash",
    "Dtf.LogJson.C150_forged",
    "Dtf.LogJson.C150_document_claim_false"
   ],
   "note": "C150_document_partial is proved for at least one entry with texts that the escapes of the script cover. False of the code: a control character in a message, a quote in a category or a backslash in the path of a sender gives a text that is not JSON (C150_control, C150_quote, C150_backslash, C150_document_claim_false), and a category can add members (C150_forged). Also false: with the heading that the script prints first its output is never JSON (C150_heading); no entries give one empty object (C150_no_entries); messages of 1085 to 1087 characters are marked as cut though they are whole (C150_cut). Also proved: no name twice (C150_names) and the parents that are shown (C150_parents). The ISO 8601 text of a time is a parameter."
  },
  {
   "property": "C151",
   "status": "partial",
   "theorems": [
    "Dtf.Errors.C151_utmp",
    "Dtf.Errors.C151_utmpx",
    "Dtf.Errors.C151_recycler",
    "Dtf.Errors.C151_recycle_bin",
    "Dtf.Errors.C151_cookies",
    "Dtf.Errors.C151_firefox_map",
    "Dtf.Errors.C151_firefox_blocks",
    "Dtf.Errors.C151_custom_destinations",
    "Dtf.Errors.C151_dest_list",
    "Dtf.Errors.C151_tzif",
    "Dtf.Errors.C151_systemd",
    "Dtf.Errors.C151_emf",
    "Dtf.Errors.C151_wmf",
    "Dtf.Errors.C151_fsevents",
    "Dtf.Errors.C151_bsm_partial",
    "Dtf.Errors.C151_change_log_partial",
    "Dtf.Errors.C151_ipp_partial",
    "Dtf.Errors.C151_gzip_partial",
    "Dtf.Errors.C151_usn",
    "Dtf.Errors.C151_asl_partial",
    "Dtf.Errors.C151_cpio_partial",
    "Dtf.Errors.C151_keychain_partial",
    "Dtf.Errors.C151_leveldb_log_partial",
    "Dtf.Errors.C151_leveldb_descriptor_partial",
    "Dtf.Errors.C151_bsm_claim_false",
    "Dtf.Errors.C151_change_log_claim_false",
    "Dtf.Errors.C151_cpio_claim_false",
    "Dtf.Errors.C151_cpio_path",
    "Dtf.Errors.C151_gzip_claim_false",
    "Dtf.Errors.C151_ipp_claim_false",
    "Dtf.Errors.C151_keychain_size",
    "Dtf.Errors.C151_keychain_name",
    "Dtf.Errors.C151_keychain_relation",
    "Dtf.Errors.C151_keychain_claim_false",
    "Dtf.Errors.C151_leveldb_claim_false",
    "Dtf.Errors.C151_asl_claim_false"
   ],
   "note": "Proved for fifteen readers (C151_utmp to C151_usn). For the others every possible exception is named: C151_bsm_partial (AttributeError too), C151_change_log_partial (ValueError), C151_ipp_partial (UnicodeDecodeError and those of the library), C151_gzip_partial (those of zlib), C151_cpio_partial (UnicodeDecodeError, OSError), C151_keychain_partial (ValueError, UnicodeDecodeError, TypeError), C151_leveldb_log_partial (ValueError, IndexError), C151_leveldb_descriptor_partial (IndexError, UnicodeDecodeError), C151_asl_partial (a file in memory). The claim is false of each of these, by a witness: C151_bsm_claim_false and the others. Not covered: seeks beyond what the operating system allows, which 64-bit offsets of journals and system logs can ask for; the formats whose errors are in C102, C107, C108 and C129 to C141."
  },
  {
   "property": "C152",
   "status": "partial",
   "theorems": [
    "Dtf.Archiver.C152_value_partial",
    "Dtf.Archiver.C152_archive_partial",
    "Dtf.Archiver.C152_archive_claim_false",
    "Dtf.Archiver.C152_members",
    "Dtf.Archiver.C152_set",
    "Dtf.Archiver.C152_repeated"
   ],
   "note": "C152_value_partial and C152_archive_partial are proved for archives without sets and without members that are zero, false or empty. False of the code: a member that is zero, false or empty is lost (C152_archive_claim_false, C152_members says which are lost). A set is decoded as its last element and an empty set raises UnboundLocalError (C152_set). A plain dictionary without a class is not decoded. plistlib is not modelled."
  },
  {
   "property": "C153",
   "status": "partial",
   "theorems": [
    "Dtf.Archiver.C153_data",
    "Dtf.Archiver.C153_uuid",
    "Dtf.Archiver.C153_types_claim_false"
   ],
   "note": "C153_data and C153_uuid are proved. False of the code: data and a text of the same characters give the same (C153_types_claim_false)."
  },
  {
   "property": "C154",
   "status": "partial",
   "theorems": [
    "Dtf.Archiver.C154_class",
    "Dtf.Archiver.C154_header",
    "Dtf.Archiver.C154_cycle",
    "Dtf.Archiver.C154_errors_claim_false",
    "Dtf.Archiver.C154_deep",
    "Dtf.Archiver.C154_reference_claim_false",
    "Dtf.Archiver.C154_reference_partial"
   ],
   "note": "C154_class and C154_header are proved. False of the code: an array in itself is a RecursionError (C154_cycle, C154_errors_claim_false), as are archives without cycles beyond any limit (C154_deep). A reference beyond the end is an IndexError (C154_reference_partial), and a negative one is not refused (C154_reference_claim_false)."
  },
  {
   "property": "C155",
   "status": "partial",
   "theorems": [
    "Dtf.Archiver.C155_script_partial",
    "Dtf.Archiver.C155_unique",
    "Dtf.Archiver.C155_script_claim_false",
    "Dtf.Archiver.C155_nan",
    "Dtf.Archiver.C155_names_claim_false",
    "Dtf.Archiver.C155_ascii",
    "Dtf.Archiver.C155_refused"
   ],
   "note": "C155_script_partial is proved for the archives of C152_archive_partial and real numbers whose texts are JSON numbers; C155_unique says that the value is determined. False of the code: a value at the top that is not a reference is not decoded, so that data there stop the script (C155_script_claim_false). NaN is printed, which is not JSON (C155_nan). The keys 1 and \"1\" give a name twice (C155_names_claim_false). The json.encoder of Python is modelled; the texts of real numbers are a parameter."
  },
  {
   "property": "C156",
   "status": "partial",
   "theorems": [
    "Dtf.Cpio.C156_contents",
    "Dtf.Cpio.C156_never",
    "Dtf.Cpio.C156_two_members",
    "Dtf.Cpio.C156_one_member_partial",
    "Dtf.Cpio.C156_hashes_claim_false",
    "Dtf.Cpio.C156_no_trailer",
    "Dtf.Cpio.C156_packing"
   ],
   "note": "False of the code (C156_hashes_claim_false): the script ends normally only for an empty file and for one of no known type (C156_never), because Close raises for an archive that was not opened by its path; with two members of different paths nothing is hashed, because entries cannot be sorted (C156_two_members); without a trailer there is a parse error (C156_no_trailer). Proved: what is hashed is exactly the contents (C156_contents), and the line of an archive with one member is right (C156_one_member_partial). The hash and the decompression are parameters."
  },
  {
   "property": "C157",
   "status": "partial",
   "theorems": [
    "Dtf.Lifecycle.C157_state",
    "Dtf.Lifecycle.C157_exclusive",
    "Dtf.Lifecycle.C157_close",
    "Dtf.Lifecycle.C157_handles_partial",
    "Dtf.Lifecycle.C157_handles_claim_false"
   ],
   "note": "C157_handles_claim is false of the code (C157_handles_claim_false): the file object of a file that cannot be read stays open. Proved for all sequences of calls: the state, with the exact number of file objects that stay open (C157_state); calls in the wrong state (C157_exclusive); Close after Open (C157_close); and that no file object stays open if all files can be read (C157_handles_partial). What a class reads and the file system are parameters."
  },
  {
   "property": "C158",
   "status": "partial",
   "theorems": [
    "Dtf.Lifecycle.C158_size",
    "Dtf.Lifecycle.C158_history_partial",
    "Dtf.Lifecycle.C158_never_opened",
    "Dtf.Lifecycle.C158_smaller",
    "Dtf.Lifecycle.C158_change_log",
    "Dtf.Lifecycle.C158_history_claim_false"
   ],
   "note": "False of the code (C158_history_claim_false). Proved: the result depends on exactly the size of the last file whose size was asked for (C158_size); an object that was never opened reads no entries (C158_never_opened), also for restore point change logs of any entries (C158_change_log); after a smaller file only the first entries are read, without an error (C158_smaller); and classes that do not use the size do not depend on the calls (C158_history_partial)."
  },
  {
   "property": "C159",
   "status": "partial",
   "theorems": [
    "Dtf.ChromeCache.C159_index",
    "Dtf.ChromeCache.C159_index_accepted",
    "Dtf.ChromeCache.C159_blocks",
    "Dtf.ChromeCache.C159_file",
    "Dtf.ChromeCache.C159_entry",
    "Dtf.ChromeCache.C159_long_key",
    "Dtf.ChromeCache.C159_keys_claim_false"
   ],
   "note": "C159_keys_claim is false of the code (C159_keys_claim_false): the size of the key and the address of a long key are not used (C159_long_key), so that a key of more than 160 bytes is never read. Proved for all contents: the exact condition for index files and data block files with the kind of error (C159_index_accepted, C159_blocks, C159_file), and all values of index files (C159_index) and of entries whose key is in the entry (C159_entry)."
  },
  {
   "property": "C160",
   "status": "partial",
   "theorems": [
    "Dtf.ChromeCache.C160_never",
    "Dtf.ChromeCache.C160_no_entries",
    "Dtf.ChromeCache.C160_chain_partial",
    "Dtf.ChromeCache.C160_chains_partial",
    "Dtf.ChromeCache.C160_directory_claim_false"
   ],
   "note": "False of the code (C160_directory_claim_false): no directory can be read (C160_never), as JoinPath is called with two arguments. With a JoinPath of two arguments only directories without an entry could be read (C160_no_entries), as the key is a string and has no decode. With both repaired the first 64 entries of a chain are printed in order (C160_chain_partial). The file system and dates are parameters."
  },
  {
   "property": "C161",
   "status": "partial",
   "theorems": [
    "Dtf.DebugInfo.C161_definition",
    "Dtf.DebugInfo.C161_file",
    "Dtf.DebugInfo.C161_all_claim_false",
    "Dtf.DebugInfo.C161_formats_claim_false",
    "Dtf.DebugInfo.C161_formats_partial",
    "Dtf.DebugInfo.C161_custom",
    "Dtf.DebugInfo.C161_used"
   ],
   "note": "Acceptance, order and the kind of error are proved for all documents (C161_definition, C161_file). C161_all_claim is false of the code (C161_all_claim_false): a second definition with the same name replaces the first, without an error. C161_formats_claim is false of the code (C161_formats_claim_false): the supported format hexadecimal has no method, and only that one (C161_formats_partial); the files of the project do not use it, and different formats have different methods (C161_used). An unknown custom format is not an error either (C161_custom). YAML is a parameter: documents have the types of the documentation."
  },
  {
   "property": "C162",
   "status": "partial",
   "theorems": [
    "Dtf.DebugInfo.C162_chrome",
    "Dtf.DebugInfo.C162_chrome_header",
    "Dtf.DebugInfo.C162_bsm",
    "Dtf.DebugInfo.C162_debug_partial",
    "Dtf.DebugInfo.C162_bsm_types",
    "Dtf.DebugInfo.C162_debug_claim_false",
    "Dtf.DebugInfo.C162_bsm_false",
    "Dtf.DebugInfo.C162_tokens",
    "Dtf.DebugInfo.C162_header",
    "Dtf.DebugInfo.C162_records_partial"
   ],
   "note": "False of the code (C162_debug_claim_false): no entry of the Chrome cache can be read in debug mode (C162_chrome), nor BSM tokens of five types (C162_bsm_types, C162_bsm_false), nor those with a net type that is not of an IP address. Proved for all BSM files: debug mode gives the same tokens or an error, which is raised for exactly the tokens that cannot be shown (C162_bsm), so that it changes nothing for all other records (C162_debug_partial); which these are is proved from what is stored (C162_tokens, C162_header, C162_records_partial). Of the header of a data block file no value is shown (C162_chrome_header)."
  },
  {
   "property": "C163",
   "status": "partial",
   "theorems": [
    "Dtf.Shortcuts.C163_property",
    "Dtf.Shortcuts.C163_shown",
    "Dtf.Shortcuts.C163_entries",
    "Dtf.Shortcuts.C163_parts",
    "Dtf.Shortcuts.C163_information",
    "Dtf.Shortcuts.C163_extensions",
    "Dtf.Shortcuts.C163_item",
    "Dtf.Shortcuts.C163_store",
    "Dtf.Shortcuts.C163_values",
    "Dtf.Shortcuts.C163_descriptions",
    "Dtf.Shortcuts.C163_block",
    "Dtf.Shortcuts.C163_filetime",
    "Dtf.Shortcuts.C163_fat",
    "Dtf.Shortcuts.C163_filetime_injective",
    "Dtf.Shortcuts.C163_shown_claim_false",
    "Dtf.Shortcuts.C163_flags",
    "Dtf.Shortcuts.C163_arguments",
    "Dtf.Shortcuts.C163_reference_claim_false",
    "Dtf.Shortcuts.C163_reference_partial",
    "Dtf.Shortcuts.C163_reference_injective",
    "Dtf.Shortcuts.C163_attributes",
    "Dtf.Shortcuts.C163_attributes_claim_false"
   ],
   "note": "A jump list is shown exactly if the types of all properties that are reached are supported, else the script ends with a runtime error (C163_shown, C163_property), so that C163_shown_claim is false of the code (C163_shown_claim_false). Proved for all jump lists that are shown: the entries in order (C163_entries), the parts of a shortcut, with its items and data blocks in order (C163_parts, C163_item, C163_extensions, C163_block, C163_descriptions), the link information (C163_information), the lines of the data flags (C163_flags), the properties in order with their values (C163_store, C163_values), dates (C163_filetime, C163_fat, C163_filetime_injective), and that different file references are shown differently (C163_reference_injective). C163_reference_claim is false of one reference, entry 0 with sequence number 1 (C163_reference_claim_false, C163_reference_partial). C163_attributes_claim is false of all flags: they are shown with 0x800000000 added (C163_attributes, C163_attributes_claim_false). Command line arguments are not shown (C163_arguments). What is written before an error is not modelled; shortcuts, items and stores are as pylnk, pyfwsi and pyfwps read them."
  },
  {
   "property": "C164",
   "status": "partial",
   "theorems": [
    "Dtf.Shortcuts.C164_column_partial",
    "Dtf.Shortcuts.C164_column_claim_false",
    "Dtf.Shortcuts.C164_injective",
    "Dtf.Shortcuts.C164_tab"
   ],
   "note": "Proved for descriptions with tabs only at the start (C164_column_partial), as all of the project are, and for the recovery of descriptions without a colon that do not end with a tab (C164_injective; C164_tab shows the need). C164_column_claim is false of the method with a tab elsewhere (C164_column_claim_false)."
  },
  {
   "property": "C165",
   "status": "partial",
   "theorems": [
    "Dtf.LevelDB.C165_line_recovers",
    "Dtf.LevelDB.C165_types",
    "Dtf.LevelDB.C165_line_injective_claim_false",
    "Dtf.LevelDB.C165_line_injective_partial",
    "Dtf.LevelDB.C165_line_single",
    "Dtf.LevelDB.C165_table",
    "Dtf.LevelDB.C165_until_error",
    "Dtf.LevelDB.C165_every_log_claim_false",
    "Dtf.LevelDB.C165_log",
    "Dtf.LevelDB.C165_descriptor",
    "Dtf.LevelDB.C165_small",
    "Dtf.LevelDB.C165_image_claim_false",
    "Dtf.LevelDB.C165_image_partial"
   ],
   "note": "Proved: the entries of every stored table (as of C57) are shown in order (C165_table), those before an error are shown (C165_until_error), the line gives back key, sequence number and value (C165_line_recovers) and has no line breaks (C165_line_single). C165_line_injective_claim is false of types other than 0 and 1 (C165_line_injective_claim_false, C165_line_injective_partial). Of logs and descriptors only the heading is shown (C165_log, C165_descriptor). C165_every_log_claim is false of the empty log, as the script reads the last eight bytes of all files (C165_every_log_claim_false, C165_small). C165_image_claim is false: a file in an image is opened again outside of it (C165_image_claim_false, C165_image_partial)."
  },
  {
   "property": "C166",
   "status": "partial",
   "theorems": [
    "Dtf.Spotlight.C166_rows",
    "Dtf.Spotlight.C166_mismatch",
    "Dtf.Spotlight.C166_aligned",
    "Dtf.Spotlight.C166_apart_claim_false",
    "Dtf.Spotlight.C166_item",
    "Dtf.Spotlight.C166_missing",
    "Dtf.Spotlight.C166_missing_claim_false",
    "Dtf.Spotlight.C166_values",
    "Dtf.Spotlight.C166_names",
    "Dtf.Spotlight.C166_list_of_strings",
    "Dtf.Spotlight.C166_every_item_claim_false",
    "Dtf.Spotlight.C166_null_claim_false",
    "Dtf.Spotlight.C166_date",
    "Dtf.Spotlight.C166_zone_claim_false",
    "Dtf.Spotlight.C166_zone_partial",
    "Dtf.Spotlight.C166_version",
    "Dtf.Spotlight.C166_store",
    "Dtf.Spotlight.C166_properties",
    "Dtf.Spotlight.C166_count",
    "Dtf.Spotlight.C166_no_store_item"
   ],
   "note": "Proved: rows of a table (C166_rows, C166_mismatch), their columns with least widths (C166_aligned), the rows of an item (C166_item, C166_values, C166_names) and the information on a store (C166_store, C166_version). False of the code: C166_missing_claim, the message is followed by an error (C166_missing); C166_every_item_claim, a list of texts cannot be shown (C166_list_of_strings); C166_null_claim, a text may be (null); C166_zone_claim, of the time zone only the minutes are shown (C166_date, C166_zone_partial); C166_apart_claim, a value of the width of its column is not separated from the next. Texts of values other than integers and texts, and of dates, are parameters."
  },
  {
   "property": "C167",
   "status": "partial",
   "theorems": [
    "Dtf.Keychain.C167_schema",
    "Dtf.Keychain.C167_content",
    "Dtf.Keychain.C167_fields",
    "Dtf.Keychain.C167_types",
    "Dtf.Keychain.C167_kinds",
    "Dtf.Keychain.C167_unread",
    "Dtf.Keychain.C167_identifiers_claim_false",
    "Dtf.Keychain.C167_identifiers_partial",
    "Dtf.Keychain.C167_below_partial",
    "Dtf.Keychain.C167_attributes",
    "Dtf.Keychain.C167_null_claim_false",
    "Dtf.Keychain.C167_null_partial",
    "Dtf.Keychain.C167_no_name",
    "Dtf.Keychain.C167_no_identifier",
    "Dtf.Keychain.C167_below_claim_false"
   ],
   "note": "Proved for all databases of C50: the output of both modes (C167_schema, C167_content), the fields of a line by its tabs (C167_fields), data types by their texts (C167_types), values below the names of their columns for all tables but those of the schema (C167_below_partial). False of the code: C167_below_claim, records of attributes are shown with five of six values (C167_attributes); C167_identifiers_claim, identifiers of four characters are not shown (C167_identifiers_partial); C167_null_claim, a text may be NULL (C167_null_partial). A column without name or identifier is an error (C167_no_name, C167_no_identifier). Names are ASCII, as they are read."
  },
  {
   "property": "C168",
   "status": "partial",
   "theorems": [
    "Dtf.Wmi.C168_instance",
    "Dtf.Wmi.C168_recovers",
    "Dtf.Wmi.C168_relpath_claim_false",
    "Dtf.Wmi.C168_relpath_partial",
    "Dtf.Wmi.C168_name",
    "Dtf.Wmi.C168_namespace_claim_false",
    "Dtf.Wmi.C168_instances",
    "Dtf.Wmi.C168_namespaces",
    "Dtf.Wmi.C168_yielded",
    "Dtf.Wmi.C168_values",
    "Dtf.Wmi.C168_index",
    "Dtf.Wmi.C168_nothing",
    "Dtf.Wmi.C168_shown_claim_false"
   ],
   "note": "Proved for the output of an instance: C168_instance, C168_recovers; all instances in order (C168_instances), namespaces sorted (C168_namespaces). False of the code: C168_shown_claim, no repository can be opened at this commit (C168_nothing, by C39_open_fails); C168_relpath_claim, only a key called Name is shown (C168_relpath_partial); C168_namespace_claim, all instances are shown as in ROOT. A name that is no text is an error (C168_name). The mode for debugging is not modelled; texts of floats and lists are parameters."
  },
  {
   "property": "C169",
   "status": "partial",
   "theorems": [
    "Dtf.Amcache.C169_quiet",
    "Dtf.Amcache.C169_debug_partial",
    "Dtf.Amcache.C169_other_root",
    "Dtf.Amcache.C169_shown",
    "Dtf.Amcache.C169_key",
    "Dtf.Amcache.C169_file_value",
    "Dtf.Amcache.C169_items",
    "Dtf.Amcache.C169_characters",
    "Dtf.Amcache.C169_every_value_claim_false",
    "Dtf.Amcache.C169_every_value_partial",
    "Dtf.Amcache.C169_descriptions_claim_false",
    "Dtf.Amcache.C169_descriptions_partial",
    "Dtf.Amcache.C169_debug_claim_false",
    "Dtf.Amcache.C169_headings",
    "Dtf.Amcache.C169_file_heading",
    "Dtf.Amcache.C169_times",
    "Dtf.Amcache.C169_applications",
    "Dtf.Amcache.C169_roots"
   ],
   "note": "Proved: without debug mode a file is read exactly if all values can be (C169_quiet); in debug mode all keys are shown in order with headings (C169_shown, C169_key, C169_headings, C169_file_heading, C169_roots), values after their descriptions (C169_file_value, C169_applications, C169_times), texts in a line each (C169_items). False of the code: C169_debug_claim, a key name that has four zeros in two places is an error in debug mode only (C169_debug_partial); C169_every_value_claim, an empty list is not shown (C169_every_value_partial), a single text where a list is expected is shown by its characters (C169_characters); C169_descriptions_claim, a value named like a description cannot be told from the value described (C169_descriptions_partial). What pyregf returns for keys and values, the texts of objects and of dates are parameters."
  },
  {
   "property": "C170",
   "status": "partial",
   "theorems": [
    "Dtf.LogText.C170_fields",
    "Dtf.LogText.C170_recovers",
    "Dtf.LogText.C170_message",
    "Dtf.LogText.C170_entries",
    "Dtf.LogText.C170_shown_partial",
    "Dtf.LogText.C170_untyped",
    "Dtf.LogText.C170_types",
    "Dtf.LogText.C170_damage",
    "Dtf.LogText.C170_damage_claim_false",
    "Dtf.LogText.C170_shown_claim_false",
    "Dtf.LogText.C170_forged_claim_false",
    "Dtf.LogText.C170_one_line_claim_false",
    "Dtf.LogText.C170_one_line_partial",
    "Dtf.LogText.C170_forged_partial",
    "Dtf.LogText.C170_process_claim_false",
    "Dtf.LogText.C170_process_partial",
    "Dtf.LogText.C170_base_name",
    "Dtf.LogText.C170_sub_system",
    "Dtf.LogText.C170_sub_system_claim_false",
    "Dtf.LogText.C170_heading",
    "Dtf.LogText.C170_columns_partial",
    "Dtf.LogText.C170_columns_claim_false",
    "Dtf.LogText.C170_read_tables",
    "Dtf.LogText.C170_strings",
    "Dtf.LogText.C170_strings_error",
    "Dtf.LogText.C170_uuid_block",
    "Dtf.LogText.C170_range_block",
    "Dtf.LogText.C170_uuid_recovers"
   ],
   "note": "Proved: entries with types are shown in order of time (C170_shown_partial, C170_types), the line gives back the fields (C170_fields, C170_recovers, C170_entries, C170_message), the name is what follows the last slash (C170_base_name), shared-cache strings are shown in full (C170_strings, C170_read_tables) and each block gives back its values (C170_uuid_block, C170_uuid_recovers, C170_range_block). False of the code: C170_shown_claim, an activity of another kind has no type, which is an error at that entry (C170_untyped); C170_damage_claim, nothing is shown of a damaged file (C170_damage); C170_one_line_claim and C170_forged_claim, a message with a line break may forge an entry (C170_one_line_partial, C170_forged_partial); C170_process_claim, a message may look like the name of a process (C170_process_partial); C170_sub_system_claim, it is not shown without category, as with dumps (C170_sub_system); C170_columns_claim, activityCreateEvent is wider than its column (C170_columns_partial). The text of dates is a parameter; which entries there are is C147."
  },
  {
   "property": "C171",
   "status": "partial",
   "theorems": [
    "Dtf.Analyzer.C171_kept",
    "Dtf.Analyzer.C171_shown",
    "Dtf.Analyzer.C171_every_partial",
    "Dtf.Analyzer.C171_every_claim_false",
    "Dtf.Analyzer.C171_members_claim_false",
    "Dtf.Analyzer.C171_elements_claim_false",
    "Dtf.Analyzer.C171_vhdx",
    "Dtf.Analyzer.C171_short",
    "Dtf.Analyzer.C171_log",
    "Dtf.Analyzer.C171_log_partial",
    "Dtf.Analyzer.C171_log_claim_false",
    "Dtf.Uuid.C171_identifier"
   ],
   "note": "Proved: what a structure is shown as does not depend on those before (C171_kept), a structure that is shown is shown by its members in order and no others (C171_shown), a structure is shown if its values are of the kinds of its members (C171_every_partial), and for all files the exact output up to the first structure that cannot be read (C171_vhdx, C171_short). False of the code: C171_every_claim, a member called checksum or offset that is no integer is an error; C171_members_claim, members of other kinds such as structures are not shown; C171_elements_claim, elements of sequences that are no structures are not shown; C171_log_claim, the definition lacks the two versions before the size of the log of [MS-VHDX] 2.2.2, so that other numbers are shown (C171_log, C171_log_partial). Which signatures dtFabric accepts and which texts it decodes are parameters."
  },
  {
   "property": "C172",
   "status": "partial",
   "theorems": [
    "Dtf.Wemf.C172_emf",
    "Dtf.Wemf.C172_wmf",
    "Dtf.Wemf.C172_data",
    "Dtf.Wemf.C172_data_own",
    "Dtf.Wemf.C172_data_claim_false",
    "Dtf.Wemf.C172_data_partial",
    "Dtf.Wemf.C172_reads",
    "Dtf.Wemf.C172_debug_claim_false",
    "Dtf.Wemf.C172_debug_partial",
    "Dtf.Wemf.C172_debug_wmf_partial",
    "Dtf.Wemf.C172_borrowed",
    "Dtf.Wemf.C172_map_mode",
    "Dtf.Wemf.C172_stretch_mode",
    "Dtf.Wemf.C172_stretch_partial",
    "Dtf.Wemf.C172_stretch_claim_false",
    "Dtf.Wemf.C172_window",
    "Dtf.Wemf.C172_window_partial",
    "Dtf.Wemf.C172_window_claim_false",
    "Dtf.Wemf.C172_bitmap",
    "Dtf.Wemf.C172_restore",
    "Dtf.Wemf.C172_restore_partial",
    "Dtf.Wemf.C172_restore_claim_false",
    "Dtf.Wemf.C172_color",
    "Dtf.Wemf.C172_object",
    "Dtf.Wemf.C172_stock",
    "Dtf.Wemf.C172_names",
    "Dtf.Wemf.C172_indexes",
    "Dtf.Wemf.C172_codes",
    "Dtf.Wemf.C172_raster_partial",
    "Dtf.Wemf.C172_raster_claim_false",
    "Dtf.Wemf.C172_script",
    "Dtf.Wemf.C172_quiet",
    "Dtf.Wemf.C172_kind_partial",
    "Dtf.Wemf.C172_kind_claim_false",
    "Dtf.Wemf.C172_emf_header",
    "Dtf.Wemf.C172_wmf_header",
    "Dtf.Wemf.C172_placeable",
    "Dtf.Wemf.C172_record"
   ],
   "note": "Proved: the exact debug output of all stored files of both formats (C172_emf, C172_wmf, with C172_emf_header, C172_wmf_header, C172_placeable, C172_record for the lines), map modes, colors and objects (C172_map_mode, C172_color, C172_object, C172_stock), that reading in debug mode implies reading without (C172_reads), that there is one operation for each index (C172_indexes) and the decision of the script (C172_script, C172_quiet). False of the code: C172_data_claim, as many bytes of what follows are shown with the data of a record as precede it (C172_data, C172_data_own, C172_borrowed); C172_debug_claim, the last record may have too little data for its values (partial: C172_debug_partial); C172_stretch_claim, stretch modes have the names of map modes; C172_window_claim and C172_bitmap, x and y are swapped and not negative compared with [MS-WMF]; C172_restore_claim, a relative number is not negative; C172_raster_claim, 39 operations have the name of another (C172_raster_partial: exactly which); C172_kind_claim, the signature of Enhanced Metafiles in the data of a record of a Windows Metafile."
  },
  {
   "property": "C173",
   "status": "partial",
   "theorems": [
    "Dtf.Job.C173_configuration",
    "Dtf.Job.C173_errors",
    "Dtf.Job.C173_debug_same",
    "Dtf.Job.C173_quiet",
    "Dtf.Job.C173_failed",
    "Dtf.Job.C173_failed_claim_false",
    "Dtf.Job.C173_debug",
    "Dtf.Job.C173_members_claim_false",
    "Dtf.Job.C173_members_partial",
    "Dtf.Job.C173_offset_claim_false",
    "Dtf.Job.C173_offset_partial",
    "Dtf.Job.C173_script",
    "Dtf.Job.C173_script_debug",
    "Dtf.Job.C173_script_error",
    "Dtf.Job.C173_shown_claim_false",
    "Dtf.Job.C173_shown_partial"
   ],
   "note": "Proved: the configuration of all stored jobs whatever follows (C173_configuration), that every failure is a parse error (C173_errors) without any of the strings (C173_failed), that debug output changes nothing (C173_debug_same, C173_quiet) and its exact text (C173_debug), and what the script shows (C173_script, C173_script_debug, C173_script_error). False of the code: C173_failed_claim, the numbers of a file that could not be read are in the configuration; C173_members_claim, the number of triggers is never shown (partial: all others); C173_offset_claim, the offset of the application name is not used (partial: offset 70); C173_shown_claim, a line feed makes lines (partial: without). The parts of the product version are in C69."
  },
  {
   "property": "C174",
   "status": "partial",
   "theorems": [
    "Dtf.Companions.C174_helpers",
    "Dtf.Companions.C174_name",
    "Dtf.Companions.C174_dsc",
    "Dtf.Companions.C174_uuidtext",
    "Dtf.Companions.C174_timesync",
    "Dtf.Companions.C174_distinct",
    "Dtf.Companions.C174_present",
    "Dtf.Companions.C174_archive",
    "Dtf.Companions.C174_back_ends",
    "Dtf.Companions.C174_unknown",
    "Dtf.Companions.C174_sleuthkit_claim_false",
    "Dtf.Companions.C174_sleuthkit_partial",
    "Dtf.Companions.C174_single",
    "Dtf.Companions.C174_kept",
    "Dtf.Companions.C174_message_claim_false",
    "Dtf.Companions.C174_message_partial"
   ],
   "note": "Proved: both helpers name the same files (C174_helpers), names of identifiers (C174_name), the files (C174_dsc, C174_uuidtext, C174_timesync) and those of a log archive (C174_archive), that they are different (C174_distinct) and when there is one (C174_present); back-ends over all sequences of requests (C174_back_ends, C174_unknown) and kept whatever the outcome (C174_kept); when an image is opened (C174_single). False of the code: C174_sleuthkit_claim, TSK for Apple Partition Maps is the back-end for file systems (partial: all other formats); C174_message_claim, the script tells that there is no file system if there are several (partial: if and only if not one). dfVFS is a parameter, its JoinPath is taken to split segments and drop empty ones."
  },
  {
   "property": "C175",
   "status": "partial",
   "theorems": [
    "Dtf.DebugShown.C175_shown_partial",
    "Dtf.DebugShown.C175_branch_node",
    "Dtf.DebugShown.C175_shown_claim_false",
    "Dtf.DebugShown.C175_unseen",
    "Dtf.DebugShown.C175_members_partial",
    "Dtf.DebugShown.C175_hidden",
    "Dtf.DebugShown.C175_members_claim_false",
    "Dtf.DebugShown.C175_seen",
    "Dtf.DebugShown.C175_formats",
    "Dtf.DebugShown.C175_integers"
   ],
   "note": "Proved for the tables of all .debug.yaml and .yaml files: no type errors but for one structure (C175_shown_partial), what is not named is never in the text (C175_unseen), other values have other texts for numbers, offsets, streams and arrays of numbers (C175_seen), the attributes without formatter (C175_formats). False of the code: C175_shown_claim, a branch node of the WMI repository always raises a TypeError in debug mode (C175_branch_node); C175_members_claim, 34 members of 17 structures are not named by any definition, mostly because of misspelled names (C175_members_partial, C175_hidden). Structures inside structures are not looked into, texts of other formatters are a parameter."
  },
  {
   "property": "C176",
   "status": "partial",
   "theorems": [
    "Dtf.Wmi.C176_plain",
    "Dtf.Wmi.C176_index_partial",
    "Dtf.Wmi.C176_index_keys",
    "Dtf.Wmi.C176_sub_pages",
    "Dtf.Wmi.C176_index_claim_false",
    "Dtf.Wmi.C176_mapping_partial",
    "Dtf.Wmi.C176_mapping_tables",
    "Dtf.Wmi.C176_mapping_claim_false",
    "Dtf.Wmi.C176_cells_partial",
    "Dtf.Wmi.C176_cells_raise",
    "Dtf.Wmi.C176_cells_claim_false"
   ],
   "note": "Proved for all data: without debug mode the readers are those of the other properties (C176_plain); in debug mode a mapping file gives the same or a ValueError (C176_mapping_partial), exactly when an unknown table has a page number of other than two digits (C176_mapping_tables); a page can only be read if it is not active or has no keys, values or sub pages of other than two digits (C176_index_partial, C176_index_keys), and of those only the first digit is written (C176_sub_pages); a repository file can only be read if it has no node cells (C176_cells_partial, C176_cells_raise). False of the code: C176_index_claim, C176_mapping_claim and C176_cells_claim, because the text of a number is unpacked into two variables."
  },
  {
   "property": "C177",
   "status": "partial",
   "theorems": [
    "Dtf.Spotlight.DebugText.C177_shown_partial",
    "Dtf.Spotlight.DebugText.C177_time",
    "Dtf.Spotlight.DebugText.C177_shown_claim_false",
    "Dtf.Spotlight.DebugText.C177_list",
    "Dtf.Spotlight.DebugText.C177_seen",
    "Dtf.Spotlight.DebugText.C177_unknown"
   ],
   "note": "Proved for all data and types: an attribute that is read is shown unless it has a date and time for which the library gives no text (C177_shown_partial), which raises a ValueError (C177_time); the lines of a list (C177_list); the text determines integers, bytes and data (C177_seen); types that are not read are not shown (C177_unknown). False of the code: C177_shown_claim, because a floating-point value is formatted as a hexadecimal integer. Missing: that the text determines floating-point values and strings, which is left to Python's formatting."
  },
  {
   "property": "C178",
   "status": "partial",
   "theorems": [
    "Dtf.Cookies.DebugMode.C178_shown_partial",
    "Dtf.Cookies.DebugMode.C178_shown_claim_false",
    "Dtf.Cookies.DebugMode.C178_raises",
    "Dtf.Cookies.DebugMode.C178_times",
    "Dtf.Cookies.DebugMode.C178_seen"
   ],
   "note": "Proved for all data: a file is shown in debug mode, with the same cookies, exactly if it is read and all its times are in the years 1 to 9999 (C178_shown_partial); which error is raised otherwise (C178_raises); the times that are written are those of the record by an independent calendar (C178_times); the text determines the time to the second (C178_seen). False of the code: C178_shown_claim, because a time that is infinite, not a number or outside of those years raises an error. The calendar functions of Python are modelled in Verif/Calendar.lean and proved to agree with a calendar that counts days."
  },
  {
   "property": "C179",
   "status": "partial",
   "theorems": [
    "Dtf.ChromeCache.DebugMode.C179_shown_partial",
    "Dtf.ChromeCache.DebugMode.C179_late",
    "Dtf.ChromeCache.DebugMode.C179_unknown",
    "Dtf.ChromeCache.DebugMode.C179_text",
    "Dtf.ChromeCache.DebugMode.C179_table",
    "Dtf.ChromeCache.DebugMode.C179_address",
    "Dtf.ChromeCache.DebugMode.C179_shown_claim_false"
   ],
   "note": "Proved for all data: an index is shown in debug mode, with the same table, exactly if it is read, was created before the year 10000 and all addresses are of file types 0 to 4 (C179_shown_partial); the errors otherwise (C179_late, C179_unknown), also for unsupported versions; the whole text, with the creation time by an independent calendar (C179_text); the lines of the table (C179_table); the text of an address determines it (C179_address). False of the code: C179_shown_claim, because later creation times raise an OverflowError and addresses of other file types a TypeError."
  },
  {
   "property": "C180",
   "status": "partial",
   "theorems": [
    "Dtf.ChromeCache.Bitmap.C180_ranges_partial",
    "Dtf.ChromeCache.Bitmap.C180_last",
    "Dtf.ChromeCache.Bitmap.C180_ranges_claim_false",
    "Dtf.ChromeCache.Bitmap.C180_order",
    "Dtf.ChromeCache.Bitmap.C180_block",
    "Dtf.ChromeCache.Bitmap.C180_file",
    "Dtf.ChromeCache.Bitmap.C180_bit",
    "Dtf.ChromeCache.Bitmap.C180_shown",
    "Dtf.ChromeCache.Bitmap.C180_line"
   ],
   "note": "Proved for all bitmaps: the ranges that are written are the maximal ranges that do not reach the last block (C180_ranges_partial), in order (C180_order); which blocks are in a range (C180_block); the bits are those of the file (C180_bit); lines determine ranges (C180_line); reading is the same in debug mode (C180_file). False of the code: C180_ranges_claim, because a range that reaches the last block is never written (C180_last)."
  },
  {
   "property": "C181",
   "status": "partial",
   "theorems": [
    "Dtf.Utmp.DebugMode.C181_entry",
    "Dtf.Utmp.DebugMode.C181_xentry",
    "Dtf.Utmp.DebugMode.C181_file",
    "Dtf.Utmp.DebugMode.C181_stops",
    "Dtf.Utmp.DebugMode.C181_same_partial",
    "Dtf.Utmp.DebugMode.C181_same_claim_false",
    "Dtf.Utmp.DebugMode.C181_xfile",
    "Dtf.Utmp.DebugMode.C181_xshort",
    "Dtf.Utmp.DebugMode.C181_header_partial",
    "Dtf.Utmp.DebugMode.C181_header_claim_false",
    "Dtf.Utmp.DebugMode.C181_digits_claim_false",
    "Dtf.Utmp.DebugMode.C181_digits_partial"
   ],
   "note": "Proved for all files: the text of an entry is that of its members in the order of the format (C181_entry, C181_xentry); the whole text of a file and what is raised (C181_file, C181_xfile, C181_xshort); the entries before one that cannot be decoded are shown (C181_stops). False of the code: C181_same_claim and C181_header_claim, because a string that is not UTF-8 raises UnicodeDecodeError in debug mode, for utmpx before the header is checked; C181_digits_claim, because the sign of a negative type is within its digits. C181_same_partial, C181_header_partial and C181_digits_partial have the conditions under which they hold. The decoder of UTF-8 and the texts of dfdatetime are parameters."
  },
  {
   "property": "C182",
   "status": "partial",
   "theorems": [
    "Dtf.Journals.C182_names",
    "Dtf.Journals.C182_never",
    "Dtf.Journals.C182_refused",
    "Dtf.Journals.C182_fails",
    "Dtf.Journals.C182_ends",
    "Dtf.Journals.C182_shown_claim_false",
    "Dtf.Journals.C182_shown_partial",
    "Dtf.Journals.C182_name_claim_false",
    "Dtf.Journals.C182_name_partial",
    "Dtf.Journals.C182_types_claim_false",
    "Dtf.Journals.C182_types_partial",
    "Dtf.Journals.C182_flags_partial"
   ],
   "note": "False of the code: C182_shown_claim, as volume_path is None for every file and cannot be formatted. Proved for all files: the script writes its title and raises TypeError when the file can be read (C182_never), raises what reading raises otherwise (C182_refused), never succeeds (C182_fails) and ends (C182_ends). C182_shown_partial has what would be shown if the attribute were set. C182_name_claim is false: the last character of a process name is lost (C182_name_partial). C182_types_claim is false: bits 14, 15 and those from 22 have no name; C182_types_partial and C182_flags_partial hold for the others. Debug mode is in C195."
  },
  {
   "property": "C183",
   "status": "partial",
   "theorems": [
    "Dtf.Journals.C183_never",
    "Dtf.Journals.C183_empty",
    "Dtf.Journals.C183_refused",
    "Dtf.Journals.C183_succeeds",
    "Dtf.Journals.C183_ends",
    "Dtf.Journals.C183_shown_claim_false",
    "Dtf.Journals.C183_columns_claim_false",
    "Dtf.Journals.C183_shown_partial",
    "Dtf.Journals.C183_reference"
   ],
   "note": "False of the code: C183_shown_claim, as a record has no method _FormatIntegerAsFiletime. Proved for all files: AttributeError is raised at the first record, after the names of the columns (C183_never); the script succeeds exactly when there is no record (C183_succeeds); what is raised otherwise (C183_refused); it ends (C183_ends). C183_columns_claim is false: there is no end of line between the texts. C183_shown_partial has what would be shown if a record had the method; C183_reference: the text of a reference tells the entry and the sequence number. Debug mode is in C194."
  },
  {
   "property": "C184",
   "status": "partial",
   "theorems": [
    "Dtf.RpLog.DebugMode.C184_names",
    "Dtf.RpLog.DebugMode.C184_shown",
    "Dtf.RpLog.DebugMode.C184_same",
    "Dtf.RpLog.DebugMode.C184_errors",
    "Dtf.RpLog.DebugMode.C184_quiet_claim_false",
    "Dtf.RpLog.DebugMode.C184_quiet_partial"
   ],
   "note": "Proved for all logs: the text in debug mode (C184_shown, C184_names), the errors are those of reading and do not depend on debug mode (C184_same, C184_errors). False of the code: C184_quiet_claim, as the data after the description is written in every mode when there is an output writer (the script has always one); C184_quiet_partial: exactly that is written, and nothing for a file that is refused. The decoder of UTF-16 and the texts of dfdatetime are parameters."
  },
  {
   "property": "C185",
   "status": "partial",
   "theorems": [
    "Dtf.Tzif.DebugMode.C185_same",
    "Dtf.Tzif.DebugMode.C185_shown",
    "Dtf.Tzif.DebugMode.C185_first",
    "Dtf.Tzif.DebugMode.C185_second_partial",
    "Dtf.Tzif.DebugMode.C185_second_claim_false",
    "Dtf.Tzif.DebugMode.C185_refused"
   ],
   "note": "Proved for all files: what is raised (C185_same), the text of a file that is read (C185_shown), the text of a file of version 1 with transitions from its values (C185_first), what is shown of a file that is refused by its header (C185_refused). False of the code: C185_second_claim, as the second block is looked for where the first is; C185_second_partial: the first block is shown, then the same header again."
  },
  {
   "property": "C186",
   "status": "proved",
   "theorems": [
    "Dtf.TypeMaps.C186_definition",
    "Dtf.TypeMaps.C186_identity",
    "Dtf.TypeMaps.C186_given",
    "Dtf.TypeMaps.C186_undefined",
    "Dtf.TypeMaps.C186_read",
    "Dtf.TypeMaps.C186_made"
   ],
   "note": "Proved for all sequences of requests: what is given (C186_definition, C186_given), that two requests share a map exactly if they are for the same object and name (C186_identity), the number of maps made (C186_made), what is read (C186_read) and how a name that is not defined is refused (C186_undefined: a ValueError or an AttributeError, as no name in the code is undefined a parse error is not due). CreateDataTypeMap of dtFabric is a parameter."
  },
  {
   "property": "C187",
   "status": "partial",
   "theorems": [
    "Dtf.Dispatch.C187_emf",
    "Dtf.Dispatch.C187_wmf_exact",
    "Dtf.Dispatch.C187_wmf_partial",
    "Dtf.Dispatch.C187_disguised",
    "Dtf.Dispatch.C187_wmf_claim_false",
    "Dtf.Dispatch.C187_utmpx",
    "Dtf.Dispatch.C187_utmp_partial",
    "Dtf.Dispatch.C187_utmp_claim_false",
    "Dtf.Dispatch.C187_unified",
    "Dtf.Dispatch.C187_firefox",
    "Dtf.Dispatch.C187_firefox_relative"
   ],
   "note": "Proved of all Enhanced Metafiles, utmpx files, unified log files and Firefox names, on top of the round trips of C48 and C99. False of Windows Metafiles: one without placeable that has ' EMF' at offset 40 is refused with a ParseError (C187_disguised, C187_wmf_claim_false); C187_wmf_exact has the exact condition and C187_wmf_partial shows that those with a placeable are read. False of utmp files whose first record has the undocumented type 0x706d7475 (C187_utmp_claim_false); C187_utmp_partial has those of a documented type."
  },
  {
   "property": "C188",
   "status": "partial",
   "theorems": [
    "Dtf.Reports.C188_recycle_partial",
    "Dtf.Reports.C188_times",
    "Dtf.Reports.C188_recycle_distinct",
    "Dtf.Reports.C188_recycle_claim_false",
    "Dtf.Reports.C188_recycle_refused",
    "Dtf.Reports.C188_archive",
    "Dtf.Reports.C188_hashes"
   ],
   "note": "Proved for archives (C188_archive) and hashes (C188_hashes), on top of C21 and C09. For metadata files it is false of names with an end of line: the name can hold a line with another size, which a reader of lines finds first (C188_recycle_claim_false). Proved for names on one line (C188_recycle_partial); for all names two files with the same report are the same (C188_recycle_distinct), and the texts of two times differ (C188_times). What dfdatetime and the decoding of UTF-16 give are parameters."
  },
  {
   "property": "C189",
   "status": "proved",
   "theorems": [
    "Dtf.Utf.C189_utf8",
    "Dtf.Utf.C189_utf8_only",
    "Dtf.Utf.C189_utf8_injective",
    "Dtf.Utf.C189_utf16",
    "Dtf.Utf.C189_utf16_only",
    "Dtf.Utf.C189_utf16_injective",
    "Dtf.Utf.C189_catalog",
    "Dtf.Utf.C189_membership",
    "Dtf.Utf.C189_paths",
    "Dtf.Utf.C189_asl",
    "Dtf.Utf.C189_spotlight",
    "Dtf.Utf.C189_super_class",
    "Dtf.Utf.C189_recycle",
    "Dtf.Utf.C189_restore_point"
   ],
   "note": "Proved: the decoders invert the encoders (C189_utf8, C189_utf16), accept nothing else (C189_utf8_only, C189_utf16_only) and are injective; the other theorems put them in the place of the decoder parameters of C121, C112, C45, C25, C140, C132, C101 and C184. The encoders, which are the specification, are those of the Unicode standard. That Python's strict codecs are these functions is trusted; Python was not run."
  },
  {
   "property": "C190",
   "status": "proved",
   "theorems": [
    "Dtf.Dates.C190_filetime",
    "Dtf.Dates.C190_hfs",
    "Dtf.Dates.C190_posix",
    "Dtf.Dates.C190_posix_units",
    "Dtf.Dates.C190_special",
    "Dtf.Dates.C190_distinct",
    "Dtf.Dates.C190_order",
    "Dtf.Dates.C190_filetime_order",
    "Dtf.Dates.C190_recycle"
   ],
   "note": "Proved for all integers: C190_filetime, C190_hfs and C190_posix for the texts, C190_special, C190_distinct, C190_order and C190_filetime_order; C190_recycle uses them for the Recycle.Bin script, whose hypotheses on dates they discharge. That dfdatetime writes the date of the Gregorian calendar with these digits is its documentation and is trusted; dfdatetime was not available. The specification counts days one by one (Verif/Calendar.lean)."
  },
  {
   "property": "C191",
   "status": "partial",
   "theorems": [
    "Dtf.Dates.Logs.C191_time",
    "Dtf.Dates.Logs.C191_distinct_partial",
    "Dtf.Dates.Logs.C191_distinct_claim_false",
    "Dtf.Dates.Logs.C191_order",
    "Dtf.Dates.Logs.C191_document",
    "Dtf.Dates.Logs.C191_line"
   ],
   "note": "Proved: C191_time, C191_order, C191_document and C191_line. That timestamps are shown differently is refuted by C191_distinct_claim_false; C191_distinct_partial says exactly which are shown alike. That CopyToDateTimeStringISO8601 of dfdatetime writes date, T, time, nine digits and +00:00 is its documentation and is trusted."
  },
  {
   "property": "C192",
   "status": "partial",
   "theorems": [
    "Dtf.Dates.Logins.C192_utmp_partial",
    "Dtf.Dates.Logins.C192_utmpx_partial",
    "Dtf.Dates.Logins.C192_utmp_claim_false",
    "Dtf.Dates.Logins.C192_restore_point"
   ],
   "note": "C192_utmp_partial and C192_utmpx_partial need texts without zero characters; with them the claim is refuted by C192_utmp_claim_false. C192_restore_point has no such restriction but that the description has no zero character, which would end it. The texts of dfdatetime are trusted, see C190; UTF-8 and UTF-16 are those of C189."
  },
  {
   "property": "C193",
   "status": "proved",
   "theorems": [
    "Dtf.Utf.C193_job",
    "Dtf.Utf.C193_job_shown",
    "Dtf.Utf.C193_ipp",
    "Dtf.Utf.C193_ipp_ascii",
    "Dtf.Utf.C193_utf16be",
    "Dtf.Utf.C193_utf16be_only",
    "Dtf.Utf.C193_alias"
   ],
   "note": "Proved: C193_job, C193_job_shown, C193_ipp, C193_ipp_ascii, C193_utf16be and C193_alias, with the decoders of C189 for the parameters of C173, C46 and C143. Texts of jobs have no zero character, as it would end them. That dtfabric decodes a string with a terminator up to the terminator is trusted."
  },
  {
   "property": "C194",
   "status": "partial",
   "theorems": [
    "Dtf.UsnDebug.C194_same",
    "Dtf.UsnDebug.C194_full_blocks_partial",
    "Dtf.UsnDebug.C194_one_block_partial",
    "Dtf.UsnDebug.C194_script",
    "Dtf.UsnDebug.C194_script_claim_false"
   ],
   "note": "Proved: C194_same for all files, C194_full_blocks_partial and C194_one_block_partial for the text, C194_script for what the script does. False: C194_script_claim, as the script ends after the first record. Journals with padding in an earlier block are missing from the text, for which C43 is false."
  },
  {
   "property": "C195",
   "status": "partial",
   "theorems": [
    "Dtf.ChangeLogDebug.C195_shown_partial",
    "Dtf.ChangeLogDebug.C195_script",
    "Dtf.ChangeLogDebug.C195_same",
    "Dtf.ChangeLogDebug.C195_name_claim_false"
   ],
   "note": "Proved: C195_shown_partial for the exact text of every log, C195_same for all files, C195_script for what the script does. False: C195_name_claim, as the last character of the name of a process is not shown. The first path (record type 3) is only shown as bytes, as the code does not decode it."
  },
  {
   "property": "C196",
   "status": "partial",
   "theorems": [
    "Dtf.RecyclerDebug.C196_codepage",
    "Dtf.RecyclerDebug.C196_same_partial",
    "Dtf.RecyclerDebug.C196_refused",
    "Dtf.RecyclerDebug.C196_shown_partial",
    "Dtf.RecyclerDebug.C196_script",
    "Dtf.RecyclerDebug.C196_same_claim_false",
    "Dtf.RecyclerDebug.C196_name_claim_false",
    "Dtf.RecyclerDebug.C196_header_claim_false"
   ],
   "note": "Proved: C196_same_partial and C196_refused for all files, C196_codepage, C196_shown_partial for the exact text, C196_script. False: C196_same_claim, as bytes after the terminator of a name that stand for nothing in the codepage make reading fail in debug mode only; C196_name_claim, as the name is shown with what comes after its terminator; C196_header_claim, as the header is shown with the debug information of an entry and has none of its attributes."
  },
  {
   "property": "C197",
   "status": "proved",
   "theorems": [
    "Dtf.RecycleBinDebug.C197_same",
    "Dtf.RecycleBinDebug.C197_refused",
    "Dtf.RecycleBinDebug.C197_shown",
    "Dtf.RecycleBinDebug.C197_script"
   ],
   "note": "Proved: C197_same and C197_refused for all files, C197_shown for the exact text of both versions, C197_script for the output of the script with --debug."
  },
  {
   "property": "C198",
   "status": "partial",
   "theorems": [
    "Dtf.FseventsDebug.C198_same",
    "Dtf.FseventsDebug.C198_shown_partial",
    "Dtf.FseventsDebug.C198_script",
    "Dtf.FseventsDebug.C198_path_claim_false",
    "Dtf.FseventsDebug.C198_lines_partial"
   ],
   "note": "Proved: C198_same for all data, C198_shown_partial for the exact text of all pages, C198_lines_partial for paths without an end of line, C198_script. False: C198_path_claim, as after a path with an end of line no end of line is written and the identifier of the event comes right after it."
  },
  {
   "property": "C199",
   "status": "partial",
   "theorems": [
    "Dtf.GzipDebug.C199_same",
    "Dtf.GzipDebug.C199_shown_partial",
    "Dtf.GzipDebug.C199_script",
    "Dtf.GzipDebug.C199_time_claim_false"
   ],
   "note": "Proved: C199_same for all files, C199_shown_partial for the exact text of the members of C47_members_partial, C199_script. False: C199_time_claim, as the modification time is read with a sign and times after 2038 are shown as times before 1970."
  },
  {
   "property": "C200",
   "status": "partial",
   "theorems": [
    "Dtf.FirefoxDebug.C200_same",
    "Dtf.FirefoxDebug.C200_shown_partial",
    "Dtf.FirefoxDebug.C200_script",
    "Dtf.FirefoxDebug.C200_location_claim_false"
   ],
   "note": "Proved: C200_same for all files, C200_shown_partial for the exact text of all map files with the locations as numbers, C200_script. False: C200_location_claim, as the debug information asks for the format cache_lcation, which does not exist, and the locations are shown as plain numbers."
  },
  {
   "property": "C201",
   "status": "partial",
   "theorems": [
    "Dtf.FirefoxBlocks.C201_same",
    "Dtf.FirefoxBlocks.C201_shown_partial",
    "Dtf.FirefoxBlocks.C201_script",
    "Dtf.FirefoxBlocks.C201_expiration_claim_false"
   ],
   "note": "Proved: C201_same for all files, C201_shown_partial for the exact text of entries and of blocks that are not in use and are no entries longer than a block, C201_script. False: C201_expiration_claim, as the debug information has no expiration time. A request with an end of line has none after it, and locations are plain numbers as in C200."
  },
  {
   "property": "C202",
   "status": "partial",
   "theorems": [
    "Dtf.SystemdDebug.C202_same",
    "Dtf.SystemdDebug.C202_shown_partial",
    "Dtf.SystemdDebug.C202_size_claim_false"
   ],
   "note": "Proved: C202_same for all files and offsets, C202_shown_partial for the exact text of stored objects. False: C202_size_claim, as the debug information has data_sizes where the structure has data_size. The entry arrays, the entries and the header of a journal are in C203, C204 and C205."
  },
  {
   "property": "C203",
   "status": "proved",
   "theorems": [
    "Dtf.SystemdArrays.C203_same",
    "Dtf.SystemdArrays.C203_shown"
   ],
   "note": "Proved: C203_same for all files and offsets, C203_shown for the exact text of all chains of arrays by induction. The size of an array is not shown, as in C202. An array without entries is shown with a line without a value."
  },
  {
   "property": "C204",
   "status": "proved",
   "theorems": [
    "Dtf.SystemdEntries.C204_same",
    "Dtf.SystemdEntries.C204_shown"
   ],
   "note": "Proved: C204_same for all files and offsets, C204_shown for the exact text of all lists of entries with their data objects. The sizes of entries and data objects are not shown, as in C202. An entry without items is shown with a line without a value."
  },
  {
   "property": "C205",
   "status": "proved",
   "theorems": [
    "Dtf.SystemdFile.C205_same",
    "Dtf.SystemdFile.C205_shown",
    "Dtf.SystemdFile.C205_script"
   ],
   "note": "Proved: C205_same for all files, C205_shown for the exact text of all journals, C205_script. The texts of entry arrays, entries and data objects are those of C203, C204 and C202; the sizes of objects are not shown, as in C202. A chain of arrays that does not end is none of the journals, as in C42."
  },
  {
   "property": "C206",
   "status": "proved",
   "theorems": [
    "Dtf.TimesyncDebug.C206_same",
    "Dtf.TimesyncDebug.C206_shown"
   ],
   "note": "Proved: C206_same for all files, C206_shown for the exact text of all databases whose records have the sizes of their structures. The text of a signature is given for the two signatures there are, since others are refused before. A record whose size is 0 is read over and over, as in C74, with none as the result when the fuel is used up."
  },
  {
   "property": "C207",
   "status": "partial",
   "theorems": [
    "Dtf.UuidtextDebug.C207_same",
    "Dtf.UuidtextDebug.C207_shown_partial"
   ],
   "note": "Proved: C207_same for all files, whatever is done for the footer, and C207_shown_partial for the exact text of the header and where the footer is shown. What is missing is the text of the footer itself: the reading of the image path is a parameter, as in C32."
  }
 ]
}
