{
 "claims": [
  {
   "property": "C01",
   "status": "proved",
   "theorems": [
    "Apx.NumHeader.C01_numheader16_roundtrip",
    "Apx.NumHeader.C01_numheader16_rejects"
   ],
   "note": ""
  },
  {
   "property": "C02",
   "status": "proved",
   "theorems": [
    "Apx.NumHeader.C02_numheader32_roundtrip",
    "Apx.NumHeader.C02_numheader32_rejects"
   ],
   "note": ""
  },
  {
   "property": "C03",
   "status": "proved",
   "theorems": [
    "Apx.NumHeader.C03_decode_within_window",
    "Apx.NumHeader.C03_decode_ignores_rest",
    "Apx.NumHeader.C03_incomplete_header_waits"
   ],
   "note": ""
  },
  {
   "property": "C04",
   "status": "proved",
   "theorems": [
    "Apx.NumHeader.C04_prefix_free",
    "Apx.NumHeader.C04_numheader16_canonical",
    "Apx.NumHeader.C04_numheader32_reencode"
   ],
   "note": ""
  },
  {
   "property": "C05",
   "status": "partial",
   "theorems": [
    "Apx.Rmf.C05_header_roundtrip_exact",
    "Apx.Rmf.C05_header_roundtrip_partial",
    "Apx.Rmf.C05_header_roundtrip_violated"
   ],
   "note": "Violated for one corner (empty payload after a 4-byte header); the exact set of round-tripping inputs is proved (_exact), the counterexample is C05_header_roundtrip_violated."
  },
  {
   "property": "C06",
   "status": "proved",
   "theorems": [
    "Apx.Rmf.C06_header_length",
    "Apx.Rmf.C06_header_unambiguous"
   ],
   "note": ""
  },
  {
   "property": "C07",
   "status": "proved",
   "theorems": [
    "Apx.Rmf.C07_fileinfo_roundtrip",
    "Apx.Rmf.C07_no_address",
    "Apx.Rmf.C07_out_of_range",
    "Apx.Rmf.C07_short"
   ],
   "note": ""
  },
  {
   "property": "C08",
   "status": "proved",
   "theorems": [
    "Apx.Rmf.C08_fileopen_roundtrip",
    "Apx.Rmf.C08_fileopen_only"
   ],
   "note": ""
  },
  {
   "property": "C09",
   "status": "partial",
   "theorems": [
    "Apx.Rmf.C09_fileclose_violated",
    "Apx.Rmf.C09_fileclose_partial"
   ],
   "note": "Violated: unpackFileClose always raises (NameError for well-formed commands). Negation proved; the sending side is proved in _partial."
  },
  {
   "property": "C10",
   "status": "proved",
   "theorems": [
    "Apx.Socket.C10_chunking_irrelevant",
    "Apx.Socket.C10_events_same_as_whole"
   ],
   "note": ""
  },
  {
   "property": "C11",
   "status": "proved",
   "theorems": [
    "Apx.Socket.C11_exactly_once_in_order",
    "Apx.Socket.C11_any_handler",
    "Apx.Socket.C11_too_long"
   ],
   "note": ""
  },
  {
   "property": "C12",
   "status": "proved",
   "theorems": [
    "Apx.Manager.C12_acknowledge",
    "Apx.Socket.C12_nothing_before_ack",
    "Apx.Socket.C12_wrong_first_message"
   ],
   "note": ""
  },
  {
   "property": "C13",
   "status": "proved",
   "theorems": [
    "Apx.FileMap.C13_sorted_any_history",
    "Apx.FileMap.C13_iterate"
   ],
   "note": ""
  },
  {
   "property": "C14",
   "status": "partial",
   "theorems": [
    "Apx.FileMap.C14_auto_placement_partial",
    "Apx.FileMap.C14_auto_placement_violated",
    "Apx.FileMap.C14_reinsert_overlap",
    "Apx.FileMap.C14_zero_violated"
   ],
   "note": "Holds for files of positive length (proved for all histories); false with zero-length files: in every map, the two files placed after one of length zero get the same address (C14_zero_violated). Re-inserting a removed file can also overlap (C14_reinsert_overlap), but that file has a preset address."
  },
  {
   "property": "C15",
   "status": "proved",
   "theorems": [
    "Apx.FileMap.C15_findByAddress",
    "Apx.FileMap.C15_zero_length_violated",
    "Apx.FileMap.C15_exactly"
   ],
   "note": "Proved for positive-length, non-overlapping files in every reachable map, as stated; the zero-length corner is shown to fail in C15_zero_length_violated."
  },
  {
   "property": "C16",
   "status": "partial",
   "theorems": [
    "Apx.FileMap.C16_findByName_violated",
    "Apx.FileMap.C16_findByName_partial"
   ],
   "note": "Violated: only the lowest-addressed file is examined. Negation proved with a witness; the part that holds is _partial."
  },
  {
   "property": "C17",
   "status": "partial",
   "theorems": [
    "Apx.FileMap.C17_room_violated",
    "Apx.FileMap.C17_room_partial"
   ],
   "note": "Violated (UnboundLocalError). The exact condition under which insertion into an empty region succeeds is proved in _partial."
  },
  {
   "property": "C18",
   "status": "proved",
   "theorems": [
    "Apx.FileMap.C18_remove_present",
    "Apx.FileMap.C18_remove_absent"
   ],
   "note": ""
  },
  {
   "property": "C19",
   "status": "proved",
   "theorems": [
    "Apx.FileData.C19_write",
    "Apx.FileData.C19_read",
    "Apx.FileData.C19_negative_length",
    "Apx.FileData.C19_history",
    "Apx.FileData.C19_create"
   ],
   "note": ""
  },
  {
   "property": "C20",
   "status": "proved",
   "theorems": [
    "Apx.FileData.C20_notifications",
    "Apx.FileData.C20_no_handler"
   ],
   "note": ""
  },
  {
   "property": "C21",
   "status": "partial",
   "theorems": [
    "Apx.FileData.C21_fragments_partial",
    "Apx.FileData.C21_fragments_violated"
   ],
   "note": "Violated: only the last fragment is notified. Exact behaviour for every fragmentation proved in _partial."
  },
  {
   "property": "C22",
   "status": "proved",
   "theorems": [
    "Apx.C22_roundtrip",
    "Apx.C22_same_element",
    "Apx.C22_resolved",
    "Apx.C22_text_determines_element",
    "Apx.C22_parser_terminates"
   ],
   "note": ""
  },
  {
   "property": "C23",
   "status": "proved",
   "theorems": [
    "Apx.C23_packLen",
    "Apx.C23_record_sum",
    "Apx.C23_reference",
    "Apx.C23_record_array"
   ],
   "note": ""
  },
  {
   "property": "C24",
   "status": "proved",
   "theorems": [
    "Apx.C24_header",
    "Apx.C24_same_length",
    "Apx.C24_exact"
   ],
   "note": ""
  },
  {
   "property": "C25",
   "status": "proved",
   "theorems": [
    "Apx.C25_names_compile",
    "Apx.C25_names_pack",
    "Apx.C25_names_unpack",
    "Apx.C25_latin_name",
    "Apx.C25_pack",
    "Apx.C25_untouched",
    "Apx.C25_untouched_every"
   ],
   "note": ""
  },
  {
   "property": "C26",
   "status": "partial",
   "theorems": [
    "Apx.C26_nested_violated",
    "Apx.C26_witness_violated",
    "Apx.C26_roundtrip_partial"
   ],
   "note": "Violated for records inside records (unpacking always raises); proved for all other types, for every value that packs."
  },
  {
   "property": "C27",
   "status": "partial",
   "theorems": [
    "Apx.C27_every_pattern",
    "Apx.C27_pack_back",
    "Apx.C27_record_pack_back_partial",
    "Apx.C27_record_array_violated",
    "Apx.C27_exactly",
    "Apx.C27_unique",
    "Apx.C27_too_short",
    "Apx.C27_every_array_violated"
   ],
   "note": "Unpacking and layout proved in full; C27_exactly says for every type and all bytes what is read (Spec/Reading), or that an exception is raised. Packing back proved exactly for integers, arrays and records: a record packs back if no array field is longer than the number of fields, and raises otherwise (violated for every such record, C27_every_array_violated)."
  },
  {
   "property": "C28",
   "status": "partial",
   "theorems": [
    "Apx.C28_empty_record_violated",
    "Apx.C28_rejects_partial",
    "Apx.C28_out_of_range",
    "Apx.C28_too_short",
    "Apx.C28_exactly",
    "Apx.C28_every_empty_violated",
    "Apx.C28_wider",
    "Apx.C28_too_short_every"
   ],
   "note": "C28_exactly says which values are packed, for every type. Violated exactly by fields that are empty records (they accept any value, C28_every_empty); proved for all other types."
  },
  {
   "property": "C29",
   "status": "partial",
   "theorems": [
    "Apx.C29_violated",
    "Apx.C29_condition_partial",
    "Apx.C29_exactly_partial",
    "Apx.C29_every_violated"
   ],
   "note": "Violated for every record with an array (C29_every_violated); exact condition for success proved (array no longer than number of dict entries), also for nested types (C29_exactly_partial)."
  },
  {
   "property": "C30",
   "status": "partial",
   "theorems": [
    "Apx.C30_same_code_violated",
    "Apx.C30_multiple_violated",
    "Apx.C30_count",
    "Apx.C30_unpack_partial",
    "Apx.C30_pack_partial"
   ],
   "note": "Violated for lengths that are 0 or exceed 65535 (taken modulo 65536); proved for 1..65535."
  },
  {
   "property": "C31",
   "status": "proved",
   "theorems": [
    "Apx.C31_partition"
   ],
   "note": ""
  },
  {
   "property": "C32",
   "status": "partial",
   "theorems": [
    "Apx.C32_empty_port_violated",
    "Apx.C32_write",
    "Apx.C32_failed_partial",
    "Apx.C32_accepts"
   ],
   "note": "Proved for every reachable state. One corner is violated: if the provide ports occupy no bytes at all, the failing write has already replaced the value."
  },
  {
   "property": "C33",
   "status": "partial",
   "theorems": [
    "Apx.C33_remote_violated",
    "Apx.NodeData.C33_numeric_partial",
    "Apx.C33_write_violated",
    "Apx.C33_read_violated",
    "Apx.C33_success_partial"
   ],
   "note": "Violated: a raising encoder/decoder leaves the lock acquired, after which every access blocks in every continuation. Proved: successful accesses and accesses to unknown ports do not. Holds for every history of nodes with numeric required ports in which the values written fit (C33_numeric_partial)."
  },
  {
   "property": "C34",
   "status": "partial",
   "theorems": [
    "Apx.C34_unreadable_violated",
    "Apx.NodeData.C34_numeric_partial",
    "Apx.C34_ports",
    "Apx.C34_notified_partial",
    "Apx.C34_silent"
   ],
   "note": "The affected ports are found exactly; they are notified in order up to the first port whose bytes cannot be decoded (violated beyond it). All are notified if the required ports are numeric (C34_numeric_partial)."
  },
  {
   "property": "C35",
   "status": "partial",
   "theorems": [
    "Apx.C35_exactly",
    "Apx.C35_shifted_violated",
    "Apx.C35_init_partial",
    "Apx.C35_zero_partial",
    "Apx.C35_length_partial",
    "Apx.C35_text",
    "Apx.C35_latin1_violated",
    "Apx.C35_misaligned_violated",
    "Apx.C35_wraps"
   ],
   "note": "Violated by every non-ASCII text (Latin-1 written, UTF-8 read: the text is never read back) and by every init value whose data has another length than its port (C35_shifted_violated); nested records cannot be read (C26). C35_exactly says what data the ports get in all cases. Proved otherwise, after any local history."
  },
  {
   "property": "C36",
   "status": "proved",
   "theorems": [
    "Apx.Manager.C36_confined",
    "Apx.Manager.C36_areas",
    "Apx.Manager.C36_local_untouched",
    "Apx.Manager.C36_accepted"
   ],
   "note": "Confinement proved for arbitrary states and messages; local files untouched and the accepting direction proved for all reachable states of programs that keep local and requested files apart."
  },
  {
   "property": "C37",
   "status": "proved",
   "theorems": [
    "Apx.Manager.C37_open_once"
   ],
   "note": "Proved for every reachable state, every wire-representable FILE_INFO, both byte orders. The second FILE_INFO changes nothing but raises (see C38)."
  },
  {
   "property": "C38",
   "status": "partial",
   "theorems": [
    "Apx.Manager.C38_unrequested_violated",
    "Apx.Manager.C38_other_length_violated",
    "Apx.Manager.C38_truncated_violated",
    "Apx.Manager.C38_reception_ends",
    "Apx.Manager.C38_tolerated_partial"
   ],
   "note": "Violated in all three ways, in every state (universally quantified negations); C38_reception_ends shows the effect on the receive thread; what is tolerated is C38_tolerated_partial."
  },
  {
   "property": "C39",
   "status": "proved",
   "theorems": [
    "Apx.Manager.C39_open_sends_content",
    "Apx.Manager.C39_write_queues",
    "Apx.Manager.C39_replay"
   ],
   "note": "Proved for every history of attaches, requests, messages, connects and writes that keeps local and requested files apart."
  },
  {
   "property": "C40",
   "status": "partial",
   "theorems": [
    "Apx.Concurrent.C40_disjoint_partial",
    "Apx.Concurrent.C40_uninterrupted_partial",
    "Apx.Concurrent.C40_same_bytes_violated"
   ],
   "note": "Violated by every pair of calls of two threads that write different values to some byte (a schedule exists). Proved for any number of threads and every schedule when each byte has one writer."
  },
  {
   "property": "C41",
   "status": "proved",
   "theorems": [
    "Apx.Manager.C41_transmits_in_order",
    "Apx.Manager.C41_without_stop",
    "Apx.Manager.C41_reconnect"
   ],
   "note": "Proved for every queue content whose addresses fit the protocol; send itself is assumed not to raise."
  },
  {
   "property": "C42",
   "status": "partial",
   "theorems": [
    "Apx.C42_ids_are_positions_partial",
    "Apx.C42_ids_unique",
    "Apx.C42_node_data_partial",
    "Apx.C42_mirror_violated",
    "Apx.C42_dump_violated",
    "Apx.C42_append_line"
   ],
   "note": "Positions = identifiers for every history without sorting or mirroring, uniqueness for every history without mirroring, and buildability of node data are proved. Violated after dumps()/finalize(sort) and after mirror(): identifiers differ from positions (or are missing) and NodeData(node) fails."
  },
  {
   "property": "C43",
   "status": "proved",
   "theorems": [
    "Apx.C43_finalize",
    "Apx.C43_twice",
    "Apx.C43_idempotent"
   ],
   "note": ""
  },
  {
   "property": "C44",
   "status": "partial",
   "theorems": [
    "Apx.C44_copy_duplicate_partial",
    "Apx.C44_names_unique_partial",
    "Apx.C44_append_violated",
    "Apx.C44_ignore_violated"
   ],
   "note": "Proved for ports added by copying (add_port_from_node, extend) from arbitrary nodes. Violated by append/add_require_port/add_provide_port, which check nothing, and by ignore_duplicates, which is not used."
  },
  {
   "property": "C45",
   "status": "partial",
   "theorems": [
    "Apx.C45_exactly_partial",
    "Apx.C45_nameless_violated",
    "Apx.C45_mirror_partial",
    "Apx.C45_number_violated"
   ],
   "note": "Proved for all built nodes with well-formed port types. Violated for a port whose record type contains a type number (mirror raises) and for every port with a nameless field (C45_nameless_violated: the field is called None afterwards; C45_exactly_partial says what the mirror is in that case)."
  },
  {
   "property": "C46",
   "status": "partial",
   "theorems": [
    "Apx.C46_earlier",
    "Apx.C46_length_defined",
    "Apx.C46_depth",
    "Apx.C46_unknown_raises",
    "Apx.C46_negative_violated",
    "Apx.C46_sorted_violated"
   ],
   "note": "Earlier-reference, defined length and unknown references are proved for all histories. Violated by negative numbers (T[-1] is accepted) and, after finalize, by sorting (a record can precede its member types)."
  },
  {
   "property": "C47",
   "status": "partial",
   "theorems": [
    "Apx.C47_compact_violated",
    "Apx.C47_loaded",
    "Apx.C47_name_violated",
    "Apx.C47_dump_iff",
    "Apx.C47_sorted_violated",
    "Apx.C47_definition_text",
    "Apx.C47_dump_partial",
    "Apx.C47_dump_sorted",
    "Apx.C47_written_iff",
    "Apx.C47_record_port_violated"
   ],
   "note": "C47_definition_text: full round trip for the published definition text of any unfinalized node whose names and attributes can be written. C47_dump_partial: for dumps, if no type of the sorted node refers to a later one. Violations: sorting moves a record before its member type; compact names (C47_compact_violated: a port using any type not named T0, T1, \u2026 makes the normalized text unreadable); a quote, hash sign or line feed in any name, or a hash sign, line feed or blank end in an attribute (C47_name_violated: no text is ever loaded as that definition); record port with a type number inside."
  },
  {
   "property": "C48",
   "status": "partial",
   "theorems": [
    "Apx.C48_agree_partial",
    "Apx.C48_first_line_ignored",
    "Apx.C48_no_header_violated"
   ],
   "note": "Proved for texts starting with a version line or a line that says nothing. Violated otherwise: load ignores the first line (C48_first_line_ignored, C48_no_header_violated)."
  },
  {
   "property": "C49",
   "status": "partial",
   "theorems": [
    "Apx.C49_after_error_violated",
    "Apx.C49_loads_partial",
    "Apx.C49_load_partial",
    "Apx.C49_empty_text_violated"
   ],
   "note": "Proved for all texts that say anything. Violated by texts that say nothing: a used parser returns the node of an earlier text."
  },
  {
   "property": "C50",
   "status": "partial",
   "theorems": [
    "Apx.C50_sections_partial",
    "Apx.C50_layout",
    "Apx.C50_layout_headless",
    "Apx.C50_meaning",
    "Apx.C50_kind",
    "Apx.C50_dropped_violated",
    "Apx.C50_after_require",
    "Apx.C50_comment_violated",
    "Apx.C50_comment_in_item"
   ],
   "note": "Sections: proved for all accepted texts, with the lines dropped after a provide port made explicit (PortPart). Layout: proved for all texts with the same first version line and for all texts without. Violations: dropped lines after a provide port; comment before the version line."
  },
  {
   "property": "C51",
   "status": "proved",
   "theorems": [
    "Apx.C51_every_spelling",
    "Apx.C51_roundtrip",
    "Apx.C51_text_determines_value",
    "Apx.C51_with_other_attributes",
    "Apx.C51_printed_numbers",
    "Apx.C51_queue_length",
    "Apx.C51_parser_terminates"
   ],
   "note": ""
  },
  {
   "property": "C52",
   "status": "partial",
   "theorems": [
    "Apx.C52_halves",
    "Apx.C52_up_partial",
    "Apx.C52_up_exact_partial",
    "Apx.C52_down_violated",
    "Apx.C52_degenerate",
    "Apx.C52_client_partial",
    "Apx.C52_initial_violated",
    "Apx.C52_refuses"
   ],
   "note": "Floats are rationals with rounding errors bounded by a parameter (0 in the exact corollary). Upward ramps proved, through to the port values read back. Violated by every downward ramp of two or more steps and by ports not written yet that have an init value."
  },
  {
   "property": "C53",
   "status": "partial",
   "theorems": [
    "Apx.C53_layout_partial",
    "Apx.C53_init_length",
    "Apx.C53_exactly",
    "Apx.C53_same_name_violated",
    "Apx.C53_sorted_violated"
   ],
   "note": "Offsets, lengths and initial data of the generated code are those of the node data built for the node as the generator leaves it (the same node when it was finalized before); initial data needs distinct port names. Violated for every node that was not finalized and whose ports are not in the order of their names (the generator sorts them; C53_sorted_violated) and for two ports with one name (the last one's initial data is emitted for both)."
  },
  {
   "property": "C54",
   "status": "partial",
   "theorems": [
    "Apx.C54_read_partial",
    "Apx.C54_write_partial",
    "Apx.C54_unknown",
    "Apx.C54_require_not_writable",
    "Apx.C54_unnumbered",
    "Apx.C54_without_node",
    "Apx.C54_same_name_violated",
    "Apx.C54_sorted_violated",
    "Apx.C54_negative_violated",
    "Apx.C54_type_name_violated"
   ],
   "note": "Reading and writing proved for port objects, unambiguous names and numbers, after any history; everything else raises and changes nothing. Violations: a type with the name of a port, negative numbers, require and provide port of one name, node sorted while attached."
  },
  {
   "property": "C55",
   "status": "partial",
   "theorems": [
    "Apx.C55_arrives_partial",
    "Apx.C55_nested_violated",
    "Apx.C55_leaked_violated",
    "Apx.C55_calls_kept"
   ],
   "note": "Proved for any sequence of chunks on the wire when the port's type has no nested record, is not empty and the value is represented exactly; one message, one frame, one notification with the value. Violated for every port with a nested record: whatever is sent for it is stored, but the reader's receive thread ends with an exception and no port of the node can be used any more. Violated as well once a lock has leaked (C33): the receive thread then waits for ever (C55_leaked_violated)."
  },
  {
   "property": "C56",
   "status": "partial",
   "theorems": [
    "Apx.C56_represents_partial",
    "Apx.C56_unsigned_partial",
    "Apx.C56_power_of_two_violated",
    "Apx.C56_lower_bound_violated",
    "Apx.C56_small_violated",
    "Apx.C56_too_large",
    "Apx.C56_array_violated",
    "Apx.C56_dangling"
   ],
   "note": "The rounding logarithm is a parameter (assumed accurate, shown satisfiable); proved for bounds away from the defects. Violated at powers of two, for lower bounds, small signed ranges and arrays."
  },
  {
   "property": "C57",
   "status": "partial",
   "theorems": [
    "Apx.C57_truncated_violated",
    "Apx.C57_unreadable_violated",
    "Apx.C57_text_partial",
    "Apx.C57_read",
    "Apx.C57_exactly_partial"
   ],
   "note": "Violated for text longer than the field; text is read back exactly when it fits and has no null character."
  },
  {
   "property": "C58",
   "status": "proved",
   "theorems": [
    "Apx.C58_frame",
    "Apx.C58_wrong_kind",
    "Apx.C58_not_interchangeable"
   ],
   "note": ""
  },
  {
   "property": "C59",
   "status": "partial",
   "theorems": [
    "Apx.C59_violated",
    "Apx.C59_scalar_partial"
   ],
   "note": "Violated: InitValue object or integer 0 is returned. Holds for integers without init value."
  },
  {
   "property": "C60",
   "status": "partial",
   "theorems": [
    "Apx.Manager.C60_restart_violated",
    "Apx.Manager.C60_first_start_partial",
    "Apx.Manager.C60_running_partial"
   ],
   "note": "Violated in every history with a start and a stop (proved for all of them). Holds for the first start."
  },
  {
   "property": "C61",
   "status": "partial",
   "theorems": [
    "Apx.C61_copied_partial",
    "Apx.C61_extend_partial",
    "Apx.C61_mirror_partial",
    "Apx.C61_nested_violated",
    "Apx.C61_missing_violated",
    "Apx.C61_other_violated",
    "Apx.C61_alike_violated",
    "Apx.C61_numbers_violated"
   ],
   "note": "Proved for add_port_from_node, extend and mirror when types of the same name are the same in both nodes and names can be printed and parsed. Fails for every record port holding a reference to a type that the receiving node does not know or knows as another type, and for every port of a record type that reads alike in the receiving node but is another one (C61_alike_violated); and for every provided record port holding a reference, copied after the node data of its node was created, unless the receiving node has the same type under the same number (C61_numbers_violated)."
  },
  {
   "property": "C62",
   "status": "partial",
   "theorems": [
    "Apx.C62_table_partial",
    "Apx.C62_gap_violated",
    "Apx.C62_beyond_violated",
    "Apx.C62_comma_violated"
   ],
   "note": "Proved for enumerations 0..n-1 in order with texts free of quotes and commas. Violated by all other enumerations with distinct plain texts and lower <= upper, and by all with a comma in a text."
  },
  {
   "property": "C63",
   "status": "partial",
   "theorems": [
    "Apx.C63_documented_violated",
    "Apx.C63_two_parameters_partial",
    "Apx.C63_values_partial"
   ],
   "note": "Violated for every listener with the documented three parameters. For listeners with two parameters the calls are exactly the notifications of C34."
  },
  {
   "property": "C64",
   "status": "proved",
   "theorems": [
    "Apx.C64_accepts",
    "Apx.C64_unambiguous",
    "Apx.C64_refuses",
    "Apx.C64_negative_length"
   ],
   "note": ""
  },
  {
   "property": "C65",
   "status": "proved",
   "theorems": [
    "Apx.C65_short_pack",
    "Apx.C65_short_unpack",
    "Apx.C65_within",
    "Apx.C65_pack_offset",
    "Apx.C65_unpack_offset",
    "Apx.C65_cut_pack",
    "Apx.C65_cut_unpack",
    "Apx.C65_cut_header"
   ],
   "note": ""
  },
  {
   "property": "C66",
   "status": "partial",
   "theorems": [
    "Apx.C66_content",
    "Apx.C66_ascii_only",
    "Apx.C66_describes_partial",
    "Apx.C66_describes",
    "Apx.C66_readable_iff",
    "Apx.C66_sorted_violated"
   ],
   "note": "Proved for every node whose types refer only to earlier types, in particular for all nodes that have not been finalized. Fails after every finalization that sorts a type before one it uses (C66_readable_iff, C66_sorted_violated): the definition file is served but cannot be parsed."
  },
  {
   "property": "C67",
   "status": "partial",
   "theorems": [
    "Apx.C67_write_partial",
    "Apx.C67_read_partial",
    "Apx.C67_by_reference",
    "Apx.C67_as_runtime_partial",
    "Apx.C67_length",
    "Apx.C67_node_write_partial",
    "Apx.C67_node_read_partial",
    "Apx.C67_full_text_violated",
    "Apx.C67_not_terminated_violated",
    "Apx.C67_empty_text_violated",
    "Apx.C67_record_reference_violated",
    "Apx.C67_array_reference_violated",
    "Apx.C67_nested_suffix_violated"
   ],
   "note": "Proved for types built from integers, integer arrays, strings, records and references to integers (CSupported). Outside this class the emitted code fails or is wrong, with counterexamples: references to records and arrays, strings filling their buffer (terminator lost or missing), empty strings read back, the suffix of nested records (C67_nested_suffix_violated: no call of such a read or write function is defined). packLE/unpackLE/memcpy and the apx_nodeData_* calls have their documented meaning in the model."
  },
  {
   "property": "C68",
   "status": "partial",
   "theorems": [
    "Apx.C68_literal_partial",
    "Apx.C68_length_partial",
    "Apx.C68_reload_partial",
    "Apx.C68_initializer",
    "Apx.C68_exactly",
    "Apx.C68_backslash_violated",
    "Apx.C68_unicode_violated"
   ],
   "note": "Proved for texts without backslashes and carriage returns (literal), ASCII texts (length in bytes) and writable nodes (reload); the initializers are proved in full. Violated for names with a backslash (not escaped) and names outside ASCII (characters counted instead of bytes)."
  },
  {
   "property": "C69",
   "status": "partial",
   "theorems": [
    "Apx.C69_every_case_violated",
    "Apx.C69_every_empty_violated",
    "Apx.C69_every_unmatched_violated",
    "Apx.C69_dispatch_partial",
    "Apx.C69_ports_partial",
    "Apx.C69_every_inside_violated",
    "Apx.C69_inside_violated",
    "Apx.C69_empty_violated",
    "Apx.C69_case_violated",
    "Apx.C69_no_match_violated"
   ],
   "note": "Proved for ports of positive length whose names differ even after upper-casing, and ranges that start at a port or not beyond the first port with a callback. Violated, for all such nodes (C69_every_*), by ranges starting inside a port, ports of length zero, names that differ only in case, and callbacks for no port of the node."
  },
  {
   "property": "C70",
   "status": "partial",
   "theorems": [
    "Apx.C70_every_no_ports_violated",
    "Apx.C70_every_again_violated",
    "Apx.C70_own_partial",
    "Apx.C70_plain",
    "Apx.C70_every_name_violated",
    "Apx.C70_renamed_violated",
    "Apx.C70_no_ports_violated",
    "Apx.C70_again_violated"
   ],
   "note": "Proved for a new generator, the node's own name and at least one require port. Violated, for all such uses (C70_every_*), by another name, a node without require ports and a generator used twice."
  },
  {
   "property": "C71",
   "status": "partial",
   "theorems": [
    "Apx.C71_require_partial",
    "Apx.C71_provide_partial",
    "Apx.C71_zero_partial",
    "Apx.C71_made",
    "Apx.C71_nested_violated"
   ],
   "note": "Proved with the restrictions of C35: init lists of the declared lengths, ASCII text. Violated for every require port with a record inside a record, which cannot be read (C71_nested_violated)."
  },
  {
   "property": "C72",
   "status": "proved",
   "theorems": [
    "Apx.Manager.C72_exactly",
    "Apx.Manager.C72_unchanged",
    "Apx.Manager.C72_connection",
    "Apx.Manager.C72_data"
   ],
   "note": "The list of fatal messages is longer than a user would expect (see C38 for the complaint); the property states it exactly."
  },
  {
   "property": "C73",
   "status": "partial",
   "theorems": [
    "Apx.C73_created",
    "Apx.C73_announces",
    "Apx.C73_definition",
    "Apx.C73_provided",
    "Apx.C73_copy",
    "Apx.C73_requested",
    "Apx.C73_stored",
    "Apx.C73_again_violated",
    "Apx.C73_asks_once",
    "Apx.C73_late_violated"
   ],
   "note": "Violated: after the in-port data file has been opened, any further FILE_INFO (as follows a reconnection) raises AssertionError in the receive thread; files attached while connected are never announced. Everything else is proved for all histories. Hypothesis of some theorems: the receive thread does not wait for a leaked lock (C33/C55), and the node's name contains no NUL character."
  },
  {
   "property": "C74",
   "status": "partial",
   "theorems": [
    "Apx.Connect.C74_connect",
    "Apx.Connect.C74_greeting",
    "Apx.Connect.C74_stop_partial",
    "Apx.Connect.C74_stop_again_violated",
    "Apx.Connect.C74_reconnect_violated",
    "Apx.Connect.C74_second_violated",
    "Apx.Connect.C74_reset_violated",
    "Apx.Connect.C74_listener_violated"
   ],
   "note": "Connecting is proved for all histories; stop() for the first connection, called by any thread but the receive thread, unless the peer reset it. Each of the five violations holds for every history of its kind: second stop, connecting again, second connection, reset, stop() called by the listener."
  },
  {
   "property": "C75",
   "status": "partial",
   "theorems": [
    "Apx.Connect.C75_in_order",
    "Apx.Connect.C75_drained_partial",
    "Apx.Connect.C75_stop_violated"
   ],
   "note": "Prefix order and complete sending by a running manager are proved for all histories. Violated by stop(): what is queued then is never sent, in every history."
  },
  {
   "property": "C76",
   "status": "partial",
   "theorems": [
    "Apx.C76_pair_violated",
    "Apx.C76_alias_violated",
    "Apx.C76_half_violated",
    "Apx.C76_mirror_violated",
    "Apx.C76_split_partial",
    "Apx.C76_head_partial",
    "Apx.C76_type_violated",
    "Apx.C76_names_violated",
    "Apx.C76_node_name",
    "Apx.C76_file"
   ],
   "note": "Proved for definitions with distinct port names whose types can be copied. Violated by names of types, pairs of ports of one name, types that are names of other types, --mirror for the tail, --tail_name and --head_name, and a tail refused after the head was written."
  },
  {
   "property": "C77",
   "status": "partial",
   "theorems": [
    "Apx.C77_join_partial",
    "Apx.C77_order_violated",
    "Apx.C77_unreadable_partial",
    "Apx.C77_empty_violated",
    "Apx.C77_meaning_violated",
    "Apx.C77_refused",
    "Apx.C77_direction_violated",
    "Apx.C77_common_port_violated"
   ],
   "note": "Proved for definitions in which shared names mean the same (Compatible) and whose sorted types refer to earlier ones; definitions whose ports or port types read differently under one name are refused and nothing is written, and so are files that cannot be loaded, except those without a definition after the first file, which are ignored silently. Violated by every port required by one and provided by another, by all record types that read alike and mean something else, by a shared port whose type has one name and two meanings, and by sorting a record type before a type it refers to."
  },
  {
   "property": "C78",
   "status": "partial",
   "theorems": [
    "Apx.C78_size_partial",
    "Apx.C78_record_violated",
    "Apx.C78_exactly"
   ],
   "note": "Proved for all definitions in which no record of a port refers to another type. For such a record the tool raises although node data can be made (violated)."
  },
  {
   "property": "C79",
   "status": "partial",
   "theorems": [
    "Apx.C79_sort_partial",
    "Apx.C79_mirror_partial",
    "Apx.C79_pipe_violated",
    "Apx.C79_order_violated",
    "Apx.C79_unreadable",
    "Apx.C79_destroyed_violated"
   ],
   "note": "Proved for writable nodes whose sorted types refer to earlier types. Violated: the documented use in a pipe does nothing, a failure leaves the file cut off, and sorting can make it unreadable."
  },
  {
   "property": "C80",
   "status": "partial",
   "theorems": [
    "Apx.C80_ports",
    "Apx.C80_import_partial",
    "Apx.C80_shared_name_violated",
    "Apx.C80_collision_violated",
    "Apx.C80_dropped_violated",
    "Apx.C80_refuses"
   ],
   "note": "C80_import_partial: components whose data types have distinct short names and are of the kind C56 covers; C80_ports: any import that succeeds; C80_refuses: imports that raise. Violated by every component with two types that share a short name and have no common representation, and by witnesses otherwise: types that share a short name (the second gets the layout of the first) and by ports whose interface is missing (dropped silently)."
  },
  {
   "property": "C81",
   "status": "partial",
   "theorems": [
    "Apx.C81_init_partial",
    "Apx.C81_bytes_partial",
    "Apx.C81_quote_violated",
    "Apx.C81_empty_violated"
   ],
   "note": "C81_init_partial, C81_bytes_partial: plain constants (texts without quotes and braces, no empty records or arrays). Violated by texts with a quote (the text a\"Q makes the port queued) and by empty records and arrays (no init value)."
  },
  {
   "property": "C82",
   "status": "partial",
   "theorems": [
    "Apx.C82_unsayable_violated",
    "Apx.C82_text",
    "Apx.C82_dumps",
    "Apx.C82_published",
    "Apx.C82_enum_violated"
   ],
   "note": "Proved for importable components (C80) whose names and texts can be written in a definition text (Legible). Violated by enumeration texts with unpaired parentheses or hash signs: the node is made and published, but no peer can load the definition. C82_unsayable_violated: whenever the imported node has a name or attribute that cannot be written, no text is ever loaded as that definition."
  },
  {
   "property": "C83",
   "status": "partial",
   "theorems": [
    "Apx.C83_node_partial",
    "Apx.C83_context_partial",
    "Apx.C83_text",
    "Apx.C83_order_violated"
   ],
   "note": "Proved for components in which no two data types share a name. Violated by every component whose require ports have one type of a name and whose provide ports another: the import keeps the type of the provide ports and the context that of the require ports."
  },
  {
   "property": "C84",
   "status": "partial",
   "theorems": [
    "Apx.C84_port_partial",
    "Apx.C84_extend_partial",
    "Apx.C84_shared_violated",
    "Apx.C84_example_violated"
   ],
   "note": "Proved for one port and for extend(): the receiving node has nothing named like a port or type of the component, and for extend() no two ports of the component have the same type. Violated by extend() for every imported component in which two ports have one type: it raises."
  },
  {
   "property": "C85",
   "status": "partial",
   "theorems": [
    "Apx.C85_save_partial",
    "Apx.C85_no_directory",
    "Apx.C85_dumps_partial",
    "Apx.C85_refused_violated",
    "Apx.C85_merged_violated",
    "Apx.C85_overwrite_violated"
   ],
   "note": "Proved for saving nodes with distinct names and for the text of a context with one node. Violated for texts of several nodes (refused, or merged into the first one, in every case) and for saving two nodes of one name (the second replaces the first)."
  },
  {
   "property": "C86",
   "status": "partial",
   "theorems": [
    "Apx.C86_again",
    "Apx.C86_describes_partial",
    "Apx.C86_text_violated",
    "Apx.C86_create_partial",
    "Apx.C86_numbers_violated",
    "Apx.C86_created"
   ],
   "note": "Proved for nodes whose types refer to earlier types and can be written. Violated: NodeData(text) always raises; a text with a record port that refers to types by number, as a finalized node publishes the second time, loads but is refused by Client(text)."
  },
  {
   "property": "C87",
   "status": "partial",
   "theorems": [
    "Apx.C87_history_partial",
    "Apx.C87_send_partial",
    "Apx.C87_receive_partial",
    "Apx.C87_node",
    "Apx.C87_init_violated",
    "Apx.C87_shared_violated"
   ],
   "note": "Proved for functions that do not share a variable, types with a write function (C67) and, for the value before the first call, ports whose initial data is the initial value of the data element. Violated without the first and the last condition."
  },
  {
   "property": "C88",
   "status": "partial",
   "theorems": [
    "Apx.C88_fit_partial",
    "Apx.C88_union",
    "Apx.C88_exactly",
    "Apx.C88_same_name_violated",
    "Apx.C88_renamed_violated",
    "Apx.C88_no_bytes_violated",
    "Apx.C88_again_violated"
   ],
   "note": "Proved for a new generator and distinct port names in each direction; with callbacks also for the node's own name, bytes to receive, and callback functions different from each other and from the generated ones. Violated for two ports of one name, another name, and a generator used before."
  },
  {
   "property": "C89",
   "status": "partial",
   "theorems": [
    "Apx.C89_init",
    "Apx.C89_as_runtime_partial",
    "Apx.C89_connected",
    "Apx.C89_backslash_violated",
    "Apx.C89_same_name_violated"
   ],
   "note": "Proved without conditions for the emitted data; agreement with the Python node data needs distinct port names in each direction (C53) and a definition without backslashes and carriage returns (C68), and fails without these (C89_same_name_violated, C89_backslash_violated)."
  },
  {
   "property": "C90",
   "status": "partial",
   "theorems": [
    "Apx.Threads.C90_every_port_violated",
    "Apx.Threads.C90_reads",
    "Apx.Threads.C90_outcomes",
    "Apx.Threads.C90_calls",
    "Apx.Threads.C90_received",
    "Apx.Threads.C90_file",
    "Apx.Threads.C90_values_partial",
    "Apx.Threads.C90_same_port_violated",
    "Apx.Threads.C90_no_deadlock",
    "Apx.Threads.C90_ends",
    "Apx.Threads.C90_completes"
   ],
   "note": "Everything is proved for all schedules except the agreement of the value read back with the file: proved when no port is written by two threads, violated otherwise for every port and all values (C90_every_port_violated: the file is written after the lock has been released)."
  },
  {
   "property": "C91",
   "status": "partial",
   "theorems": [
    "Apx.C91_found_partial",
    "Apx.C91_none_partial",
    "Apx.C91_line_partial",
    "Apx.C91_empty_line_violated"
   ],
   "note": "Position of the first newline proved, and the result without newline; violated in that an empty line at the first position gives the same result as no newline at all."
  },
  {
   "property": "C92",
   "status": "partial",
   "theorems": [
    "Apx.C92_fit_partial",
    "Apx.C92_order_violated",
    "Apx.C92_shared_violated"
   ],
   "note": "Proved when the header is generated first and functions that share a variable have the same type; violated by every component otherwise."
  },
  {
   "property": "C93",
   "status": "partial",
   "theorems": [
    "Apx.Socket.C93_break_partial",
    "Apx.Socket.C93_taken_partial",
    "Apx.Socket.C93_taken_violated"
   ],
   "note": "Proved for every break, and for a last message taken in part. Violated when a message that was taken in part is followed by another one (the return value of socket.send is ignored)."
  },
  {
   "property": "C94",
   "status": "proved",
   "theorems": [
    "Apx.C94_forwarded",
    "Apx.C94_initial"
   ],
   "note": ""
  },
  {
   "property": "C95",
   "status": "proved",
   "theorems": [
    "Apx.C95_in_order"
   ],
   "note": ""
  },
  {
   "property": "C96",
   "status": "partial",
   "theorems": [
    "Apx.C96_pack",
    "Apx.C96_unpack_partial",
    "Apx.C96_refused",
    "Apx.C96_numbers_violated",
    "Apx.C96_nested_violated"
   ],
   "note": "Full for packing lists of records/lists. Violated: a number instruction between ARRAY_ENTER and ARRAY_LEAVE takes the whole list (C96_numbers_violated); a record directly inside a record cannot be unpacked (C96_nested_violated). C96_unpack_partial covers all other descriptions."
  },
  {
   "property": "C97",
   "status": "partial",
   "theorems": [
    "Apx.C97_text",
    "Apx.C97_described",
    "Apx.C97_cycle",
    "Apx.C97_parsed_partial",
    "Apx.C97_refused",
    "Apx.C97_signature_violated",
    "Apx.C97_read",
    "Apx.C97_exactly",
    "Apx.C97_one_limit_violated",
    "Apx.C97_no_name_violated"
   ],
   "note": "Violated: one limit alone is lost (C97_one_limit_violated), a field without a name is written as \"None\" (C97_no_name_violated), DataSignature(element) is unusable (C97_signature_violated). C97_parsed_partial: elements with limits in pairs, named fields, names without delimiters and without type objects as references."
  },
  {
   "property": "C98",
   "status": "proved",
   "theorems": [
    "Apx.C98_to_python",
    "Apx.C98_to_c",
    "Apx.C98_c_to_c"
   ],
   "note": ""
  },
  {
   "property": "C99",
   "status": "partial",
   "theorems": [
    "Apx.C99_port_line",
    "Apx.C99_attributes_partial",
    "Apx.C99_queued_parameter_violated",
    "Apx.C99_types_partial",
    "Apx.C99_types_violated",
    "Apx.C99_unknown",
    "Apx.C99_autosar_line_partial",
    "Apx.C99_mirror_twice_partial",
    "Apx.C99_autosar_violated"
   ],
   "note": "Violated: a port that is queued and a parameter is read back without the parameter mark (C99_queued_parameter_violated); integer, array and non-empty record types cannot be written, because `math` and `typeData` are not defined (C99_types_violated); AUTOSAR ports have no attribute `attr` until one is assigned, so they have no text and no mirror (C99_autosar_violated). Partial theorems: everything else."
  },
  {
   "property": "C100",
   "status": "partial",
   "theorems": [
    "Apx.C100_agrees",
    "Apx.C100_few_names_partial",
    "Apx.C100_many_names_violated",
    "Apx.C100_refused"
   ],
   "note": "Violated: for exactly the ports where two names lead to an array or three or more to anything, exec raises NotImplementedError although the node has a program (C100_many_names_violated). Proved for all other ports (C100_few_names_partial); whenever exec succeeds the program is the right one (C100_agrees)."
  },
  {
   "property": "C101",
   "status": "proved",
   "theorems": [
    "Apx.C101_again",
    "Apx.C101_no_value",
    "Apx.C101_set_value",
    "Apx.C101_reset",
    "Apx.C101_node"
   ],
   "note": ""
  },
  {
   "property": "C102",
   "status": "partial",
   "theorems": [
    "Apx.C102_little_partial",
    "Apx.C102_big_violated"
   ],
   "note": "Violated for every machine made for big-endian data (C102_big_violated). Proved for little-endian machines (C102_little_partial)."
  },
  {
   "property": "C103",
   "status": "partial",
   "theorems": [
    "Apx.Manager.C103_attached_partial",
    "Apx.Manager.C103_order_violated",
    "Apx.Manager.C103_same_name_violated",
    "Apx.Manager.C103_announces",
    "Apx.Manager.C103_open",
    "Apx.Manager.C103_copies",
    "Apx.Manager.C103_made"
   ],
   "note": "Proved for all lists of nodes whose first node has provide ports (or none has any). Violated otherwise: after a node without provide ports every node with provide ports is refused with UnboundLocalError (C103_order_violated, general). Violated for in-port data when two nodes have the same name: the earlier file is forgotten and never changes (C103_same_name_violated, general)."
  },
  {
   "property": "C104",
   "status": "partial",
   "theorems": [
    "Apx.C104_code_partial",
    "Apx.C104_write_partial",
    "Apx.C104_read_partial",
    "Apx.C104_heads_partial",
    "Apx.C104_file_partial",
    "Apx.C104_names_violated"
   ],
   "note": "Proved for all data elements whose members have names that are C identifiers (with and without the suffix), for heads if node and port names are made of word characters and the type has an identifier as name, and for the functions in the text of the source file. Violated for member names that are no identifiers (keywords, blanks, a digit first), which the parser accepts: C104_names_violated, general. The other functions of the file: C105."
  },
  {
   "property": "C105",
   "status": "partial",
   "theorems": [
    "Apx.C105_callbacks_partial",
    "Apx.C105_headers_partial",
    "Apx.C105_declared_partial",
    "Apx.C105_names_violated",
    "Apx.C105_file_partial",
    "Apx.C105_init_partial",
    "Apx.C105_connected_partial"
   ],
   "note": "Proved for all nodes whose names (node, ports, types, members, callbacks) can be used in C; the dispatch function under the conditions of C69 (positive lengths, names that differ after upper-casing, an offset that is the start of a port or not beyond the first port with a callback); the agreement of source and header under the conditions of C88. Violated in general for a name with another character (C105_names_violated). What `memcpy`, `memset` and the functions of the APX run-time do is as specified in Spec/CUnit; arithmetic of `uint32_t` is unbounded."
  },
  {
   "property": "C106",
   "status": "partial",
   "theorems": [
    "Apx.C106_file_partial",
    "Apx.C106_send_partial",
    "Apx.C106_receive_partial",
    "Apx.C106_history_partial",
    "Apx.C106_received_partial",
    "Apx.C106_hidden_violated"
   ],
   "note": "Proved for components as in C92 with names that can be used in C and that do not begin with `m_` or `ApxNode_`, and variables that are shared only by functions of the same type; the history for distinct variables and ports, supported types (C67) and initializers that denote the initial values (the text of an initializer is a parameter). Violated in general for a parameter with the name of the variable (C106_hidden_violated). `memcmp` compares values, without padding."
  },
  {
   "property": "C107",
   "status": "partial",
   "theorems": [
    "Apx.C107_values_partial",
    "Apx.C107_text_violated",
    "Apx.C107_from_python_partial"
   ],
   "note": "Proved for supported types (C67), names as in C105 and callbacks with names of their own, positive lengths; for text only if the union contains a zero behind it. Violated in general for every port with text (C107_text_violated). The received data are taken not to change during the call."
  },
  {
   "property": "C108",
   "status": "partial",
   "theorems": [
    "Apx.NodeData.C108_read_partial",
    "Apx.NodeData.C108_notified_partial",
    "Apx.NodeData.C108_nested_violated",
    "Apx.NodeData.C108_write_partial"
   ],
   "note": "Proved in both directions for every port of a node with a file, as long as the lock has not been left behind (C33), for array lengths and names the byte code can express. Violated for records inside records: reading always raises (C108_nested_violated); and for arrays in records (C29, the condition ArraysOk in C108_write_partial)."
  },
  {
   "property": "C109",
   "status": "proved",
   "theorems": [
    "Apx.C109_never_hung",
    "Apx.C109_no_raise",
    "Apx.C109_in_order"
   ],
   "note": "Proved for array lengths and names that the byte code can express."
  }
 ]
}