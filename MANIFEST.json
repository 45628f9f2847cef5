{
 "claims": [
  {
   "property": "C01",
   "status": "proved",
   "theorems": [
    "Mh2c.C01_high_low_partition",
    "Mh2c.C01_defined_iff"
   ],
   "note": "Proved for all inputs the statement quantifies over."
  },
  {
   "property": "C02",
   "status": "proved",
   "theorems": [
    "Mh2c.C02_is_flag_set",
    "Mh2c.C02_make_flags_bits",
    "Mh2c.C02_make_flags_set",
    "Mh2c.C02_make_flags_order"
   ],
   "note": "Proved for all inputs the statement quantifies over."
  },
  {
   "property": "C03",
   "status": "proved",
   "theorems": [
    "Mh2c.C03_network_order",
    "Mh2c.C03_read_back",
    "Mh2c.C03_read_exact",
    "Mh2c.C03_conversions"
   ],
   "note": "Proved for all inputs the statement quantifies over."
  },
  {
   "property": "C04",
   "status": "proved",
   "theorems": [
    "Mh2c.C04_frame_header_round_trip"
   ],
   "note": "Proved for all inputs the statement quantifies over."
  },
  {
   "property": "C05",
   "status": "proved",
   "theorems": [
    "Mh2c.C05_parse_lossless",
    "Mh2c.C05_parse_injective"
   ],
   "note": "Proved for all inputs the statement quantifies over."
  },
  {
   "property": "C06",
   "status": "proved",
   "theorems": [
    "Mh2c.C06_out_of_range_fields",
    "Mh2c.C06_oversized_length_is_wrong"
   ],
   "note": "Proved for all inputs the statement quantifies over."
  },
  {
   "property": "C07",
   "status": "proved",
   "theorems": [
    "Mh2c.C07_round_trip",
    "Mh2c.C07_domain_exact"
   ],
   "note": "Proved for all inputs the statement quantifies over."
  },
  {
   "property": "C08",
   "status": "proved",
   "theorems": [
    "Mh2c.C08_minimal_rfc_form"
   ],
   "note": "Proved for all inputs the statement quantifies over."
  },
  {
   "property": "C09",
   "status": "partial",
   "theorems": [
    "Mh2c.C09_value_exact",
    "Mh2c.C09_consumption_partial",
    "Mh2c.C09_consumption_violated"
   ],
   "note": "The property as stated is false of the code, which the _violated theorems prove. C09_consumption_violated: C09 is false of the code: the integer 127 written in three octets is reported as two octets long, so the decoder resumes in the middle of it. What holds is in the other theorems. Missing from C09_consumption_partial: non-minimal integers, for which the claim is false (`C09_consumption_violated`)."
  },
  {
   "property": "C10",
   "status": "proved",
   "theorems": [
    "Mh2c.C10_concatenation",
    "Mh2c.C10_unique"
   ],
   "note": "Proved for all inputs the statement quantifies over."
  },
  {
   "property": "C11",
   "status": "proved",
   "theorems": [
    "Mh2c.C11_round_trip"
   ],
   "note": "Proved for all inputs the statement quantifies over."
  },
  {
   "property": "C12",
   "status": "proved",
   "theorems": [
    "Mh2c.C12_total_and_safe",
    "Mh2c.C12_output_bound"
   ],
   "note": "Proved for all inputs the statement quantifies over."
  },
  {
   "property": "C13",
   "status": "proved",
   "theorems": [
    "Mh2c.C13_acceptance",
    "Mh2c.C13_rejection"
   ],
   "note": "Proved for all inputs the statement quantifies over."
  },
  {
   "property": "C14",
   "status": "partial",
   "theorems": [
    "Mh2c.C14_rfc_agreement_partial",
    "Mh2c.C14_rfc_rejection_partial",
    "Mh2c.C14_every_input_partial",
    "Mh2c.C14_rfc_rejection_violated"
   ],
   "note": "The property as stated is false of the code, which the _violated theorems prove. C14_rfc_rejection_violated: C14 is false of the code: a string containing EOS, and one padded with zeros, have no RFC decoding but are accepted. What holds is in the other theorems. Missing from C14_rfc_agreement_partial: the converse (an input RFC 7541 rejects is rejected), which is false, see below. Missing from C14_rfc_rejection_partial: rejection of these inputs, which is false of the code. Missing from C14_every_input_partial: rejection of EOS and of padding that is not all 1, which is false of the code."
  },
  {
   "property": "C15",
   "status": "proved",
   "theorems": [
    "Mh2c.C15_canonical",
    "Mh2c.C15_inverse",
    "Mh2c.C15_prefix_free",
    "Mh2c.C15_complete",
    "Mh2c.C15_eos"
   ],
   "note": "Proved for all inputs the statement quantifies over."
  },
  {
   "property": "C16",
   "status": "proved",
   "theorems": [
    "Mh2c.C16_inverse",
    "Mh2c.C16_indices"
   ],
   "note": "Proved for all inputs the statement quantifies over."
  },
  {
   "property": "C17",
   "status": "partial",
   "theorems": [
    "Mh2c.C17_appendix_a_partial",
    "Mh2c.C17_appendix_a_violated"
   ],
   "note": "The property as stated is false of the code, which the _violated theorems prove. C17_appendix_a_violated: C17 is false at index 20. What holds is in the other theorems. Missing from C17_appendix_a_partial: index 20, where the name is mistyped (false of the code)."
  },
  {
   "property": "C18",
   "status": "proved",
   "theorems": [
    "Mh2c.C18_size_accounting"
   ],
   "note": "Proved for all inputs the statement quantifies over."
  },
  {
   "property": "C19",
   "status": "proved",
   "theorems": [
    "Mh2c.C19_rfc_table",
    "Mh2c.C19_longest_run"
   ],
   "note": "Proved for all inputs the statement quantifies over."
  },
  {
   "property": "C20",
   "status": "partial",
   "theorems": [
    "Mh2c.C20_oversized_push_violated",
    "Mh2c.C20_defined_iff_fits_partial"
   ],
   "note": "The property as stated is false of the code, which the _violated theorems prove. C20_oversized_push_violated: C20 is false of the code: pushing any header larger than the maximum, onto any table reached by an admissible history, is undefined behaviour, where RFC 7541 4.4 asks for an empty table. (The bound says that the sizes added up fit `size_t`.) What holds is in the other theorems. Missing from C20_defined_iff_fits_partial: what RFC 7541 4.4 prescribes for the others (false, see above)."
  },
  {
   "property": "C21",
   "status": "proved",
   "theorems": [
    "Mh2c.C21_positional_access"
   ],
   "note": "Proved for all inputs the statement quantifies over."
  },
  {
   "property": "C22",
   "status": "proved",
   "theorems": [
    "Mh2c.C22_update_table_size",
    "Mh2c.C22_idempotent"
   ],
   "note": "Proved for all inputs the statement quantifies over."
  },
  {
   "property": "C23",
   "status": "proved",
   "theorems": [
    "Mh2c.C23_classification",
    "Mh2c.C23_exhaustive",
    "Mh2c.C23_encoded"
   ],
   "note": "Proved for all inputs the statement quantifies over."
  },
  {
   "property": "C24",
   "status": "proved",
   "theorems": [
    "Mh2c.C24_literal_round_trip"
   ],
   "note": "Proved for all inputs the statement quantifies over."
  },
  {
   "property": "C25",
   "status": "proved",
   "theorems": [
    "Mh2c.C25_indexed"
   ],
   "note": "Proved for all inputs the statement quantifies over."
  },
  {
   "property": "C26",
   "status": "proved",
   "theorems": [
    "Mh2c.C26_size_update"
   ],
   "note": "Proved for all inputs the statement quantifies over."
  },
  {
   "property": "C27",
   "status": "proved",
   "theorems": [
    "Mh2c.C27_well_typed",
    "Mh2c.C27_mistyped",
    "Mh2c.C27_depends_on_entries"
   ],
   "note": "Proved for all inputs the statement quantifies over."
  },
  {
   "property": "C28",
   "status": "proved",
   "theorems": [
    "Mh2c.C28_progress",
    "Mh2c.C28_terminates",
    "Mh2c.C28_pieces",
    "Mh2c.C28_lengths_add_up"
   ],
   "note": "Proved for all inputs the statement quantifies over."
  },
  {
   "property": "C29",
   "status": "partial",
   "theorems": [
    "Mh2c.C29_missing_reference_partial",
    "Mh2c.C29_exact_partial",
    "Mh2c.C29_index_zero_violated"
   ],
   "note": "The property as stated is false of the code, which the _violated theorems prove. C29_index_zero_violated: C29 is false for index 0: RFC 7541 6.1 makes it a decoding error, the client delivers a header with empty name and value. What holds is in the other theorems. Missing from C29_missing_reference_partial: index 0 (false, see below). (`rest`: an integer of at most six octets and below 2^31, the decoder's limits.) Missing from C29_exact_partial: the exception for longer and larger integers, and index 0 (false, see below)."
  },
  {
   "property": "C30",
   "status": "proved",
   "theorems": [
    "Mh2c.C30_block_round_trip"
   ],
   "note": "Proved for all inputs the statement quantifies over."
  },
  {
   "property": "C31",
   "status": "partial",
   "theorems": [
    "Mh2c.C31_peer_decodes_partial",
    "Mh2c.C31_reference_after_insertion_violated",
    "Mh2c.C31_indexed_without_entry_violated",
    "Mh2c.C31_mistyped_name_violated",
    "Mh2c.C31_one_entry_partial",
    "Mh2c.C31_exact_partial"
   ],
   "note": "The property as stated is false of the code, which the _violated theorems prove. C31_reference_after_insertion_violated: C31 is false of the code when a dynamic reference follows an insertion in the same block: the index is computed in the old table. The peer decodes `b: 2` twice instead of `b: 2`, `a: 1`. C31_indexed_without_entry_violated: C31 is false of the code when INDEXED is asked for a header that is in no table: what is sent has no decoding. C31_mistyped_name_violated: C31 is false of the code for the mistyped static entry: a header sent under the name `accept-control-allow-origin` arrives as `access-control-allow-origin`. What holds is in the other theorems. Missing from C31_peer_decodes_partial: blocks in which a dynamic reference follows an insertion or an evicting size update, INDEXED asked for a header that is in no table, and literals with the mistyped static name. For every other block of typed entries, a conforming decoder that holds the same table decodes exactly the given headers, in order, each in the representation asked for (or as an index if it is in a table), and there is no other way to decode it. Missing from C31_one_entry_partial: blocks of several entries, for which `C31_peer_decodes_partial` gives a sufficient condition. A conforming decoder that holds the same table decodes what is sent for the entry as exactly the given header (or as no header, for a size update) if and only if the header is in a table, or the prefix is not INDEXED and the name is not the mistyped one. Missing from C31_exact_partial: the blocks in which one of these is not so. The hypothesis `hempty` leaves out INDEXED asked, without Huffman coding, for a header with an empty value that is in no table: the peer then takes the octets that follow for another header, which may by accident be the one meant (`hempty_needed`)."
  },
  {
   "property": "C32",
   "status": "partial",
   "theorems": [
    "Mh2c.C32_client_decodes_partial",
    "Mh2c.C32_long_integer_violated",
    "Mh2c.C32_reference_after_insertion_violated",
    "Mh2c.C32_static_20_violated",
    "Mh2c.C32_empty_name_violated",
    "Mh2c.C32_exact_partial"
   ],
   "note": "The property as stated is false of the code, which the _violated theorems prove. C32_long_integer_violated: C32 is false of the code for an integer that is not in its shortest form: the client miscounts its octets. C32_reference_after_insertion_violated: C32 is false of the code for a reference to an entry inserted earlier in the same block: the client looks it up in the old table and delivers another header. C32_static_20_violated: C32 is false of the code for static index 20. C32_empty_name_violated: C32 is false of the code for a literal that takes an empty name from the table: the client takes the value for the name and reads on. What holds is in the other theorems. Missing from C32_client_decodes_partial: integers not in their shortest form, references to entries inserted or moved within the block, static index 20, indexed empty names; and integers of 2^31 and more. Every block of a restrained peer is decoded by the client to exactly the header list that RFC 7541 assigns to it, with the representations. (`ItemTolerant` only matters on platforms where an empty string cannot be formed.) Missing from C32_exact_partial: the references that are not kept; integers in a longer form; and, as a hypothesis, tables with an entry whose name is empty. (`ItemTolerant` only matters on platforms where an empty string cannot be formed.)"
  },
  {
   "property": "C33",
   "status": "partial",
   "theorems": [
    "Mh2c.C33_tables_in_sync_partial",
    "Mh2c.C33_session_continues_partial",
    "Mh2c.C33_incremental_hit_violated",
    "Mh2c.C33_any_block_partial",
    "Mh2c.C33_in_step_partial",
    "Mh2c.C33_exact_partial",
    "Mh2c.C33_repeated_violated",
    "Mh2c.C33_every_hit_violated"
   ],
   "note": "The property as stated is false of the code, which the _violated theorems prove. C33_incremental_hit_violated: C33 is false of the code: an INCREMENTAL_INDEXING entry that is in a table is sent as an index, so the peer inserts nothing, but `update_request_dynamic_table` inserts it again. C33_repeated_violated: C33 is false of the code: whenever the client's table has room for all of it, a block in which some header to be indexed is already in a table leaves the two tables different, even in the number of their entries. C33_every_hit_violated: C33, how far it fails: in every state that the tables reach together, sending a header that is in a table with INCREMENTAL_INDEXING makes the two tables differ, unless the table holds nothing but copies of this header and has no room for another. What holds is in the other theorems. Missing from C33_tables_in_sync_partial: blocks with an INCREMENTAL_INDEXING entry that is already in a table (false, see below), and the exceptions of C20 and C31. Missing from C33_session_continues_partial: other blocks, as in `C33_tables_in_sync_partial`. Missing from C33_any_block_partial: that the two tables are the same, which is false of the code (`C33_repeated_violated`). Missing from C33_in_step_partial: the blocks that are read otherwise (C31), and those that ask to index a header that is in a table, for which it is false (`C33_every_hit_violated`). Missing from C33_exact_partial: that these are the same, which is false of the code (`C33_repeated_violated`); size updates, see `C33_any_block_partial`."
  },
  {
   "property": "C34",
   "status": "proved",
   "theorems": [
    "Mh2c.C34_never_indexed"
   ],
   "note": "Proved for all inputs the statement quantifies over."
  },
  {
   "property": "C35",
   "status": "proved",
   "theorems": [
    "Mh2c.C35_make_header_block",
    "Mh2c.C35_sendable"
   ],
   "note": "Proved for all inputs the statement quantifies over."
  },
  {
   "property": "C36",
   "status": "proved",
   "theorems": [
    "Mh2c.C36_data_round_trip"
   ],
   "note": "Proved for all inputs the statement quantifies over."
  },
  {
   "property": "C37",
   "status": "proved",
   "theorems": [
    "Mh2c.C37_headers_round_trip"
   ],
   "note": "Proved for all inputs the statement quantifies over."
  },
  {
   "property": "C38",
   "status": "proved",
   "theorems": [
    "Mh2c.C38_priority_round_trip"
   ],
   "note": "Proved for all inputs the statement quantifies over."
  },
  {
   "property": "C39",
   "status": "proved",
   "theorems": [
    "Mh2c.C39_rst_stream_round_trip"
   ],
   "note": "Proved for all inputs the statement quantifies over."
  },
  {
   "property": "C40",
   "status": "proved",
   "theorems": [
    "Mh2c.C40_settings_round_trip",
    "Mh2c.C40_make_payload"
   ],
   "note": "Proved for all inputs the statement quantifies over."
  },
  {
   "property": "C41",
   "status": "proved",
   "theorems": [
    "Mh2c.C41_push_promise_round_trip"
   ],
   "note": "Proved for all inputs the statement quantifies over."
  },
  {
   "property": "C42",
   "status": "proved",
   "theorems": [
    "Mh2c.C42_ping_round_trip"
   ],
   "note": "Proved for all inputs the statement quantifies over."
  },
  {
   "property": "C43",
   "status": "proved",
   "theorems": [
    "Mh2c.C43_goaway_round_trip"
   ],
   "note": "Proved for all inputs the statement quantifies over."
  },
  {
   "property": "C44",
   "status": "proved",
   "theorems": [
    "Mh2c.C44_window_update_round_trip"
   ],
   "note": "Proved for all inputs the statement quantifies over."
  },
  {
   "property": "C45",
   "status": "proved",
   "theorems": [
    "Mh2c.C45_continuation_round_trip"
   ],
   "note": "Proved for all inputs the statement quantifies over."
  },
  {
   "property": "C46",
   "status": "proved",
   "theorems": [
    "Mh2c.C46_announced_length"
   ],
   "note": "Proved for all inputs the statement quantifies over."
  },
  {
   "property": "C47",
   "status": "proved",
   "theorems": [
    "Mh2c.C47_stream",
    "Mh2c.C47_any_transport"
   ],
   "note": "Proved for all inputs the statement quantifies over."
  },
  {
   "property": "C48",
   "status": "proved",
   "theorems": [
    "Mh2c.C48_unknown_type"
   ],
   "note": "Proved for all inputs the statement quantifies over."
  },
  {
   "property": "C49",
   "status": "proved",
   "theorems": [
    "Mh2c.C49_priority",
    "Mh2c.C49_rst_stream",
    "Mh2c.C49_goaway",
    "Mh2c.C49_window_update"
   ],
   "note": "Proved for all inputs the statement quantifies over."
  },
  {
   "property": "C50",
   "status": "partial",
   "theorems": [
    "Mh2c.C50_malformed_settings_violated",
    "Mh2c.C50_well_formed_partial"
   ],
   "note": "The property as stated is false of the code, which the _violated theorems prove. C50_malformed_settings_violated: C50 is false of the code: a SETTINGS payload whose length is not a multiple of six is read past its end, whatever its contents. What holds is in the other theorems. Missing from C50_well_formed_partial: rejection of the other lengths, see `C50_malformed_settings_violated`."
  },
  {
   "property": "C51",
   "status": "partial",
   "theorems": [
    "Mh2c.C51_malformed_padding_violated",
    "Mh2c.C51_headers_partial",
    "Mh2c.C51_push_promise_partial"
   ],
   "note": "The property as stated is false of the code, which the _violated theorems prove. C51_malformed_padding_violated: C51 is false of the code: in a padded HEADERS or PUSH_PROMISE frame such a payload makes `build_frame` move iterators outside the buffer. What holds is in the other theorems. Missing from C51_headers_partial: rejection of bad pad lengths, see `C51_malformed_padding_violated`. Missing from C51_push_promise_partial: rejection of bad pad lengths, see `C51_malformed_padding_violated`."
  },
  {
   "property": "C52",
   "status": "partial",
   "theorems": [
    "Mh2c.C52_first_value_partial",
    "Mh2c.C52_last_value_violated"
   ],
   "note": "The property as stated is false of the code, which the _violated theorems prove. C52_last_value_violated: C52 is false of the code: with INITIAL_WINDOW_SIZE first 1, then 2, the client records 1. What holds is in the other theorems. Missing from C52_first_value_partial: the last one, as RFC 7540 6.5.3 asks (see `C52_last_value_violated`). They agree if no identifier is repeated."
  },
  {
   "property": "C53",
   "status": "proved",
   "theorems": [
    "Mh2c.C53_constructors"
   ],
   "note": "Proved for all inputs the statement quantifies over."
  },
  {
   "property": "C54",
   "status": "partial",
   "theorems": [
    "Mh2c.C54_low_bit_only_partial",
    "Mh2c.C54_goaway_reserved_violated",
    "Mh2c.C54_headers_exclusive_violated"
   ],
   "note": "The property as stated is false of the code, which the _violated theorems prove. C54_goaway_reserved_violated: C54 is false of GOAWAY: serializing a frame with a reserved field of 2 or more is an undefined shift. C54_headers_exclusive_violated: C54 is false of HEADERS: constructing a frame with PRIORITY and an exclusive field of 2 or more is an undefined shift. What holds is in the other theorems. Missing from C54_low_bit_only_partial: GOAWAY and HEADERS, see below."
  },
  {
   "property": "C55",
   "status": "proved",
   "theorems": [
    "Mh2c.C55_send",
    "Mh2c.C55_progress",
    "Mh2c.C55_failure"
   ],
   "note": "Proved for all inputs the statement quantifies over."
  },
  {
   "property": "C56",
   "status": "proved",
   "theorems": [
    "Mh2c.C56_receive",
    "Mh2c.C56_progress",
    "Mh2c.C56_failure"
   ],
   "note": "Proved for all inputs the statement quantifies over."
  },
  {
   "property": "C57",
   "status": "proved",
   "theorems": [
    "Mh2c.C57_same_result",
    "Mh2c.C57_same_outcome",
    "Mh2c.C57_progress"
   ],
   "note": "Proved for all inputs the statement quantifies over."
  },
  {
   "property": "C58",
   "status": "proved",
   "theorems": [
    "Mh2c.C58_one_frame",
    "Mh2c.C58_returned"
   ],
   "note": "Proved for all inputs the statement quantifies over."
  },
  {
   "property": "C59",
   "status": "proved",
   "theorems": [
    "Mh2c.C59_receive",
    "Mh2c.C59_send",
    "Mh2c.C59_request_table",
    "Mh2c.C59_histories"
   ],
   "note": "Proved for all inputs the statement quantifies over."
  },
  {
   "property": "C60",
   "status": "proved",
   "theorems": [
    "Mh2c.C60_throw_keeps_tables"
   ],
   "note": "Proved for all inputs the statement quantifies over."
  },
  {
   "property": "C61",
   "status": "partial",
   "theorems": [
    "Mh2c.C61_build_never_throws",
    "Mh2c.C61_build_raw",
    "Mh2c.C61_raw_never_delivered_violated",
    "Mh2c.C61_null_dereference_violated"
   ],
   "note": "The property as stated is false of the code, which the _violated theorems prove. C61_raw_never_delivered_violated: C61, negation of the second half. receive_frame never delivers a raw frame. C61_null_dereference_violated: C61, negation of the second half. For a HEADERS frame that is delivered by the transport, receive_frame dereferences a null pointer exactly if decoding the frame throws."
  },
  {
   "property": "C62",
   "status": "partial",
   "theorems": [
    "Mh2c.C62_header_table_size_violated",
    "Mh2c.C62_exact_partial"
   ],
   "note": "The property as stated is false of the code, which the _violated theorems prove. C62_header_table_size_violated: C62, negation. Every SETTINGS frame announcing a table size `v` resizes the response table to `v` (evicting entries) and leaves the request table alone. What holds is in the other theorems. Missing from C62_exact_partial: all other sizes, for which the property is false (`C62_header_table_size_violated`)."
  },
  {
   "property": "C63",
   "status": "proved",
   "theorems": [
    "Mh2c.C63_accounting"
   ],
   "note": "Proved for all inputs the statement quantifies over."
  },
  {
   "property": "C64",
   "status": "proved",
   "theorems": [
    "Mh2c.C64_constructor",
    "Mh2c.C64_otherwise_throws"
   ],
   "note": "Proved for all inputs the statement quantifies over."
  },
  {
   "property": "C65",
   "status": "proved",
   "theorems": [
    "Mh2c.C65_preface",
    "Mh2c.C65_progress"
   ],
   "note": "Proved for all inputs the statement quantifies over."
  },
  {
   "property": "C66",
   "status": "proved",
   "theorems": [
    "Mh2c.Sample.C66_returns",
    "Mh2c.Sample.C66_throws",
    "Mh2c.Sample.C66_ends"
   ],
   "note": "Proved for all inputs the statement quantifies over."
  },
  {
   "property": "C67",
   "status": "partial",
   "theorems": [
    "Mh2c.C67_independent_partial",
    "Mh2c.C67_settings_base_partial",
    "Mh2c.C67_settings_small_partial",
    "Mh2c.C67_base_change",
    "Mh2c.C67_settings_violated"
   ],
   "note": "The property as stated is false of the code, which the _violated theorems prove. C67_settings_violated: C67 is false of the code: on a stream on which a PING frame was printed before, a SETTINGS frame with INITIAL_WINDOW_SIZE 65535 is printed as `ffff`. Both frames can be received. What holds is in the other theorems. Missing from C67_independent_partial: SETTINGS, see `C67_settings_violated`. Missing from C67_settings_base_partial: independence of the base, see `C67_settings_violated`. Missing from C67_settings_small_partial: values of ten and more, see `C67_settings_violated`."
  },
  {
   "property": "C68",
   "status": "partial",
   "theorems": [
    "Mh2c.C68_data_partial",
    "Mh2c.C68_unprintable_violated"
   ],
   "note": "The property as stated is false of the code, which the _violated theorems prove. C68_unprintable_violated: C68 is false of the code: printing any other received DATA frame is undefined behaviour. What holds is in the other theorems. Missing from C68_data_partial: safety for the other frames, see `C68_unprintable_violated`."
  },
  {
   "property": "C69",
   "status": "partial",
   "theorems": [
    "Mh2c.C69_goaway_partial",
    "Mh2c.C69_unterminated_violated"
   ],
   "note": "The property as stated is false of the code, which the _violated theorems prove. C69_unterminated_violated: C69 is false of the code: debug data without a zero octet (any text a peer sends) is read past its end. What holds is in the other theorems. Missing from C69_goaway_partial: the other frames, see `C69_unterminated_violated`."
  },
  {
   "property": "C70",
   "status": "proved",
   "theorems": [
    "Mh2c.C70_printable",
    "Mh2c.C70_never_throws",
    "Mh2c.C70_made",
    "Mh2c.C70_made_never_throws"
   ],
   "note": "Proved for all inputs the statement quantifies over."
  },
  {
   "property": "C71",
   "status": "partial",
   "theorems": [
    "Mh2c.C71_exact_partial",
    "Mh2c.C71_between_partial",
    "Mh2c.C71_inside_violated",
    "Mh2c.C71_insertion_violated"
   ],
   "note": "The property as stated is false of the code, which the _violated theorems prove. C71_inside_violated: C71, where it fails. If the part of the block in the HEADERS frame cannot be decoded by itself - the split is inside a representation - receiving the HEADERS frame is undefined behaviour, although the same block in one frame is delivered. C71_insertion_violated: C71, where it fails. The block inserts `k: v` and then refers to the newest entry. In one frame the reference is resolved in the table as it was before the block (`x: y`); split between the two representations it is resolved in the table with `k: v`, as RFC 7541 demands: the header lists differ. What holds is in the other theorems. Missing from C71_exact_partial: splits inside a representation, see `C71_inside_violated`, and other references, for which it is false. Missing from C71_between_partial: every other split, see `C71_inside_violated` and `C71_insertion_violated`."
  },
  {
   "property": "C72",
   "status": "proved",
   "theorems": [
    "Mh2c.Sample.C72_normal_run",
    "Mh2c.Sample.C72_any_run",
    "Mh2c.Sample.C72_request_meaning"
   ],
   "note": "Proved for all inputs the statement quantifies over."
  },
  {
   "property": "C73",
   "status": "proved",
   "theorems": [
    "Mh2c.Sample.C73_sample",
    "Mh2c.C73_build",
    "Mh2c.C73_decode",
    "Mh2c.C73_encode",
    "Mh2c.C73_client",
    "Mh2c.C73_print"
   ],
   "note": "Proved for all inputs the statement quantifies over."
  },
  {
   "property": "C74",
   "status": "proved",
   "theorems": [
    "Mh2c.C74_text",
    "Mh2c.C74_data",
    "Mh2c.C74_goaway",
    "Mh2c.C74_numeral"
   ],
   "note": "Proved for all inputs the statement quantifies over."
  },
  {
   "property": "C75",
   "status": "partial",
   "theorems": [
    "Mh2c.C75_error_names_partial",
    "Mh2c.C75_error_2_violated",
    "Mh2c.C75_setting_names_partial",
    "Mh2c.C75_setting_3_violated"
   ],
   "note": "The property as stated is false of the code, which the _violated theorems prove. C75_error_2_violated: C75 is false of the code: INTERNAL_ERROR (2) is printed as INTERNAL_ERRPR. C75_setting_3_violated: C75 is false of the code: SETTINGS_MAX_CONCURRENT_STREAMS (3) is printed without its last letter. What holds is in the other theorems. Missing from C75_error_names_partial: INTERNAL_ERROR, see `C75_error_2_violated`. Missing from C75_setting_names_partial: setting 3, see `C75_setting_3_violated`."
  },
  {
   "property": "C76",
   "status": "partial",
   "theorems": [
    "Mh2c.C76_identifies_partial",
    "Mh2c.C76_headers_partial",
    "Mh2c.C76_push_promise_partial",
    "Mh2c.C76_continuation_partial",
    "Mh2c.C76_headers_violated",
    "Mh2c.C76_goaway_exact_partial",
    "Mh2c.C76_goaway_violated"
   ],
   "note": "The property as stated is false of the code, which the _violated theorems prove. C76_headers_violated: C76 is false of the code for HEADERS: a peer can send one header whose value contains a line break, so that the text is the same as for another frame of the same length with two headers. C76_goaway_violated: C76 is false of the code for GOAWAY: debug data is cut at its first zero octet. What holds is in the other theorems. Missing from C76_identifies_partial: frames with a header block, see `C76_headers_violated` and `C76_headers_partial`; GOAWAY, see `C76_goaway_exact_partial`. Missing from C76_headers_partial: other blocks, see `C76_headers_violated`; how each header was represented on the wire is not shown. Missing from C76_push_promise_partial: other blocks, as for HEADERS. Missing from C76_continuation_partial: other blocks, as for HEADERS. Missing from C76_goaway_exact_partial: the octets after it, see `C76_goaway_violated`."
  },
  {
   "property": "C77",
   "status": "proved",
   "theorems": [
    "Mh2c.C77_listing"
   ],
   "note": "Proved for all inputs the statement quantifies over."
  },
  {
   "property": "C78",
   "status": "partial",
   "theorems": [
    "Mh2c.C78_exact",
    "Mh2c.C78_equivalence",
    "Mh2c.C78_text",
    "Mh2c.C78_wire_partial",
    "Mh2c.C78_sent_headers_partial",
    "Mh2c.C78_sent_push_promise_partial",
    "Mh2c.C78_sent_continuation_partial",
    "Mh2c.C78_wire_violated"
   ],
   "note": "The property as stated is false of the code, which the _violated theorems prove. C78_wire_violated: C78 is false of the code on the wire: two HEADERS frames with the same arguments but for the encoding mode compare equal and are sent as different octets (`X` takes eight bits either way). What holds is in the other theorems. Missing from C78_wire_partial: frames with a header block, see `C78_wire_violated`. Missing from C78_sent_headers_partial: other modes and tables, see `C78_wire_violated`. Missing from C78_sent_push_promise_partial: as for HEADERS. Missing from C78_sent_continuation_partial: as for HEADERS."
  },
  {
   "property": "C79",
   "status": "partial",
   "theorems": [
    "Mh2c.C79_cut_violated",
    "Mh2c.C79_cut_block_violated",
    "Mh2c.C79_complete_partial",
    "Mh2c.C79_empty_name_violated",
    "Mh2c.C79_longer_integer_violated",
    "Mh2c.C79_empty_string_violated"
   ],
   "note": "The property as stated is false of the code, which the _violated theorems prove. C79_cut_violated: C79 is false of the code: a header field representation cut short anywhere is not rejected, the decoder runs past the end of its input. C79_cut_block_violated: C79, the same for header blocks: whatever is left of a block that was decoded either decodes to the first headers of it or is undefined behaviour; there is no third outcome, in particular no exception. C79_empty_name_violated: The condition on the table is needed: after a header with an empty name has been inserted, a complete literal that refers to it is read past its end. C79_longer_integer_violated: The condition on the integers is needed: a complete literal whose index 15 takes three octets where two do, and whose value is `a`, is read past its end. C79_empty_string_violated: The condition on the platform is needed: a complete literal with an empty value. What holds is in the other theorems. Missing from C79_complete_partial: incomplete blocks (false, see above), and tables with an empty name, longer integers and platforms that object to `v[v.size()]`, for each of which it is false (see below)."
  },
  {
   "property": "C80",
   "status": "proved",
   "theorems": [
    "Mh2c.C80_build_fixed",
    "Mh2c.C80_build_settings",
    "Mh2c.C80_build_blocks",
    "Mh2c.C80_build_complete",
    "Mh2c.C80_receive_fixed",
    "Mh2c.C80_receive_settings",
    "Mh2c.C80_receive_blocks"
   ],
   "note": "Proved for all inputs the statement quantifies over."
  },
  {
   "property": "C81",
   "status": "partial",
   "theorems": [
    "Mh2c.C81_endpoint_partial",
    "Mh2c.C81_connects",
    "Mh2c.C81_endpoint_unique_partial",
    "Mh2c.C81_endpoint_nul_violated"
   ],
   "note": "The property as stated is false of the code, which the _violated theorems prove. C81_endpoint_nul_violated: C81 is false for host names with a NUL: everything from there on, the port included, is dropped, so the client connects to another endpoint than it was given. What holds is in the other theorems. Missing from C81_endpoint_partial: host names with NUL, see the violation below. Missing from C81_endpoint_unique_partial: host names with NUL."
  },
  {
   "property": "C82",
   "status": "partial",
   "theorems": [
    "Mh2c.C82_trusted_partial",
    "Mh2c.C82_host_name_violated",
    "Mh2c.C82_server_name_violated"
   ],
   "note": "The property as stated is false of the code, which the _violated theorems prove. C82_host_name_violated: C82 is false of the code: a server with a trusted certificate for any other names is accepted. Whatever the names, construction succeeds as soon as the other steps do. C82_server_name_violated: C82. RFC 7540 9.2 asks for the server name indication; no run of the constructor sets one. What holds is in the other theorems. Missing from C82_trusted_partial: the host name, see below."
  },
  {
   "property": "C83",
   "status": "partial",
   "theorems": [
    "Mh2c.C83_ownership",
    "Mh2c.C83_process",
    "Mh2c.C83_init_once",
    "Mh2c.C83_init_before_connect",
    "Mh2c.C83_init_first_violated"
   ],
   "note": "The property as stated is false of the code, which the _violated theorems prove. C83_init_first_violated: C83. But the first context is created before that: OpenSSL before 1.1 requires the opposite."
  },
  {
   "property": "C84",
   "status": "partial",
   "theorems": [
    "Mh2c.C84_blocks_partial",
    "Mh2c.C84_legal_accepted",
    "Mh2c.C84_accepted_partial",
    "Mh2c.C84_layout_violated",
    "Mh2c.C84_any_stream_partial",
    "Mh2c.C84_stream_violated"
   ],
   "note": "The property as stated is false of the code, which the _violated theorems prove. C84_layout_violated: C84 is false of the code: these frames break the rules and are delivered all the same. DATA with more padding than payload, PRIORITY and RST_STREAM with trailing octets, SETTINGS acknowledgements that carry settings, PING of any length, WINDOW_UPDATE by nothing. C84_stream_violated: C84 is false of the code: every frame that is delivered is also delivered on a stream the RFC forbids for its type (WINDOW_UPDATE is allowed on all). What holds is in the other theorems. Missing from C84_blocks_partial: the stream identifiers, which are not checked (`C84_stream_violated`). Missing from C84_accepted_partial: the rules that are not checked, see the violations below. Missing from C84_any_stream_partial: the rules on stream identifiers, none of which is checked."
  },
  {
   "property": "C85",
   "status": "partial",
   "theorems": [
    "Mh2c.C85_exact_partial",
    "Mh2c.C85_server_stream_partial",
    "Mh2c.C85_any_transport_partial",
    "Mh2c.C85_reference_violated"
   ],
   "note": "The property as stated is false of the code, which the _violated theorems prove. C85_reference_violated: C85, negation. A server sends one HEADERS frame that inserts `k: v` and then refers to it. A new client, whatever the transport does and whatever follows, does not receive these headers. What holds is in the other theorems. Missing from C85_exact_partial: frames with other references, and the servers that `ServerMeans` leaves out. Missing from C85_server_stream_partial: the servers excluded in `ServerSends`, for which it is false (C20, C31, C32, C62, C71). Missing from C85_any_transport_partial: as in `C85_server_stream_partial`."
  },
  {
   "property": "C86",
   "status": "proved",
   "theorems": [
    "Mh2c.C86_block",
    "Mh2c.C86_received",
    "Mh2c.C86_attained"
   ],
   "note": "Proved for all inputs the statement quantifies over."
  },
  {
   "property": "C87",
   "status": "proved",
   "theorems": [
    "Mh2c.C87_frame",
    "Mh2c.C87_conversation"
   ],
   "note": "Proved for all inputs the statement quantifies over."
  },
  {
   "property": "C88",
   "status": "proved",
   "theorems": [
    "Mh2c.C88_receiving",
    "Mh2c.C88_sending"
   ],
   "note": "Proved for all inputs the statement quantifies over."
  },
  {
   "property": "C89",
   "status": "proved",
   "theorems": [
    "Mh2c.C89_sent",
    "Mh2c.C89_all_sent",
    "Mh2c.C89_received"
   ],
   "note": "Proved for all inputs the statement quantifies over."
  },
  {
   "property": "C90",
   "status": "partial",
   "theorems": [
    "Mh2c.C90_update_partial",
    "Mh2c.C90_whole_block_partial",
    "Mh2c.C90_all_or_nothing_violated"
   ],
   "note": "The property as stated is false of the code, which the _violated theorems prove. C90_all_or_nothing_violated: C90 is false of the code: a call that throws has applied part of the block. What holds is in the other theorems. Missing from C90_update_partial: all or nothing, false of the code (see below); a larger header must empty the table. Missing from C90_whole_block_partial: blocks with a mistyped entry, for which it is false."
  },
  {
   "property": "C91",
   "status": "partial",
   "theorems": [
    "Mh2c.C91_server_reads_partial",
    "Mh2c.C91_exact_partial",
    "Mh2c.C91_wrong_header_violated"
   ],
   "note": "The property as stated is false of the code, which the _violated theorems prove. C91_wrong_header_violated: C91, negation. A new client over a transport that takes everything makes three requests with the headers `a: 1` and `b: 2`, `a: 1`, and `a: 1`. There is just one way for a server to read them, and in it the third has the header `b: 2`. What holds is in the other theorems. Missing from C91_server_reads_partial: other blocks, for which it is false (C31, C33). Missing from C91_exact_partial: the histories in which this is not so; and, as a hypothesis, what becomes of the entries that `Clear` leaves out."
  },
  {
   "property": "C92",
   "status": "partial",
   "theorems": [
    "Mh2c.C92_accounting_partial",
    "Mh2c.C92_write",
    "Mh2c.C92_iterator_write_violated",
    "Mh2c.C92_later_call_violated"
   ],
   "note": "The property as stated is false of the code, which the _violated theorems prove. C92_iterator_write_violated: C92 is false of the code: entries can be written through the iterators of a table, and whenever the new header has another size, the recorded size is wrong from then on. C92_later_call_violated: And then an ordinary call can be undefined: the entry is written, then evicted with a size it never had. What holds is in the other theorems. Missing from C92_accounting_partial: other writes, see below."
  },
  {
   "property": "C93",
   "status": "partial",
   "theorems": [
    "Mh2c.C93_tables_partial",
    "Mh2c.C93_session_partial",
    "Mh2c.C93_client_partial",
    "Mh2c.C93_growth_violated"
   ],
   "note": "The property as stated is false of the code, which the _violated theorems prove. C93_growth_violated: C93 is false of the code for sizes beyond the peer's: nothing is signalled, the client goes on using entries the peer has evicted, and the peer cannot decode the block. (The first block sets both tables to 40 octets to keep the example short.) What holds is in the other theorems. Missing from C93_tables_partial: larger sizes, see below. Missing from C93_session_partial: larger sizes, as above. Missing from C93_client_partial: larger sizes, as above."
  },
  {
   "property": "C94",
   "status": "proved",
   "theorems": [
    "Mh2c.C94_set_header",
    "Mh2c.C94_built",
    "Mh2c.C94_default_never_indexed"
   ],
   "note": "Proved for all inputs the statement quantifies over."
  },
  {
   "property": "C95",
   "status": "proved",
   "theorems": [
    "Mh2c.C95_block_size",
    "Mh2c.C95_frame_size"
   ],
   "note": "Proved for all inputs the statement quantifies over."
  },
  {
   "property": "C96",
   "status": "partial",
   "theorems": [
    "Mh2c.C96_received_frame_partial",
    "Mh2c.C96_relay_partial",
    "Mh2c.C96_relay_violated"
   ],
   "note": "The property as stated is false of the code, which the _violated theorems prove. C96_relay_violated: C96 is false of SETTINGS frames: RFC 7540 6.5.3 has the receiver process a repeated identifier in order, so the window of the peer behind a relay should end up 2, but it is told 1 only. What holds is in the other theorems. Missing from C96_received_frame_partial: frames whose sender departed from the RFC in the ways of `Plain`, and SETTINGS frames with identifiers out of order or repeated, for which it is false. Missing from C96_relay_partial: as in `C96_received_frame_partial`."
  },
  {
   "property": "C97",
   "status": "partial",
   "theorems": [
    "Mh2c.C97_exact_partial",
    "Mh2c.C97_skipped_partial",
    "Mh2c.C97_rejected_block_violated"
   ],
   "note": "The property as stated is false of the code, which the _violated theorems prove. C97_rejected_block_violated: C97 is false where header blocks are concerned. Both ends hold `x: y`. The server sends, in accordance with RFC 7541, a promise that inserts `k: v` and then refers to `x: y`, and a response with a reference to `k: v`. The client rejects the first (the reference is looked up in the table of before the insertion) and delivers the second as `x: y`: wrong, and without a sign of it. What holds is in the other theorems. Missing from C97_exact_partial: other references. Missing from C97_skipped_partial: the changes the frame's header block makes to the server's table (see `C97_rejected_block_violated`)."
  },
  {
   "property": "C98",
   "status": "partial",
   "theorems": [
    "Mh2c.C98_before_failure_partial",
    "Mh2c.C98_next_frame_violated",
    "Mh2c.C98_exact_partial"
   ],
   "note": "The property as stated is false of the code, which the _violated theorems prove. C98_next_frame_violated: C98 is false of the code: a PING fails, the program goes on and its RST_STREAM is reported as sent. On the wire is the beginning of the PING and then the RST_STREAM: the peer finds a PING on stream 0x403, with data that were the RST_STREAM's, and no RST_STREAM. What holds is in the other theorems. Missing from C98_before_failure_partial: sending on after the failure (see `C98_next_frame_violated`). Missing from C98_exact_partial: the other failures."
  },
  {
   "property": "C99",
   "status": "partial",
   "theorems": [
    "Mh2c.Sample.C99_returns_partial",
    "Mh2c.Sample.C99_complete_partial",
    "Mh2c.Sample.C99_no_body_violated",
    "Mh2c.Sample.C99_reset_violated",
    "Mh2c.Sample.C99_other_stream_violated"
   ],
   "note": "The property as stated is false of the code, which the _violated theorems prove. C99_no_body_violated: C99 is false of the code for a response without a body: HEADERS `:status 204` with END_STREAM on stream 1 ends the response, but the loop reads on, and throws when the server closes. C99_reset_violated: C99 is false of the code for a response that is reset: RST_STREAM (REFUSED_STREAM) on stream 1. C99_other_stream_violated: C99 is false of the code for DATA of another stream: END_STREAM on stream 3 ends the loop though nothing of the response has come. What holds is in the other theorems. Missing from C99_returns_partial: responses that end with HEADERS or RST_STREAM, and DATA frames of other streams; see below. Missing from C99_complete_partial: as above."
  },
  {
   "property": "C100",
   "status": "partial",
   "theorems": [
    "Mh2c.C100_header",
    "Mh2c.C100_payload_partial",
    "Mh2c.C100_padded_data_violated",
    "Mh2c.C100_window_violated"
   ],
   "note": "The property as stated is false of the code, which the _violated theorems prove. C100_padded_data_violated: C100 is false of the code for DATA: `get_payload` of a frame with padding gives the whole payload, pad length and padding included, never just the data. C100_window_violated: C100 is false of the code for WINDOW_UPDATE: RFC 7540 6.9 has the receiver ignore the reserved bit, but `get_payload` includes it, so the increment appears larger by 2^31. What holds is in the other theorems. Missing from C100_payload_partial: DATA frames with padding and WINDOW_UPDATE frames with the reserved bit set, see below."
  },
  {
   "property": "C101",
   "status": "proved",
   "theorems": [
    "Mh2c.C101_ignored"
   ],
   "note": "Proved for all inputs the statement quantifies over."
  },
  {
   "property": "C102",
   "status": "partial",
   "theorems": [
    "Mh2c.C102_obeys",
    "Mh2c.C102_limit_partial",
    "Mh2c.C102_larger_violated"
   ],
   "note": "The property as stated is false of the code, which the _violated theorems prove. C102_larger_violated: C102 is false of the code: a new client has announced no size, so 4096 is the limit, but the frame is delivered and the table then holds 4130 octets of at most 2^30. What holds is in the other theorems. Missing from C102_limit_partial: peers that name larger sizes, which RFC 7541 6.3 tells the client to treat as an error; see below."
  },
  {
   "property": "C103",
   "status": "partial",
   "theorems": [
    "Mh2c.C103_one_frame_partial",
    "Mh2c.C103_data_read_as_frames_violated",
    "Mh2c.C103_exact_partial"
   ],
   "note": "The property as stated is false of the code, which the _violated theorems prove. C103_data_read_as_frames_violated: C103 is false of longer data. Given any octets, frames of an attacker's choice for instance, of length 2^24 after any beginning: sent as the data of one DATA frame they are read as a DATA frame with the beginning only, followed by the given octets as frames; the receiving end of this library reads them so, too. What holds is in the other theorems. Missing from C103_one_frame_partial: longer data, see below. Missing from C103_exact_partial: longer data."
  },
  {
   "property": "C104",
   "status": "partial",
   "theorems": [
    "Mh2c.C104_sent_violated",
    "Mh2c.C104_received_violated",
    "Mh2c.C104_bounded_partial"
   ],
   "note": "The property as stated is false of the code, which the _violated theorems prove. C104_sent_violated: C104 is false of what is sent: RFC 7540 4.2 has a peer that has announced nothing else reject frames of more than 16384 octets. Nothing keeps a program from sending them. C104_received_violated: C104 is false of what is received: a client that has announced nothing has to reject frames of more than 16384 octets, but every DATA frame up to 2^24 - 1 octets is delivered. What holds is in the other theorems. Missing from C104_bounded_partial: the limit of 16384, see above."
  },
  {
   "property": "C105",
   "status": "partial",
   "theorems": [
    "Mh2c.C105_between_partial",
    "Mh2c.C105_interrupted_violated"
   ],
   "note": "The property as stated is false of the code, which the _violated theorems prove. C105_interrupted_violated: C105 is false of the code: HEADERS without END_HEADERS on stream 1, PING, and CONTINUATION on stream 3 are an error twice over; all three are delivered. What holds is in the other theorems. Missing from C105_between_partial: such a frame between HEADERS and CONTINUATION is an error (RFC 7540 4.3), see below."
  },
  {
   "property": "C106",
   "status": "partial",
   "theorems": [
    "Mh2c.C106_survives_partial",
    "Mh2c.C106_evicted_violated"
   ],
   "note": "The property as stated is false of the code, which the _violated theorems prove. C106_evicted_violated: C106 is false of the code for every other entry: the insertion removes the entry and then reads it. Inserting a copy of the same entry succeeds. What holds is in the other theorems. Missing from C106_survives_partial: the other entries, see below."
  },
  {
   "property": "C107",
   "status": "partial",
   "theorems": [
    "Mh2c.C107_ordinary_partial",
    "Mh2c.C107_string_exact",
    "Mh2c.C107_longer_violated"
   ],
   "note": "The property as stated is false of the code, which the _violated theorems prove. C107_longer_violated: C107. Text outside the ordinary characters: a header with a name of the static table and a value that consists of one or more other octets takes more octets with Huffman coding than without, whenever it is sent as a literal. What holds is in the other theorems. Missing from C107_ordinary_partial: header text with other characters, see `C107_longer_violated`."
  },
  {
   "property": "C108",
   "status": "partial",
   "theorems": [
    "Mh2c.Sample.C108_window_partial",
    "Mh2c.Sample.C108_long_response_violated"
   ],
   "note": "The property as stated is false of the code, which the _violated theorems prove. C108_long_response_violated: C108 is false of the code: a run of the sample that ends normally has received at most 65535 octets of DATA, if the server keeps to the window the sample has granted (RFC 7540 6.9). A longer response does not arrive. What holds is in the other theorems. Missing from C108_window_partial: more octets, see `C108_long_response_violated`."
  },
  {
   "property": "C109",
   "status": "partial",
   "theorems": [
    "Mh2c.Sample.C109_answered_partial",
    "Mh2c.Sample.C109_unanswered_violated",
    "Mh2c.Sample.C109_second_settings_violated"
   ],
   "note": "The property as stated is false of the code, which the _violated theorems prove. C109_unanswered_violated: C109 is false of the code: the server sends SETTINGS, PING and a response of one octet. The run ends normally, the PING was received and printed, and the server has read no PING frame. C109_second_settings_violated: C109 is false of the code: the server changes its SETTINGS before the response. It reads two SETTINGS frames, of which one is an acknowledgement. What holds is in the other theorems. Missing from C109_answered_partial: answers to every other sequence of frames, see `C109_unanswered_violated`."
  },
  {
   "property": "C110",
   "status": "partial",
   "theorems": [
    "Mh2c.C110_received_violated",
    "Mh2c.C110_sent_violated"
   ],
   "note": "The property as stated is false of the code, which the _violated theorems prove. C110_received_violated: C110 is false of what is received: every malformed response (of non-empty names and values up to 126 octets), sent in one HEADERS frame as plain literals, is delivered as it is, in every state of the client. The literals do mean that header list. C110_sent_violated: C110 is false of what is sent: every malformed request (without the mistyped name of C31) can be put in a HEADERS frame, and a conforming server that holds the client's table reads exactly that header list."
  },
  {
   "property": "C111",
   "status": "partial",
   "theorems": [
    "Mh2c.C111_init_once",
    "Mh2c.C111_init_before_connect",
    "Mh2c.C111_no_deadlock",
    "Mh2c.C111_ownership",
    "Mh2c.C111_init_first_violated"
   ],
   "note": "The property as stated is false of the code, which the _violated theorems prove. C111_init_first_violated: C111, where it fails: a thread can create its context while another one is still initialising the library; OpenSSL before 1.1 requires the initialisation to be complete."
  },
  {
   "property": "C112",
   "status": "partial",
   "theorems": [
    "Mh2c.C112_body_partial",
    "Mh2c.C112_padded_violated"
   ],
   "note": "The property as stated is false of the code, which the _violated theorems prove. C112_padded_violated: C112, where it fails: as soon as one DATA frame on the stream has padding - a single octet is enough, and servers pad to hide lengths - what the caller puts together is not the body, but longer. What holds is in the other theorems. Missing from C112_body_partial: frames with padding, for which it is false, see below."
  },
  {
   "property": "C113",
   "status": "partial",
   "theorems": [
    "Mh2c.C113_prepared_partial",
    "Mh2c.C113_no_reference_partial",
    "Mh2c.C113_insertion_violated"
   ],
   "note": "The property as stated is false of the code, which the _violated theorems prove. C113_insertion_violated: C113, where it fails: in every state that the tables reach together, a frame made with a header that is only in the dynamic table no longer means that header once any other header has been inserted, sent and reported in order. What holds is in the other theorems. Missing from C113_prepared_partial: the blocks where this is not so; `hempty` is explained at `C31_exact_partial`. Missing from C113_no_reference_partial: as in `C113_prepared_partial`."
  },
  {
   "property": "C114",
   "status": "proved",
   "theorems": [
    "Mh2c.C114_remembered",
    "Mh2c.C114_two_octets",
    "Mh2c.C114_repeated_request"
   ],
   "note": "Proved for all inputs the statement quantifies over."
  },
  {
   "property": "C115",
   "status": "proved",
   "theorems": [
    "Mh2c.C115_byte_order",
    "Mh2c.C115_same_or_undefined",
    "Mh2c.C115_histories"
   ],
   "note": "Proved for all inputs the statement quantifies over."
  },
  {
   "property": "C116",
   "status": "proved",
   "theorems": [
    "Mh2c.C116_build",
    "Mh2c.C116_receive",
    "Mh2c.C116_session"
   ],
   "note": "Proved for all inputs the statement quantifies over."
  },
  {
   "property": "C117",
   "status": "proved",
   "theorems": [
    "Mh2c.C117_call",
    "Mh2c.C117_session",
    "Mh2c.C117_one_write",
    "Mh2c.C117_two_reads"
   ],
   "note": "Proved for all inputs the statement quantifies over."
  },
  {
   "property": "C118",
   "status": "partial",
   "theorems": [
    "Mh2c.C118_alone",
    "Mh2c.C118_send_receive",
    "Mh2c.C118_progress",
    "Mh2c.C118_whole_partial",
    "Mh2c.C118_mixed_violated",
    "Mh2c.C118_misread_violated",
    "Mh2c.C118_receivers_violated"
   ],
   "note": "The property as stated is false of the code, which the _violated theorems prove. C118_mixed_violated: C118 is false of the code for two threads that send: as soon as the transport takes only a part of a frame, all of the other thread's frame can come between, and both calls return. C118_misread_violated: C118, what that means to the peer: two threads send a PING each, with data `da` and `db`. If the transport takes the first nine octets of the one, the peer reads a PING with data that neither has sent, and then octets that are no frame of either. C118_receivers_violated: C118 is false of the code for two threads that receive, too: the server sends two PINGs; one thread reads the header of the first and then, as its data, octets of the header of the second: it is given a PING that the server has not sent (unless these happen to be the data). What holds is in the other theorems. Missing from C118_whole_partial: transports that take a part of a buffer, see `C118_mixed_violated`."
  },
  {
   "property": "C119",
   "status": "proved",
   "theorems": [
    "Mh2c.C119_any_octets",
    "Mh2c.C119_data",
    "Mh2c.C119_priority",
    "Mh2c.C119_rst_stream",
    "Mh2c.C119_settings",
    "Mh2c.C119_ping",
    "Mh2c.C119_goaway",
    "Mh2c.C119_window_update"
   ],
   "note": "Proved for all inputs the statement quantifies over."
  },
  {
   "property": "C120",
   "status": "proved",
   "theorems": [
    "Mh2c.C120_runtime_error",
    "Mh2c.C120_invalid_argument",
    "Mh2c.C120_out_of_range",
    "Mh2c.C120_send",
    "Mh2c.C120_make"
   ],
   "note": "Proved for all inputs the statement quantifies over."
  },
  {
   "property": "C121",
   "status": "proved",
   "theorems": [
    "Mh2c.C121_accepts",
    "Mh2c.C121_rejects",
    "Mh2c.C121_undefined",
    "Mh2c.C121_frames"
   ],
   "note": "Proved for all inputs the statement quantifies over."
  },
  {
   "property": "C122",
   "status": "proved",
   "theorems": [
    "Mh2c.C122_call",
    "Mh2c.C122_throws",
    "Mh2c.C122_session"
   ],
   "note": "Proved for all inputs the statement quantifies over."
  },
  {
   "property": "C123",
   "status": "partial",
   "theorems": [
    "Mh2c.C123_forward_partial",
    "Mh2c.C123_one_header_partial",
    "Mh2c.C123_exact_partial",
    "Mh2c.C123_index_violated",
    "Mh2c.C123_never_indexed_violated"
   ],
   "note": "The property as stated is false of the code, which the _violated theorems prove. C123_index_violated: C123 is false of the code for headers that came as an index: if such a header, alone in its frame, is in none of the tables of the other connection, the server there does not read it. C123_never_indexed_violated: C123 is false of the code for never indexed headers: RFC 7541 6.2.3 demands that they are sent on as never indexed, but one that is in a table of the other connection is sent as an index. What holds is in the other theorems. Missing from C123_forward_partial: headers that came as an index and are not in the tables of the other connection, never indexed headers that are; and the limits of C31 (the mistyped name, references after an insertion in the same block). Missing from C123_one_header_partial: as in `C123_forward_partial`. Missing from C123_exact_partial: the blocks where this is not so. (`hempty`: see `C31_exact_partial`.)"
  },
  {
   "property": "C124",
   "status": "proved",
   "theorems": [
    "Mh2c.C124_entry",
    "Mh2c.C124_block",
    "Mh2c.C124_headers",
    "Mh2c.C124_push_promise",
    "Mh2c.C124_continuation"
   ],
   "note": "Proved for all inputs the statement quantifies over."
  },
  {
   "property": "C125",
   "status": "partial",
   "theorems": [
    "Mh2c.C125_exact_partial",
    "Mh2c.C125_static_violated",
    "Mh2c.C125_dynamic_violated"
   ],
   "note": "The property as stated is false of the code, which the _violated theorems prove. C125_static_violated: C125 is false of the code for these five names, and for no other name of the static table: they are there, but not with an empty value, so they are spelled out with every value that is not there. C125_dynamic_violated: C125 is false of the code for the dynamic table, which is searched for whole headers only: a header with the name of an entry, but another value, is spelled out unless the static table has the name. What holds is in the other theorems. Missing from C125_exact_partial: the other names of the static table and those of the dynamic table, see below."
  },
  {
   "property": "C126",
   "status": "proved",
   "theorems": [
    "Mh2c.C126_understood",
    "Mh2c.C126_response_repaired",
    "Mh2c.C126_request_repaired"
   ],
   "note": "Proved for all inputs the statement quantifies over."
  },
  {
   "property": "C127",
   "status": "partial",
   "theorems": [
    "Mh2c.C127_sent_exact_partial",
    "Mh2c.C127_promise_exact_partial",
    "Mh2c.C127_sent_partial",
    "Mh2c.C127_sent_violated",
    "Mh2c.C127_received"
   ],
   "note": "The property as stated is false of the code, which the _violated theorems prove. C127_sent_violated: C127 is false of the code: 256 octets 0x82 given as padding of a HEADERS frame reach the peer as 256 further headers `:method: GET`, whatever the header block, its octets and the tables are. What holds is in the other theorems. Missing from C127_sent_exact_partial: a padding is never read as headers; see `C127_sent_violated`. Missing from C127_promise_exact_partial: the same. Missing from C127_sent_partial: longer paddings, see `C127_sent_violated`."
  },
  {
   "property": "C128",
   "status": "proved",
   "theorems": [
    "Mh2c.C128_request",
    "Mh2c.C128_response",
    "Mh2c.C128_unreported",
    "Mh2c.C128_secret"
   ],
   "note": "Proved for all inputs the statement quantifies over."
  },
  {
   "property": "C129",
   "status": "proved",
   "theorems": [
    "Mh2c.C129_between",
    "Mh2c.C129_interleaving"
   ],
   "note": "Proved for all inputs the statement quantifies over."
  },
  {
   "property": "C130",
   "status": "partial",
   "theorems": [
    "Mh2c.C130_formatting_partial",
    "Mh2c.C130_formatting_violated"
   ],
   "note": "The property as stated is false of the code, which the _violated theorems prove. C130_formatting_violated: C130 is false of the code: after a PING frame was printed on a stream with the formatting streams start with, the program's own `255` comes out as `ff` and its `7` in a field of three as `007`. What holds is in the other theorems. Missing from C130_formatting_partial: frames that print octets, see `C130_formatting_violated`."
  },
  {
   "property": "C131",
   "status": "partial",
   "theorems": [
    "Mh2c.C131_models_agree",
    "Mh2c.C131_independent_partial",
    "Mh2c.C131_width_partial",
    "Mh2c.C131_octets_text",
    "Mh2c.C131_settings_text",
    "Mh2c.C131_table_text",
    "Mh2c.C131_showbase_violated",
    "Mh2c.C131_left_violated",
    "Mh2c.C131_text",
    "Mh2c.C131_data_text"
   ],
   "note": "The property as stated is false of the code, which the _violated theorems prove. C131_showbase_violated: C131 is false of the code: on a stream with `std::showbase` the octets of a PING frame get a prefix, except those that are zero. C131_left_violated: C131 is false of the code: on a stream with `std::left` the octet 1 of a PING frame comes out as `10`. What holds is in the other theorems. Missing from C131_independent_partial: those frames on streams that differ in this, see `C131_showbase_violated`, `C131_left_violated` and `C67_settings_violated`; streams with a width, see `C131_width_partial`. Missing from C131_width_partial: independence of the width."
  },
  {
   "property": "C132",
   "status": "partial",
   "theorems": [
    "Mh2c.C132_octets_partial",
    "Mh2c.C132_left_violated",
    "Mh2c.C132_identifies_partial",
    "Mh2c.C132_headers_partial",
    "Mh2c.C132_push_promise_partial"
   ],
   "note": "The property as stated is false of the code, which the _violated theorems prove. C132_left_violated: C132 is false of the code: on a stream with `std::left` two received PING frames with different data print the same text. What holds is in the other theorems. Missing from C132_octets_partial: left-adjusted streams, see `C132_left_violated`. Missing from C132_identifies_partial: frames that print octets on left-adjusted streams, see `C132_left_violated`; frames with a header block and GOAWAY, which do not identify the frame on any stream, see `C76_headers_violated`. Missing from C132_headers_partial: padding on left-adjusted streams, see `C132_left_violated`; other blocks, see `C76_headers_violated`. Missing from C132_push_promise_partial: padding on left-adjusted streams, see `C132_left_violated`; other blocks, as for HEADERS."
  },
  {
   "property": "C133",
   "status": "partial",
   "theorems": [
    "Mh2c.C133_titles_partial",
    "Mh2c.C133_texts_partial",
    "Mh2c.C133_frames_partial",
    "Mh2c.C133_shown_partial",
    "Mh2c.C133_sample_partial",
    "Mh2c.C133_forged_violated",
    "Mh2c.Sample.C133_failed_run_partial",
    "Mh2c.Sample.C133_failed_partial"
   ],
   "note": "The property as stated is false of the code, which the _violated theorems prove. C133_forged_violated: C133 is false of the code: there are a GOAWAY frame whose debug data has lines that look like a SETTINGS frame, and another GOAWAY frame, both as they are received, such that printing the first alone and printing the second and then a SETTINGS frame give the same log. What holds is in the other theorems. Missing from C133_titles_partial: frames with such a line in a header or in debug data, see `C133_forged_violated`. Missing from C133_texts_partial: as in `C133_titles_partial`. Missing from C133_frames_partial: frames with a header block and GOAWAY, the text of which does not say everything (`C76_headers_violated`, `C76_goaway_violated`), and left-adjusted streams (`C132_left_violated`). Missing from C133_shown_partial: header blocks with newlines, and debug data with a line that looks like a title, see `C133_forged_violated`; left-adjusted streams, see `C132_left_violated`; what is not shown, see `C76_goaway_violated`. Missing from C133_sample_partial: as in `C133_titles_partial`. Missing from C133_failed_run_partial: frames with a line in a header or in debug data that starts with an equals sign, as in `C133_titles_partial`. Missing from C133_failed_partial: frames with such a line, as in `C133_titles_partial`."
  },
  {
   "property": "C134",
   "status": "proved",
   "theorems": [
    "Mh2c.C134_huffman",
    "Mh2c.C134_receive",
    "Mh2c.C134_same",
    "Mh2c.C134_line",
    "Mh2c.C134_send",
    "Mh2c.C134_raw",
    "Mh2c.C134_make",
    "Mh2c.C134_update",
    "Mh2c.C134_one_line"
   ],
   "note": "Proved for all inputs the statement quantifies over."
  },
  {
   "property": "C135",
   "status": "proved",
   "theorems": [
    "Mh2c.C135_constructor",
    "Mh2c.C135_tells"
   ],
   "note": "Proved for all inputs the statement quantifies over."
  },
  {
   "property": "C136",
   "status": "proved",
   "theorems": [
    "Mh2c.Sample.C136_throws",
    "Mh2c.Sample.C136_returns"
   ],
   "note": "Proved for all inputs the statement quantifies over."
  },
  {
   "property": "C137",
   "status": "proved",
   "theorems": [
    "Mh2c.Sample.C137_same",
    "Mh2c.Sample.C137_failed_run"
   ],
   "note": "Proved for all inputs the statement quantifies over."
  },
  {
   "property": "C138",
   "status": "partial",
   "theorems": [
    "Mh2c.C138_recorded_partial",
    "Mh2c.C138_defined_partial",
    "Mh2c.C138_entries_partial",
    "Mh2c.C138_bad_alloc_violated"
   ],
   "note": "The property as stated is false of the code, which the _violated theorems prove. C138_bad_alloc_violated: C138 is false of the code: whenever the insertion of a header fails for lack of memory, the table records the size of a header that is not there, and from then on * setting any maximum below the size of the header, 0 above all, is undefined behaviour; * so is pushing any header that fits the table, but not together with the one that is not there. What holds is in the other theorems. Missing from C138_recorded_partial: that it is the size of the entries (false of the code). Missing from C138_defined_partial: the other calls, which are undefined behaviour. Missing from C138_entries_partial: that it is so with the maximum that was set (false of the code)."
  },
  {
   "property": "C139",
   "status": "partial",
   "theorems": [
    "Mh2c.C139_same_partial",
    "Mh2c.C139_send_partial",
    "Mh2c.C139_receive_partial",
    "Mh2c.C139_report_partial",
    "Mh2c.C139_tables_partial",
    "Mh2c.C139_payload_violated",
    "Mh2c.C139_headers_violated",
    "Mh2c.C139_report_violated",
    "Mh2c.C139_settings_violated"
   ],
   "note": "The property as stated is false of the code, which the _violated theorems prove. C139_payload_violated: C139 is false of the code: when there is no memory for the payload of a frame, the payload is left in the stream, and from then on the client reads it as frames, whatever it is: it is in the state of a client to which the server has sent the payload itself. The length is the server's choice, and so is the payload, or that of whoever wrote what the server sends as DATA. C139_headers_violated: C139 is false of the code: whenever memory runs out while a HEADERS frame is decoded, whatever is in it, `receive_frame` does not throw: it is undefined behaviour. `std::bad_alloc` is caught as if the frame could not be decoded, a raw frame is made, and a null pointer is dereferenced. C139_report_violated: C139 is false of the code: whenever there is no memory to insert a header into the request table, reporting the header once more does not help: the table then holds it, and it is small enough, but * setting the size 0, which every server may ask for, is undefined behaviour; * so is reporting a header that fits the table, but not together with the one that was not inserted. C139_settings_violated: C139 is false of the code: a server sends HEADERS with a header to be indexed and then SETTINGS with a header table size of 0. If there is no memory to insert the header, the second frame is undefined behaviour. With memory both are received. What holds is in the other theorems. Missing from C139_same_partial: HEADERS, see `C139_headers_violated`. Missing from C139_send_partial: `receive_frame` and `update_request_dynamic_table`, see below. Missing from C139_receive_partial: that the next call finds the beginning of a frame, and the table as before or as after the frame. Missing from C139_report_partial: that none of it or all of it has. The variant with a size does not run out of memory. Missing from C139_tables_partial: that there are none in any case (false of the code)."
  },
  {
   "property": "C140",
   "status": "proved",
   "theorems": [
    "Mh2c.C140_same",
    "Mh2c.C140_stops",
    "Mh2c.C140_released",
    "Mh2c.C140_init"
   ],
   "note": "Proved for all inputs the statement quantifies over."
  },
  {
   "property": "C141",
   "status": "partial",
   "theorems": [
    "Mh2c.Sample.C141_ends_partial",
    "Mh2c.Sample.C141_stops_partial",
    "Mh2c.Sample.C141_headers_violated"
   ],
   "note": "The property as stated is false of the code, which the _violated theorems prove. C141_headers_violated: C141 is false of the code: a server sends SETTINGS, HEADERS with the response, and its body. With memory the sample returns. If memory runs out while it decodes the HEADERS, it is undefined behaviour and not an exception. What holds is in the other theorems. Missing from C141_ends_partial: HEADERS, see `C141_headers_violated`. Missing from C141_stops_partial: that every run that runs out of memory ends so, see `C141_headers_violated`."
  },
  {
   "property": "C142",
   "status": "partial",
   "theorems": [
    "Mh2c.C142_ends_partial",
    "Mh2c.C142_stops_partial",
    "Mh2c.C142_headers_violated"
   ],
   "note": "The property as stated is false of the code, which the _violated theorems prove. C142_headers_violated: C142 is false of the code: for every program that begins by receiving a frame, whatever it does with it, there is undefined behaviour if memory runs out while a HEADERS frame is decoded, whatever is in it. What holds is in the other theorems. Missing from C142_ends_partial: HEADERS, see `C142_headers_violated`. Missing from C142_stops_partial: that every run that runs out of memory ends so, see `C142_headers_violated`."
  },
  {
   "property": "C143",
   "status": "proved",
   "theorems": [
    "Mh2c.C143_calls",
    "Mh2c.C143_programs"
   ],
   "note": "Proved for all inputs the statement quantifies over."
  },
  {
   "property": "C144",
   "status": "proved",
   "theorems": [
    "Mh2c.C144_ended",
    "Mh2c.C144_waiting",
    "Mh2c.C144_silent"
   ],
   "note": "Proved for all inputs the statement quantifies over."
  },
  {
   "property": "C145",
   "status": "partial",
   "theorems": [
    "Mh2c.Sample.C145_exact_partial",
    "Mh2c.Sample.C145_data_partial",
    "Mh2c.Sample.C145_ended_violated"
   ],
   "note": "The property as stated is false of the code, which the _violated theorems prove. C145_ended_violated: C145 is false of the code: the loop waits for ever for more, whenever the server ends the response with HEADERS or RST_STREAM, and sends nothing after that. What holds is in the other theorems. Missing from C145_exact_partial: that the response has not ended then, see `C145_ended_violated`. Missing from C145_data_partial: responses that end with HEADERS or RST_STREAM, see `C145_ended_violated`."
  },
  {
   "property": "C146",
   "status": "proved",
   "theorems": [
    "Mh2c.C146_calls",
    "Mh2c.C146_accounts",
    "Mh2c.C146_sent",
    "Mh2c.C146_reachable",
    "Mh2c.C146_answering"
   ],
   "note": "Proved for all inputs the statement quantifies over."
  }
 ]
}