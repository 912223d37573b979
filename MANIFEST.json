{
 "claims": [
  {
   "property": "C01",
   "status": "proved",
   "theorems": [
    "Verif.Props.C01_decode_returns",
    "Verif.Props.C01_encode_returns"
   ],
   "note": "No call panics, overflows or hangs"
  },
  {
   "property": "C02",
   "status": "proved",
   "theorems": [
    "Verif.Props.C02_no_undefined_behaviour"
   ],
   "note": "The unsafe blocks are sound"
  },
  {
   "property": "C03",
   "status": "proved",
   "theorems": [
    "Verif.Props.C03_encode_ok_is_encoding"
   ],
   "note": "Encode Ok: output is exactly the encoding of the consumed text"
  },
  {
   "property": "C04",
   "status": "proved",
   "theorems": [
    "Verif.Props.C04_encode_ok_is_maximal"
   ],
   "note": "Encode Ok: everything that fits is written"
  },
  {
   "property": "C05",
   "status": "proved",
   "theorems": [
    "Verif.Props.C05_encode_err_is_first_unencodable"
   ],
   "note": "Encode Err pinpoints the first unencodable char"
  },
  {
   "property": "C06",
   "status": "proved",
   "theorems": [
    "Verif.Props.C06_encode_complete",
    "Verif.Props.C06_encodable_text_has_encoding"
   ],
   "note": "Encode completeness"
  },
  {
   "property": "C07",
   "status": "proved",
   "theorems": [
    "Verif.Props.C07_unicode_encoders_never_fail"
   ],
   "note": "UTF encoders never fail"
  },
  {
   "property": "C08",
   "status": "proved",
   "theorems": [
    "Verif.Props.C08_decode_writes_only_output",
    "Verif.Props.C08_encode_writes_only_output"
   ],
   "note": "Output buffer is only written where reported"
  },
  {
   "property": "C09",
   "status": "proved",
   "theorems": [
    "Verif.Props.C09_decode_ignores_buffer_contents",
    "Verif.Props.C09_encode_ignores_buffer_contents"
   ],
   "note": "Result does not depend on what the buffer held"
  },
  {
   "property": "C10",
   "status": "proved",
   "theorems": [
    "Verif.Props.C10_decode_ok_is_decoding"
   ],
   "note": "Decode Ok: text is exactly the meaning of the consumed bytes"
  },
  {
   "property": "C11",
   "status": "proved",
   "theorems": [
    "Verif.Props.C11_decode_ok_is_maximal"
   ],
   "note": "Decode Ok: stops only for a documented reason"
  },
  {
   "property": "C12",
   "status": "proved",
   "theorems": [
    "Verif.Props.C12_decode_err_is_first_error"
   ],
   "note": "Decode Err pinpoints the first undecodable data"
  },
  {
   "property": "C13",
   "status": "proved",
   "theorems": [
    "Verif.Props.C13_decode_error_is_final"
   ],
   "note": "Decode errors are final"
  },
  {
   "property": "C14",
   "status": "proved",
   "theorems": [
    "Verif.Props.C14_decode_complete"
   ],
   "note": "Decode completeness"
  },
  {
   "property": "C15",
   "status": "proved",
   "theorems": [
    "Verif.Props.C15_ok_means_well_formed",
    "Verif.Props.C15_malformed_is_reported"
   ],
   "note": "Malformed input is never silently accepted"
  },
  {
   "property": "C16",
   "status": "proved",
   "theorems": [
    "Verif.Props.C16_decode_error_range"
   ],
   "note": "Decode error range is inside the input and non-empty"
  },
  {
   "property": "C17",
   "status": "proved",
   "theorems": [
    "Verif.Props.C17_decode_schedule_independent"
   ],
   "note": "Decoding is independent of how the bytes are chunked"
  },
  {
   "property": "C18",
   "status": "proved",
   "theorems": [
    "Verif.Props.C18_decode_error_range_schedule_independent",
    "Verif.Props.C18_utf8_error_range_depends_on_schedule"
   ],
   "note": "False for UTF-8 as first stated: the _depends_on_schedule theorem is the counterexample; the other theorem covers every other encoding."
  },
  {
   "property": "C19",
   "status": "proved",
   "theorems": [
    "Verif.Props.C19_encode_schedule_independent"
   ],
   "note": "Encoding is independent of how the text is chunked"
  },
  {
   "property": "C20",
   "status": "proved",
   "theorems": [
    "Verif.Props.C20_decode_progress"
   ],
   "note": "Decode progress"
  },
  {
   "property": "C21",
   "status": "proved",
   "theorems": [
    "Verif.Props.C21_encode_progress"
   ],
   "note": "Encode progress"
  },
  {
   "property": "C22",
   "status": "proved",
   "theorems": [
    "Verif.Props.C22_streaming_loop_decodes_stream"
   ],
   "note": "The documented streaming loop terminates with the whole decoding"
  },
  {
   "property": "C23",
   "status": "proved",
   "theorems": [
    "Verif.Props.C23_text_round_trip",
    "Verif.Props.C23_text_round_trip_all"
   ],
   "note": "Lossless text round trip"
  },
  {
   "property": "C24",
   "status": "proved",
   "theorems": [
    "Verif.Props.C24_byte_round_trip"
   ],
   "note": "Lossless byte round trip"
  },
  {
   "property": "C25",
   "status": "proved",
   "theorems": [
    "Verif.Props.C25_shift_jis_lossless_iff",
    "Verif.Props.C25_shift_jis_encoding_is_not_lossless"
   ],
   "note": "The crate's claim of losslessness is false; the _iff theorem says exactly which texts survive, the other theorem is the counterexample."
  },
  {
   "property": "C26",
   "status": "proved",
   "theorems": [
    "Verif.Props.C26_shift_jis_round_trip"
   ],
   "note": "Shift JIS round trip up to three documented-nowhere substitutions"
  },
  {
   "property": "C27",
   "status": "proved",
   "theorems": [
    "Verif.Props.C27_decoded_text_is_stable"
   ],
   "note": "Legacy decoders' text is stable under re-encoding"
  },
  {
   "property": "C28",
   "status": "proved",
   "theorems": [
    "Verif.Props.C28_single_byte_decode",
    "Verif.Props.C28_single_byte_encode",
    "Verif.Props.C28_tables"
   ],
   "note": "Single-byte codecs implement the published mapping files"
  },
  {
   "property": "C29",
   "status": "proved",
   "theorems": [
    "Verif.Props.C29_shift_jis_decode"
   ],
   "note": "Shift JIS decoder implements index jis0208"
  },
  {
   "property": "C30",
   "status": "proved",
   "theorems": [
    "Verif.Props.C30_shift_jis_encode"
   ],
   "note": "Shift JIS encoder picks the WHATWG pointer"
  },
  {
   "property": "C31",
   "status": "proved",
   "theorems": [
    "Verif.Props.C31_big5_decode"
   ],
   "note": "Big5 decoder implements index big5"
  },
  {
   "property": "C32",
   "status": "proved",
   "theorems": [
    "Verif.Props.C32_big5_encode",
    "Verif.Props.C32_big5_pairs_are_greedy"
   ],
   "note": "Big5 encoder picks the documented pointer, and two-char codes greedily"
  },
  {
   "property": "C33",
   "status": "proved",
   "theorems": [
    "Verif.Props.C33_error_has_no_ascii",
    "Verif.Props.C33_utf8_error_at_end_swallows_ascii"
   ],
   "note": "False for a truncated UTF-8 tail: the _swallows_ascii theorem is the counterexample; the other theorem is the exact positive statement."
  },
  {
   "property": "C34",
   "status": "proved",
   "theorems": [
    "Verif.Props.C34_ascii_decode",
    "Verif.Props.C34_ascii_encode"
   ],
   "note": "ASCII transparency"
  },
  {
   "property": "C35",
   "status": "proved",
   "theorems": [
    "Verif.Props.C35_decode_mirror",
    "Verif.Props.C35_encode_mirror"
   ],
   "note": "Little and big endian variants mirror each other"
  },
  {
   "property": "C36",
   "status": "proved",
   "theorems": [
    "Verif.Props.C36_is_end_only_matters_for_tail"
   ],
   "note": "is_end only matters for an incomplete tail"
  },
  {
   "property": "C37",
   "status": "proved",
   "theorems": [
    "Verif.Props.C37_decode_bigger_buffer",
    "Verif.Props.C37_encode_bigger_buffer"
   ],
   "note": "Bigger buffers only extend the result"
  },
  {
   "property": "C38",
   "status": "proved",
   "theorems": [
    "Verif.Props.C38_decode_growth_is_least",
    "Verif.Props.C38_encode_growth_is_least",
    "Verif.Props.C38_decode_room",
    "Verif.Props.C38_decode_room_total",
    "Verif.Props.C38_encode_room"
   ],
   "note": "Worst-case output size"
  },
  {
   "property": "C39",
   "status": "proved",
   "theorems": [
    "Verif.Props.C39_lossy_decoding_finishes"
   ],
   "note": "Skip-and-continue decoding always finishes"
  },
  {
   "property": "C40",
   "status": "proved",
   "theorems": [
    "Verif.Props.C40_decode_error_extent"
   ],
   "note": "Exact error extents"
  },
  {
   "property": "C41",
   "status": "proved",
   "theorems": [
    "Verif.Props.C41_big5_encode_vs_whatwg",
    "Verif.Props.C41_big5_differences",
    "Verif.Props.C41_big5_text",
    "Verif.Props.C41_shift_jis_encode_vs_whatwg",
    "Verif.Props.C41_big5_difference_counts"
   ],
   "note": "Conformance is false for Big5 chars with a pointer below 5024 and for Shift JIS U+E000..U+E757; the theorems say exactly where encoding agrees with WHATWG and where not, with witnesses."
  },
  {
   "property": "C42",
   "status": "proved",
   "theorems": [
    "Verif.Props.C42_lossy_decoding_is_whatwg",
    "Verif.Props.C42_utf8_agrees_up_to_first_error",
    "Verif.Props.C42_utf8_differs_after_error"
   ],
   "note": "True for every encoding WHATWG has except UTF-8; for UTF-8 the _differs_ theorem is the counterexample and the _agrees_ theorem the exact positive statement."
  },
  {
   "property": "C43",
   "status": "proved",
   "theorems": [
    "Verif.Props.C43_streaming_loop_encodes_text"
   ],
   "note": "The streaming loop for encoding terminates with the whole encoding"
  },
  {
   "property": "C44",
   "status": "proved",
   "theorems": [
    "Verif.Props.C44_encoding_with_replacement"
   ],
   "note": "Encoding with replacement finishes and is exact"
  },
  {
   "property": "C45",
   "status": "proved",
   "theorems": [
    "Verif.Props.C45_decode_outcome_iff",
    "Verif.Props.C45_decode_outcome_unique",
    "Verif.Props.C45_decode_contract_determines"
   ],
   "note": "Complete contract of decoding"
  },
  {
   "property": "C46",
   "status": "proved",
   "theorems": [
    "Verif.Props.C46_encode_outcome_iff",
    "Verif.Props.C46_encode_outcome_unique",
    "Verif.Props.C46_encode_contract_determines"
   ],
   "note": "Complete contract of encoding"
  },
  {
   "property": "C47",
   "status": "proved",
   "theorems": [
    "Verif.Props.C47_decode_no_overflow",
    "Verif.Props.C47_encode_no_overflow",
    "Verif.Props.C47_calls_return",
    "Verif.Props.C47_same_everywhere"
   ],
   "note": "No arithmetic overflow on any target or build profile"
  },
  {
   "property": "C48",
   "status": "proved",
   "theorems": [
    "Verif.Props.C48_generator_accepts",
    "Verif.Props.C48_generator_rejects"
   ],
   "note": "The single-byte table generator is right for every mapping file"
  },
  {
   "property": "C49",
   "status": "proved",
   "theorems": [
    "Verif.Props.C49_generated_module",
    "Verif.Props.C49_generated_roundtrip"
   ],
   "note": "A generated single-byte module converts exactly as its mapping file says"
  },
  {
   "property": "C50",
   "status": "proved",
   "theorems": [
    "Verif.Props.C50_duplicates_are_kept"
   ],
   "note": "A defect of the generator, proved as such; harmless for the shipped files."
  },
  {
   "property": "C51",
   "status": "proved",
   "theorems": [
    "Verif.Props.C51_shiftjis_generator",
    "Verif.Props.C51_big5_generator",
    "Verif.Props.C51_shiftjis_index",
    "Verif.Props.C51_big5_index"
   ],
   "note": "The Shift JIS and Big5 table generators are right for every index file"
  },
  {
   "property": "C52",
   "status": "proved",
   "theorems": [
    "Verif.Props.C52_shiftjis_tables",
    "Verif.Props.C52_big5_tables",
    "Verif.Props.C52_single_byte_modules"
   ],
   "note": "The committed tables are the generators' output on the published files"
  },
  {
   "property": "C53",
   "status": "proved",
   "theorems": [
    "Verif.Props.C53_decode_append",
    "Verif.Props.C53_encode_append"
   ],
   "note": "Converting a concatenation is converting its parts"
  },
  {
   "property": "C54",
   "status": "proved",
   "theorems": [
    "Verif.Props.C54_decode_keeps_byte_order_mark",
    "Verif.Props.C54_decode_ignores_swapped_mark",
    "Verif.Props.C54_decode_rejects_swapped_mark",
    "Verif.Props.C54_encode_adds_no_byte_order_mark"
   ],
   "note": "No byte order mark handling"
  },
  {
   "property": "C55",
   "status": "proved",
   "theorems": [
    "Verif.Props.C55_encode_loop",
    "Verif.Props.C55_decode_loop",
    "Verif.Props.C55_unicode_roundtrip_tests",
    "Verif.Props.C55_single_byte_roundtrip_tests",
    "Verif.Props.C55_random_input_tests",
    "Verif.Props.C55_example_main"
   ],
   "note": "The property tests of the crate hold for every input and seed"
  },
  {
   "property": "C56",
   "status": "proved",
   "theorems": [
    "Verif.Props.C56_transcode"
   ],
   "note": "Transcoding through two buffers"
  },
  {
   "property": "C57",
   "status": "proved",
   "theorems": [
    "Verif.Props.C57_decode_more_input",
    "Verif.Props.C57_encode_more_input"
   ],
   "note": "More input never takes back what was converted"
  },
  {
   "property": "C58",
   "status": "proved",
   "theorems": [
    "Verif.Props.C58_encode_output_size",
    "Verif.Props.C58_encode_error_size",
    "Verif.Props.C58_decode_input_size",
    "Verif.Props.C58_decode_error_position",
    "Verif.Props.C58_encode_complete_iff",
    "Verif.Props.C58_decode_complete_iff"
   ],
   "note": "Exact sizes"
  },
  {
   "property": "C59",
   "status": "proved",
   "theorems": [
    "Verif.Props.C59_shiftjis_decode_test",
    "Verif.Props.C59_shiftjis_encode_test",
    "Verif.Props.C59_big5_decode_test",
    "Verif.Props.C59_big5_encode_test"
   ],
   "note": "The generated test data"
  },
  {
   "property": "C60",
   "status": "proved",
   "theorems": [
    "Verif.Props.C60_single_byte_source",
    "Verif.Props.C60_single_byte_rejects",
    "Verif.Props.C60_shiftjis_source",
    "Verif.Props.C60_big5_source"
   ],
   "note": "From the text of a mapping file to the tokens of the generated source"
  },
  {
   "property": "C61",
   "status": "proved",
   "theorems": [
    "Verif.Props.C61_single_byte_files",
    "Verif.Props.C61_shiftjis_files",
    "Verif.Props.C61_big5_files"
   ],
   "note": "The repository's generated sources are what its generators write for its mapping files"
  },
  {
   "property": "C62",
   "status": "proved",
   "theorems": [
    "Verif.Props.C62_shiftjis_test_data",
    "Verif.Props.C62_big5_test_data"
   ],
   "note": "The repository's test data are what its generators write for its index files, and the tests pass on them"
  },
  {
   "property": "C63",
   "status": "proved",
   "theorems": [
    "Verif.Props.C63_decode_low_bytes",
    "Verif.Props.C63_encode_low_bytes",
    "Verif.Props.C63_no_nul",
    "Verif.Props.C63_bound_is_exact"
   ],
   "note": "Low bytes stand only for themselves"
  },
  {
   "property": "C64",
   "status": "proved",
   "theorems": [
    "Verif.Props.C64_decode_split",
    "Verif.Props.C64_decode_join",
    "Verif.Props.C64_bound_is_needed",
    "Verif.Props.C64_encode_split",
    "Verif.Props.C64_encode_join"
   ],
   "note": "Splitting and joining at a low byte"
  },
  {
   "property": "C65",
   "status": "proved",
   "theorems": [
    "Verif.Props.C65_lossy_decoding_by_lines",
    "Verif.Props.C65_lossy_text_independent_of_buffer",
    "Verif.Props.C65_utf8_counterexample"
   ],
   "note": "True for every encoding with ASCII except UTF-8, for which the _counterexample theorem is the negation."
  },
  {
   "property": "C66",
   "status": "proved",
   "theorems": [
    "Verif.Props.C66_decoder_never_fails_iff",
    "Verif.Props.C66_all_bytes_published_iff",
    "Verif.Props.C66_every_byte_string_decodes",
    "Verif.Props.C66_encoder_never_fails_iff"
   ],
   "note": "Exactly which conversions can fail"
  },
  {
   "property": "C67",
   "status": "proved",
   "theorems": [
    "Verif.Props.C67_decoded_text_has_no_replacement_char",
    "Verif.Props.C67_encoders_reject_replacement_char",
    "Verif.Props.C67_encoded_text_has_no_replacement_char",
    "Verif.Props.C67_replacement_chars_mark_errors",
    "Verif.Props.C67_unicode_has_replacement_char"
   ],
   "note": "U+FFFD is never a legacy char"
  },
  {
   "property": "C68",
   "status": "proved",
   "theorems": [
    "Verif.Props.C68_order_is_kept",
    "Verif.Props.C68_decoding_keeps_order",
    "Verif.Props.C68_utf16_does_not_keep_order"
   ],
   "note": "UTF-8 and UTF-32BE keep the order of code points"
  },
  {
   "property": "C69",
   "status": "proved",
   "theorems": [
    "Verif.Props.C69_valid_up_to",
    "Verif.Props.C69_from_utf8",
    "Verif.Props.C69_char_indices",
    "Verif.Props.C69_encode_utf8",
    "Verif.Props.C69_len_utf8_utf16",
    "Verif.Props.C69_from_u32",
    "Verif.Props.C69_is_char_boundary",
    "Verif.Props.C69_binary_search"
   ],
   "note": "The standard library's text algorithms do what the crate relies on, at every address and on every machine"
  },
  {
   "property": "C70",
   "status": "proved",
   "theorems": [
    "Verif.Props.C70_source_encodes",
    "Verif.Props.C70_source_decodes"
   ],
   "note": "The source text itself, run, does what is proved"
  },
  {
   "property": "C71",
   "status": "proved",
   "theorems": [
    "Verif.Props.C71_wrapper_encodes",
    "Verif.Props.C71_wrapper_decodes",
    "Verif.Props.C71_wrapper_main"
   ],
   "note": "The wrapper program in examples does what it says"
  },
  {
   "property": "C72",
   "status": "proved",
   "theorems": [
    "Verif.Props.C72_single_byte",
    "Verif.Props.C72_single_byte_source",
    "Verif.Props.C72_single_byte_rejects",
    "Verif.Props.C72_single_byte_missing",
    "Verif.Props.C72_shiftjis_tables",
    "Verif.Props.C72_big5_tables",
    "Verif.Props.C72_shiftjis_source",
    "Verif.Props.C72_big5_source",
    "Verif.Props.C72_shiftjis_missing",
    "Verif.Props.C72_big5_missing",
    "Verif.Props.C72_shiftjis_test_data",
    "Verif.Props.C72_big5_test_data",
    "Verif.Props.C72_shiftjis_test_files",
    "Verif.Props.C72_big5_test_files",
    "Verif.Props.C72_shiftjis_index",
    "Verif.Props.C72_big5_index"
   ],
   "note": "The source text of the table generators, run, does what is proved"
  },
  {
   "property": "C73",
   "status": "proved",
   "theorems": [
    "Verif.Props.C73_single_byte_program",
    "Verif.Props.C73_shiftjis_program",
    "Verif.Props.C73_big5_program"
   ],
   "note": "Running the generators again changes nothing in the repository"
  },
  {
   "property": "C74",
   "status": "proved",
   "theorems": [
    "Verif.Props.C74_property_tests",
    "Verif.Props.C74_shiftjis_tests",
    "Verif.Props.C74_big5_tests"
   ],
   "note": "The tests in tests/ pass for every input that proptest can draw"
  },
  {
   "property": "C75",
   "status": "proved",
   "theorems": [
    "Verif.Props.C75_unit_tests",
    "Verif.Props.C75_no_other_tests",
    "Verif.Props.C75_documentation_examples"
   ],
   "note": "The unit tests and the examples in the documentation pass on every machine"
  },
  {
   "property": "C76",
   "status": "proved",
   "theorems": [
    "Verif.Props.C76_source_encode_contract",
    "Verif.Props.C76_source_decode_contract",
    "Verif.Props.C76_source_round_trip"
   ],
   "note": "The source text meets the complete contract"
  },
  {
   "property": "C77",
   "status": "proved",
   "theorems": [
    "Verif.Props.C77_mapping_file_to_conversion",
    "Verif.Props.C77_mapping_file_round_trip"
   ],
   "note": "From a mapping file to a module that converts as the file says"
  },
  {
   "property": "C78",
   "status": "proved",
   "theorems": [
    "Verif.Props.C78_search",
    "Verif.Props.C78_contains",
    "Verif.Props.C78_utf16_unaligned",
    "Verif.Props.C78_shift_jis_fails",
    "Verif.Props.C78_big5_fails"
   ],
   "note": "Searching in encoded text"
  },
  {
   "property": "C79",
   "status": "proved",
   "theorems": [
    "Verif.Props.C79_replacements_in_chunks",
    "Verif.Props.C79_lossy_decoding_in_chunks",
    "Verif.Props.C79_kept_text_in_chunks",
    "Verif.Props.C79_utf8_fails",
    "Verif.Props.C79_encoding_with_replacement_in_chunks"
   ],
   "note": "Lossy decoding and replacing encoding of a stream"
  },
  {
   "property": "C80",
   "status": "proved",
   "theorems": [
    "Verif.Props.C80_decode_lookahead",
    "Verif.Props.C80_decode_lookahead_utf8",
    "Verif.Props.C80_bound_is_sharp",
    "Verif.Props.C80_encode_lookahead"
   ],
   "note": "Bounded look-ahead"
  },
  {
   "property": "C81",
   "status": "proved",
   "theorems": [
    "Verif.Props.C81_skipping_loop",
    "Verif.Props.C81_skipping_is_encoding_of_rest",
    "Verif.Props.C81_skipping_then_decoding"
   ],
   "note": "Encoding with the problematic chars left out"
  },
  {
   "property": "C82",
   "status": "proved",
   "theorems": [
    "Verif.Props.C82_decoded_bytes_come_back_iff",
    "Verif.Props.C82_second_code_iff",
    "Verif.Props.C82_second_code_counts"
   ],
   "note": "Exactly which bytes come back after decoding and encoding"
  },
  {
   "property": "C83",
   "status": "proved",
   "theorems": [
    "Verif.Props.C83_decoding_from_the_middle",
    "Verif.Props.C83_two_byte_encodings_fail"
   ],
   "note": "Starting in the middle of a text"
  },
  {
   "property": "C84",
   "status": "proved",
   "theorems": [
    "Verif.Props.C84_damage_stays_local",
    "Verif.Props.C84_utf8_end_is_lost",
    "Verif.Props.C84_two_byte_encodings_fail",
    "Verif.Props.C84_damage_stays_in_line"
   ],
   "note": "Damage stays local"
  },
  {
   "property": "C85",
   "status": "proved",
   "theorems": [
    "Verif.Props.C85_truncated_text"
   ],
   "note": "Truncated text"
  },
  {
   "property": "C86",
   "status": "proved",
   "theorems": [
    "Verif.Props.C86_random_access",
    "Verif.Props.C86_random_access_encode",
    "Verif.Props.C86_other_encodings_fail"
   ],
   "note": "Random access in encodings of fixed width"
  },
  {
   "property": "C87",
   "status": "proved",
   "theorems": [
    "Verif.Props.C87_there_and_back_iff",
    "Verif.Props.C87_there_and_back_ends",
    "Verif.Props.C87_yen_is_lost"
   ],
   "note": "Converting to another encoding and back"
  },
  {
   "property": "C88",
   "status": "proved",
   "theorems": [
    "Verif.Props.C88_cleaned_data_decodes",
    "Verif.Props.C88_cleaning_twice",
    "Verif.Props.C88_yen_as_replacement"
   ],
   "note": "Cleaning data"
  },
  {
   "property": "C89",
   "status": "proved",
   "theorems": [
    "Verif.Props.C89_decode_progress_iff",
    "Verif.Props.C89_encode_progress_iff"
   ],
   "note": "The least buffers"
  },
  {
   "property": "C90",
   "status": "proved",
   "theorems": [
    "Verif.Props.C90_decode_call",
    "Verif.Props.C90_encode_call",
    "Verif.Props.C90_decode_rounds",
    "Verif.Props.C90_encode_rounds",
    "Verif.Props.C90_encode_ends_inside",
    "Verif.Props.C90_boundary_rounds",
    "Verif.Props.C90_cut_rounds",
    "Verif.Props.C90_error_end_rounds",
    "Verif.Props.C90_search_rounds",
    "Verif.Props.C90_table_search_rounds",
    "Verif.Props.C90_decoding_is_linear",
    "Verif.Props.C90_encoding_is_linear",
    "Verif.Props.C90_utf8_decoding_is_quadratic"
   ],
   "note": "The work of a call"
  },
  {
   "property": "C91",
   "status": "proved",
   "theorems": [
    "Verif.Props.C91_same_bytes_iff",
    "Verif.Props.C91_same_text_same_length",
    "Verif.Props.C91_same_text_iff"
   ],
   "note": "Comparing texts by their bytes"
  },
  {
   "property": "C92",
   "status": "proved",
   "theorems": [
    "Verif.Props.C92_decode_edited",
    "Verif.Props.C92_encode_edited",
    "Verif.Props.C92_line_ends",
    "Verif.Props.C92_not_beyond_the_bound"
   ],
   "note": "Editing bytes instead of text"
  },
  {
   "property": "C93",
   "status": "proved",
   "theorems": [
    "Verif.Props.C93_decode_between",
    "Verif.Props.C93_decode_offsets",
    "Verif.Props.C93_encode_between",
    "Verif.Props.C93_encode_offsets"
   ],
   "note": "Offsets"
  },
  {
   "property": "C94",
   "status": "proved",
   "theorems": [
    "Verif.Props.C94_count_decoded",
    "Verif.Props.C94_count_encoded",
    "Verif.Props.C94_count_low_decoded",
    "Verif.Props.C94_count_low_encoded"
   ],
   "note": "Counting chars without decoding"
  },
  {
   "property": "C95",
   "status": "proved",
   "theorems": [
    "Verif.Props.C95_repair",
    "Verif.Props.C95_nothing_lost",
    "Verif.Props.C95_replaced_is_lost"
   ],
   "note": "Repairing text that was read in the wrong encoding"
  },
  {
   "property": "C96",
   "status": "proved",
   "theorems": [
    "Verif.Props.C96_begins_with_iff",
    "Verif.Props.C96_begins_with",
    "Verif.Props.C96_decoded_begins_with",
    "Verif.Props.C96_exceptions"
   ],
   "note": "Comparing beginnings"
  },
  {
   "property": "C97",
   "status": "proved",
   "theorems": [
    "Verif.Props.C97_reads_the_same_iff",
    "Verif.Props.C97_written_reads_the_same_iff",
    "Verif.Props.C97_text_reads_the_same_iff"
   ],
   "note": "Reading data in another encoding than it was written in"
  },
  {
   "property": "C98",
   "status": "proved",
   "theorems": [
    "Verif.Props.C98_decode_restarted",
    "Verif.Props.C98_decode_same_file",
    "Verif.Props.C98_decode_finished",
    "Verif.Props.C98_decode_can_finish",
    "Verif.Props.C98_decode_failed",
    "Verif.Props.C98_encode_restarted",
    "Verif.Props.C98_encode_same_file",
    "Verif.Props.C98_encode_finished",
    "Verif.Props.C98_encode_can_finish",
    "Verif.Props.C98_encode_failed"
   ],
   "note": "Conversions that are interrupted and started again"
  },
  {
   "property": "C99",
   "status": "proved",
   "theorems": [
    "Verif.Props.C99_decode_fixed_memory_iff",
    "Verif.Props.C99_encode_fixed_memory_iff"
   ],
   "note": "Converting with a fixed amount of memory"
  },
  {
   "property": "C100",
   "status": "proved",
   "theorems": [
    "Verif.Props.C100_look_back_iff",
    "Verif.Props.C100_reading_backwards_iff"
   ],
   "note": "Reading backwards"
  },
  {
   "property": "C101",
   "status": "proved",
   "theorems": [
    "Verif.Props.C101_decode_parts",
    "Verif.Props.C101_parts_are_near",
    "Verif.Props.C101_decode_lines",
    "Verif.Props.C101_encode_parts"
   ],
   "note": "Converting the parts of a text independently"
  },
  {
   "property": "C102",
   "status": "proved",
   "theorems": [
    "Verif.Props.C102_strict_streaming_is_whatwg",
    "Verif.Props.C102_strict_decoding_is_whatwg"
   ],
   "note": "Strict decoding is what the WHATWG standard prescribes"
  },
  {
   "property": "C103",
   "status": "proved",
   "theorems": [
    "Verif.Props.C103_encoding_for_the_web"
   ],
   "note": "Encoding for the web"
  },
  {
   "property": "C104",
   "status": "proved",
   "theorems": [
    "Verif.Props.C104_reading_is_whatwg_decode",
    "Verif.Props.C104_lossy_reading_is_whatwg_decode",
    "Verif.Props.C104_marked_text_is_read_back",
    "Verif.Props.C104_unmarked_text_iff"
   ],
   "note": "Files that begin with a byte order mark"
  }
 ]
}