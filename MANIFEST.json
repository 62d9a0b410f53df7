{
 "claims": [
  {
   "property": "C01",
   "status": "proved",
   "theorems": [
    "Rxls.C01_stream_roundtrip",
    "Rxls.C01_stream_roundtrip_append",
    "Rxls.C01_any_stream",
    "Rxls.C01_written_is_wire"
   ],
   "note": "C01_any_stream: every byte sequence, not only written ones, yields exactly the records it splits into."
  },
  {
   "property": "C02",
   "status": "proved",
   "theorems": [
    "Rxls.C02_as_binary_error_iff",
    "Rxls.C02_as_binary_only_struct_error",
    "Rxls.C02_as_binary_layout",
    "Rxls.C02_dump_position"
   ],
   "note": ""
  },
  {
   "property": "C03",
   "status": "proved",
   "theorems": [
    "Rxls.C03_truncation",
    "Rxls.C03_wholeBefore_spec"
   ],
   "note": ""
  },
  {
   "property": "C04",
   "status": "proved",
   "theorems": [
    "Rxls.C04_only_filter"
   ],
   "note": ""
  },
  {
   "property": "C05",
   "status": "proved",
   "theorems": [
    "Rxls.C05_numba_eq_plain",
    "Rxls.C05_any_stream",
    "Rxls.C05_one_block",
    "Rxls.C05_empty_set_differs",
    "Rxls.C05_high_id_differs"
   ],
   "note": "As stated. The two C05_*_differs theorems record the disagreements outside the stated domain. C05_any_stream gives both scanners on every stream."
  },
  {
   "property": "C06",
   "status": "partial",
   "theorems": [
    "Rxls.C06_plain_terminates",
    "Rxls.C06_numba_terminates_partial",
    "Rxls.C06_numba_diverges",
    "Rxls.C06_exact"
   ],
   "note": "Plain scanner: proved. Accelerated scanner: terminates on whole records; C06_numba_diverges proves it never finishes on a stream ending inside a record. C06_exact: it finishes exactly when the stream is a sequence of whole records."
  },
  {
   "property": "C07",
   "status": "proved",
   "theorems": [
    "Rxls.C07_dump_sz_domain",
    "Rxls.C07_dump_sz_value",
    "Rxls.C07_dump_sz_prefix_free",
    "Rxls.C07_as_binary_embeds_dump_sz"
   ],
   "note": ""
  },
  {
   "property": "C08",
   "status": "proved",
   "theorems": [
    "Rxls.C08_ids_distinct",
    "Rxls.C08_ids_encodable",
    "Rxls.C08_name_roundtrip",
    "Rxls.C08_name_domain"
   ],
   "note": ""
  },
  {
   "property": "C09",
   "status": "proved",
   "theorems": [
    "Rxls.C09_load_wide_string",
    "Rxls.C09_load_null",
    "Rxls.C09_from_binary_eq_load",
    "Rxls.C09_decode_exact",
    "Rxls.C09_decode_error",
    "Rxls.C09_leading_mark_lost",
    "Rxls.C09_short_payload_accepted"
   ],
   "note": ""
  },
  {
   "property": "C10",
   "status": "partial",
   "theorems": [
    "Rxls.C10_dump_load_partial",
    "Rxls.C10_dump_load_never",
    "Rxls.C10_dump_load_drops_last"
   ],
   "note": "False for every non-empty string (C10_dump_load_never, C10_dump_load_drops_last); holds for null and empty."
  },
  {
   "property": "C11",
   "status": "proved",
   "theorems": [
    "Rxls.C11_bundle_parse",
    "Rxls.C11_bundle_nullable",
    "Rxls.C11_bundle_short"
   ],
   "note": ""
  },
  {
   "property": "C12",
   "status": "proved",
   "theorems": [
    "Rxls.C12_value_survives_iff",
    "Rxls.C12_type_last_segment",
    "Rxls.C12_document_roundtrip",
    "Rxls.C12_roundtrip_only_if",
    "Rxls.C12_unescaped_witness",
    "Rxls.C12_parsed_roundtrip",
    "Rxls.C12_injection",
    "Rxls.C12_type_uri",
    "Rxls.C12_part_exact"
   ],
   "note": "The round trip is proved through the whole XML parser (C12_parsed_roundtrip); 'only if' for one element as dump_xml writes it. C12_injection, C12_unescaped_witness: dump_xml does not escape. C12_part_exact: what any bytes of a relationship part give, as an iff."
  },
  {
   "property": "C13",
   "status": "proved",
   "theorems": [
    "Rxls.C13_column_index",
    "Rxls.C13_column_injective",
    "Rxls.C13_lowercase_witness"
   ],
   "note": ""
  },
  {
   "property": "C14",
   "status": "proved",
   "theorems": [
    "Rxls.C14_rounding_nearest",
    "Rxls.C14_rk_decode",
    "Rxls.C14_rk_decode_array",
    "Rxls.C14_rk_decode_valid"
   ],
   "note": ""
  },
  {
   "property": "C15",
   "status": "proved",
   "theorems": [
    "Rxls.C15_int_rk_roundtrip"
   ],
   "note": ""
  },
  {
   "property": "C16",
   "status": "partial",
   "theorems": [
    "Rxls.C16_not_roundtrip",
    "Rxls.C16_double_rk_roundtrip_partial",
    "Rxls.C16_negative",
    "Rxls.C16_exact"
   ],
   "note": "False as stated (C16_not_roundtrip: -5 comes back as -4). Proved for non-negative integers and hundredths and for non-two-decimal RK doubles. C16_exact: for integers up to 2^46 and hundredths in the RK range it holds exactly for the non-negative ones; C16_negative: every negative one comes back one unit nearer zero."
  },
  {
   "property": "C17",
   "status": "proved",
   "theorems": [
    "Rxls.C17_whole_serials",
    "Rxls.C17_day_unique",
    "Rxls.C17_day60"
   ],
   "note": ""
  },
  {
   "property": "C18",
   "status": "proved",
   "theorems": [
    "Rxls.C18_serial_error",
    "Rxls.C18_fraction_of_day"
   ],
   "note": "As stated; C14_rounding_nearest shows the model's rounding is IEEE nearest."
  },
  {
   "property": "C19",
   "status": "partial",
   "theorems": [
    "Rxls.C19_millisecond_lost",
    "Rxls.C19_roundtrip_partial",
    "Rxls.C19_roundtrip_exact_partial",
    "Rxls.C19_exact",
    "Rxls.C19_rounded_away"
   ],
   "note": "False as stated (C19_millisecond_lost). Proved: exact or one millisecond towards 1970 (C19_roundtrip_partial); C19_exact says when it is exact, C19_rounded_away: whenever the serial is not rounded towards 1970; exact on multiples of 1/1024 day."
  },
  {
   "property": "C20",
   "status": "proved",
   "theorems": [
    "Rxls.C20_monotone",
    "Rxls.C20_drops"
   ],
   "note": ""
  },
  {
   "property": "C21",
   "status": "proved",
   "theorems": [
    "Rxls.C21_whole_days"
   ],
   "note": ""
  },
  {
   "property": "C22",
   "status": "proved",
   "theorems": [
    "Rxls.C22_int_detection",
    "Rxls.C22_int_accepted",
    "Rxls.C22_nan_rejected",
    "Rxls.C22_out_of_range",
    "Rxls.C22_below_integer_rejected"
   ],
   "note": "As stated; C22_out_of_range records that values outside int64 are classified as integers too."
  },
  {
   "property": "C23",
   "status": "partial",
   "theorems": [
    "Rxls.C23_zero_is_lost",
    "Rxls.C23_later_format_wins",
    "Rxls.C23_multi_format_partial",
    "Rxls.C23_exact",
    "Rxls.C23_elementwise"
   ],
   "note": "False when a string parses to a midnight at or before 1970-01-01 (C23_zero_is_lost, C23_later_format_wins); proved otherwise, for every strptime. C23_exact gives the result and the exception for every input."
  },
  {
   "property": "C24",
   "status": "partial",
   "theorems": [
    "Rxls.C24_two_bytes_wrong",
    "Rxls.C24_reversed_bytes",
    "Rxls.C24_exact",
    "Rxls.C24_one_byte_partial"
   ],
   "note": "False above one byte (C24_two_bytes_wrong); exact characterisation C24_reversed_bytes; holds for one byte. C24_exact: for masks of whole bytes it is right exactly when the bytes are a palindrome."
  },
  {
   "property": "C25",
   "status": "partial",
   "theorems": [
    "Rxls.C25_null_slice_partial",
    "Rxls.C25_null_slice_wrong",
    "Rxls.C25_grows",
    "Rxls.C25_exact"
   ],
   "note": "False as stated (C25_null_slice_wrong, C25_grows); proved for start >= -n and stop non-zero and <= n. C25_exact is the exact condition, for every start and stop."
  },
  {
   "property": "C26",
   "status": "proved",
   "theorems": [
    "Rxls.C26_take_slice",
    "Rxls.C26_take_mask",
    "Rxls.C26_wrong_mask_rejected",
    "Rxls.C26_negative_index"
   ],
   "note": "As stated; null chunks need a slice C25 covers. C26_negative_index records the integer-index deviation."
  },
  {
   "property": "C27",
   "status": "partial",
   "theorems": [
    "Rxls.C27_window",
    "Rxls.C27_no_length_partial",
    "Rxls.C27_no_length_exact",
    "Rxls.C27_no_length_drops_rows"
   ],
   "note": "Proved for length > 0. With length = 0 rows are lost (C27_no_length_drops_rows). C27_no_length_exact: with length = 0 the rows are complete exactly when no rows follow the chunk that contains the offset."
  },
  {
   "property": "C28",
   "status": "proved",
   "theorems": [
    "Rxls.C28_mask"
   ],
   "note": "As stated."
  },
  {
   "property": "C29",
   "status": "partial",
   "theorems": [
    "Rxls.C29_length",
    "Rxls.C29_nulls_partial",
    "Rxls.C29_null_becomes_zero",
    "Rxls.C29_empty_mask_fails",
    "Rxls.C29_missing_text_is_zero",
    "Rxls.C29_exact"
   ],
   "note": "Length: proved for all windows and flags. Nulls: false for missing strings converted to numbers (C29_null_becomes_zero), proved otherwise. C29_missing_text_is_zero: a null shared string beside numbers reads as 0 under numeric resolution. C29_exact: for a whole read, element by element, null exactly if there is no cell, or a cell without a text whose run is not rewritten (`rewritten` spells the condition out)."
  },
  {
   "property": "C30",
   "status": "partial",
   "theorems": [
    "Rxls.C30_type_partial",
    "Rxls.C30_type_window_partial",
    "Rxls.C30_shared_strings_fail",
    "Rxls.C30_exact"
   ],
   "note": "Proved unless shared strings meet datetime resolution, which raises (C30_shared_strings_fail). C30_exact gives the exact condition for the exception and the type in every other case."
  },
  {
   "property": "C31",
   "status": "partial",
   "theorems": [
    "Rxls.C31_text_partial",
    "Rxls.C31_text_lost",
    "Rxls.C31_exact"
   ],
   "note": "False when a failure comes after a successful conversion (C31_text_lost); proved for the other fall-backs. C31_exact: for a whole read, the text shown for every text and number of a column that ends as text."
  },
  {
   "property": "C32",
   "status": "partial",
   "theorems": [
    "Rxls.C32_pure_partial",
    "Rxls.C32_row_lost",
    "Rxls.C32_history_decides"
   ],
   "note": "False (C32_row_lost, C32_history_decides); proved for histories of windowed or flag-free calls."
  },
  {
   "property": "C33",
   "status": "proved",
   "theorems": [
    "Rxls.C33_structure",
    "Rxls.C33_values",
    "Rxls.C33_height",
    "Rxls.C33_xlsx_run_becomes_text"
   ],
   "note": "As stated (C33_structure for all histories, C33_values when payloads are valid). C33_xlsx_run_becomes_text records the XLSX fall-back."
  },
  {
   "property": "C34",
   "status": "proved",
   "theorems": [
    "Rxls.C34_readd_ignored"
   ],
   "note": "As stated."
  },
  {
   "property": "C35",
   "status": "partial",
   "theorems": [
    "Rxls.C35_exact",
    "Rxls.C35_len_is_span",
    "Rxls.C35_len_partial",
    "Rxls.C35_too_short"
   ],
   "note": "False as stated (C35_too_short); C35_len_is_span is the exact value; holds when the first cell is in row 0. C35_exact: right exactly when the first cell is in row 0."
  },
  {
   "property": "C36",
   "status": "proved",
   "theorems": [
    "Rxls.C36_own_value",
    "Rxls.C36_ragged_rejected",
    "Rxls.C36_bleeds",
    "Rxls.C36_short_index_undefined"
   ],
   "note": "As stated; C36_bleeds and C36_short_index_undefined record what happens outside."
  },
  {
   "property": "C37",
   "status": "proved",
   "theorems": [
    "Rxls.C37_every_stream",
    "Rxls.C37_rows_in_place",
    "Rxls.C37_cell",
    "Rxls.C37_row_number_ignored"
   ],
   "note": "As stated, for every well-formed sheet part (C37_rows_in_place) and for the decoding of one cell (C37_cell). C37_row_number_ignored records that the row number stored in the row record is not used."
  },
  {
   "property": "C38",
   "status": "partial",
   "theorems": [
    "Rxls.C38_window_exact",
    "Rxls.C38_skip_rows_partial",
    "Rxls.C38_only_one_row",
    "Rxls.C38_default_delivers_nothing",
    "Rxls.C38_xlsx_window_exact",
    "Rxls.C38_xlsx_skip_rows_partial",
    "Rxls.C38_xlsx_default_delivers_nothing",
    "Rxls.C38_xlsx_cut"
   ],
   "note": "False as stated: XLSB C38_only_one_row, XLSX C38_xlsx_cut, both C38_default_delivers_nothing. C38_window_exact and C38_xlsx_window_exact are the exact behaviours."
  },
  {
   "property": "C39",
   "status": "partial",
   "theorems": [
    "Rxls.C39_exact",
    "Rxls.C39_take_rows",
    "Rxls.C39_xlsx_take_rows",
    "Rxls.C39_xlsx_take_rows_keep",
    "Rxls.C39_xlsx_too_many"
   ],
   "note": "As stated for XLSB and for XLSX without leading empty rows; C39_xlsx_too_many shows the XLSX failure. C39_exact: the sheets for which it holds."
  },
  {
   "property": "C40",
   "status": "proved",
   "theorems": [
    "Rxls.C40_skip_cols",
    "Rxls.C40_rows_move_up",
    "Rxls.C40_xlsx_skip_cols"
   ],
   "note": "As stated for both readers; C40_rows_move_up shows why the proviso is needed."
  },
  {
   "property": "C41",
   "status": "proved",
   "theorems": [
    "Rxls.C41_callbacks",
    "Rxls.C41_callbacks_window",
    "Rxls.C41_xlsx_callbacks",
    "Rxls.C41_xlsx_callbacks_limit"
   ],
   "note": "As stated for both readers."
  },
  {
   "property": "C42",
   "status": "partial",
   "theorems": [
    "Rxls.C42_exact",
    "Rxls.C42_rows_in_place",
    "Rxls.C42_rows_in_place_keep",
    "Rxls.C42_cell",
    "Rxls.C42_whitespace",
    "Rxls.C42_cut_after_leading_empty_rows",
    "Rxls.C42_cell_findings"
   ],
   "note": "As stated for sheets without leading empty rows (or with take_rows_non_empty=False); C42_cut_after_leading_empty_rows and C42_cell_findings show the failures. C42_exact: the sheets that are given whole."
  },
  {
   "property": "C43",
   "status": "partial",
   "theorems": [
    "Rxls.C43_exact",
    "Rxls.C43_agree_partial",
    "Rxls.C43_disagree"
   ],
   "note": "False as stated (C43_disagree); C43_agree_partial gives the sheets on which the formats agree. C43_exact is an iff."
  },
  {
   "property": "C44",
   "status": "proved",
   "theorems": [
    "Rxls.C44_in_order",
    "Rxls.C44_no_deadlock",
    "Rxls.C44_terminates",
    "Rxls.C44_delivers_all"
   ],
   "note": "As stated: order for every schedule, no deadlock, every schedule terminates and delivers everything."
  },
  {
   "property": "C45",
   "status": "partial",
   "theorems": [
    "Rxls.C45_exact",
    "Rxls.C45_malformed_is_silent",
    "Rxls.C45_missing_reference_is_silent",
    "Rxls.C45_other_parts_partial"
   ],
   "note": "False for the sheet part (C45_malformed_is_silent, C45_missing_reference_is_silent); holds for the other parts (C45_other_parts_partial). C45_exact: for whole files, a defective sheet part is read as its beginning before the first failing event."
  },
  {
   "property": "C46",
   "status": "proved",
   "theorems": [
    "Rxls.C46_xlsb_aligned",
    "Rxls.C46_xlsx_aligned"
   ],
   "note": "As stated for both formats."
  },
  {
   "property": "C47",
   "status": "partial",
   "theorems": [
    "Rxls.C47_single_run_partial",
    "Rxls.C47_only_first_run",
    "Rxls.C47_exact",
    "Rxls.C47_second_run_lost"
   ],
   "note": "False as stated (C47_only_first_run, C47_second_run_lost); holds for a single run. C47_exact gives the exact condition."
  },
  {
   "property": "C48",
   "status": "partial",
   "theorems": [
    "Rxls.C48_missing_text_makes_text",
    "Rxls.C48_xlsx_predicate",
    "Rxls.C48_xlsx_default",
    "Rxls.C48_xlsb_predicate",
    "Rxls.C48_xlsb_errors_kept",
    "Rxls.C48_first_cell_escapes",
    "Rxls.C48_xlsx_shared",
    "Rxls.C48_shared_number_tested"
   ],
   "note": "False for XLSB error texts (C48_xlsb_errors_kept), the first XLSB shared cell (C48_first_cell_escapes) and XLSX shared cells, whose number is tested (C48_shared_number_tested); the predicates and the shared tables are as stated. C48_missing_text_makes_text: a null shared string turns its column into texts."
  },
  {
   "property": "C49",
   "status": "partial",
   "theorems": [
    "Rxls.C49_detection_partial",
    "Rxls.C49_escape_findings",
    "Rxls.C49_semicolon_in_literal"
   ],
   "note": "Proved for formats whose escapes are plain; false otherwise (C49_escape_findings, C49_semicolon_in_literal)."
  },
  {
   "property": "C50",
   "status": "proved",
   "theorems": [
    "Rxls.C50_builtin_dates",
    "Rxls.C50_builtin_numbers",
    "Rxls.C50_classification",
    "Rxls.C50_cell_type",
    "Rxls.C50_numeric_test"
   ],
   "note": "As stated, with the numeric test of the code; C50_numeric_test and C50_builtin_numbers record what that test does. C50_builtin_dates ties the list of date formats to the standard."
  },
  {
   "property": "C51",
   "status": "partial",
   "theorems": [
    "Rxls.C51_exact",
    "Rxls.C51_classification_partial",
    "Rxls.C51_length_as_text",
    "Rxls.C51_low_byte"
   ],
   "note": "C51_exact is the exact behaviour; false as stated (C51_length_as_text, C51_low_byte)."
  },
  {
   "property": "C52",
   "status": "proved",
   "theorems": [
    "Rxls.C52_select",
    "Rxls.C52_xlsb_sheets",
    "Rxls.C52_xlsb_null",
    "Rxls.C52_xlsx_sheets",
    "Rxls.C52_chart_sheet"
   ],
   "note": "Selection as stated; sheet lists of both formats; C52_chart_sheet records the KeyError on chart sheets."
  },
  {
   "property": "C53",
   "status": "proved",
   "theorems": [
    "Rxls.C53_held_names",
    "Rxls.C53_held_one_row",
    "Rxls.C53_header_names",
    "Rxls.C53_text_header",
    "Rxls.C53_composition"
   ],
   "note": "As stated, for every sheet of present cells with conflict resolution off; C53_composition is the composition on any grid. C53_held_names covers missing shared strings and any resolution, exceptions included; C53_held_one_row: one header row never fails."
  },
  {
   "property": "C54",
   "status": "partial",
   "theorems": [
    "Rxls.C54_duplicate_names",
    "Rxls.C54_discarded_names",
    "Rxls.C54_positional_partial",
    "Rxls.C54_exact"
   ],
   "note": "False as stated (C54_duplicate_names): the unique names are computed and thrown away (C54_discarded_names). Names by position are unique. C54_exact: the names are unique exactly when the header texts are."
  },
  {
   "property": "C55",
   "status": "proved",
   "theorems": [
    "Rxls.C55_held_lookup",
    "Rxls.C55_by_column",
    "Rxls.C55_by_pattern",
    "Rxls.C55_not_found",
    "Rxls.C55_no_such_column"
   ],
   "note": "As stated, with conflict resolution off. C55_held_lookup covers missing shared strings and any resolution."
  },
  {
   "property": "C56",
   "status": "proved",
   "theorems": [
    "Rxls.C56_or",
    "Rxls.C56_and",
    "Rxls.C56_operators",
    "Rxls.C56_refused",
    "Rxls.C56_single_unchecked",
    "Rxls.C56_filter_columns",
    "Rxls.C56_kept_rows",
    "Rxls.C56_presence",
    "Rxls.C56_filter_without_column"
   ],
   "note": "As stated; C56_filter_without_column and C56_single_unchecked record that a filter matching no column and a bad strategy with one filter are ignored."
  },
  {
   "property": "C57",
   "status": "proved",
   "theorems": [
    "Rxls.C57_data_or_end",
    "Rxls.C57_no_data",
    "Rxls.C57_held_row_count",
    "Rxls.C57_zero_length_finding",
    "Rxls.C57_rectangular",
    "Rxls.C57_row_count",
    "Rxls.C57_always_fits",
    "Rxls.C57_header_only"
   ],
   "note": "As stated; C57_header_only records that a sheet without data rows is refused. C57_held_row_count covers missing shared strings and any resolution. C57_no_data: without data rows the result is an error, ValueError if the names can be read; C57_data_or_end: the whole-read theorems need no data row if there are no filters and rows without a value are dropped. C57_zero_length_finding: when no column starts in row 0, a length of 0 or less reads rows nonetheless."
  },
  {
   "property": "C58",
   "status": "partial",
   "theorems": [
    "Rxls.C58_held_within_partial",
    "Rxls.C58_exact",
    "Rxls.C58_last_row_lost",
    "Rxls.C58_lookup_loses",
    "Rxls.C58_within_span_partial",
    "Rxls.C58_beyond_span_lost",
    "Rxls.C58_full_column_partial",
    "Rxls.C58_rows_returned"
   ],
   "note": "False as stated (C58_last_row_lost, C58_lookup_loses); holds for rows below the greatest span of a column. C58_beyond_span_lost: exactly the cells at or below that row are lost. C58_held_within_partial covers missing shared strings and any resolution. C58_exact: a cell at or below the first data row has a row in the table iff its row is less than the greatest span of a column (plus the rows by which a negative skip_rows_after_header exceeds the header)."
  },
  {
   "property": "C59",
   "status": "proved",
   "theorems": [
    "Rxls.C59_kind",
    "Rxls.C59_nothing_else"
   ],
   "note": "As stated."
  },
  {
   "property": "C60",
   "status": "proved",
   "theorems": [
    "Rxls.C60_explicit",
    "Rxls.C60_columns",
    "Rxls.C60_refused",
    "Rxls.C60_positional"
   ],
   "note": "As stated."
  },
  {
   "property": "C61",
   "status": "proved",
   "theorems": [
    "Rxls.C61_applied",
    "Rxls.C61_succeeds",
    "Rxls.C61_failing_cast",
    "Rxls.C61_length",
    "Rxls.C61_parameters_ignored"
   ],
   "note": "As stated, for any library of arrays and casts; C61_parameters_ignored records that types are compared by id only."
  },
  {
   "property": "C62",
   "status": "proved",
   "theorems": [
    "Rxls.C62_xlsb_bytes_to_table",
    "Rxls.C62_default"
   ],
   "note": "Whole XLSB path: bytes of the parts, record scan, sheet list, styles, shared strings, cells, columns, table. Conditions: resolvable columns (C68), no shared string is null, row and column limits at their defaults, at least one data row (C57)."
  },
  {
   "property": "C63",
   "status": "proved",
   "theorems": [
    "Rxls.C63_xlsx_to_table",
    "Rxls.C63_xlsx_full",
    "Rxls.C63_no_clash"
   ],
   "note": "Conditions: resolvable columns (C68), at least one data row (C57). The rows given for each skip_rows, take_rows, take_rows_non_empty are the exact ones of C38 and C42 (xlsxRows). C63_xlsx_full needs no resolvable columns, no data row (C57_data_or_end) and allows missing shared texts. The outcome includes the exception of temporal resolution among shared strings."
  },
  {
   "property": "C64",
   "status": "proved",
   "theorems": [
    "Rxls.C64_xlsb_to_table",
    "Rxls.C64_xlsb_full"
   ],
   "note": "Conditions as for C63. Generalises C62 to all row and column arguments. C64_xlsb_full needs no resolvable columns and allows null shared strings and empty sheets. The outcome includes the exception of temporal resolution among shared strings."
  },
  {
   "property": "C65",
   "status": "partial",
   "theorems": [
    "Rxls.C65_rows_exact",
    "Rxls.C65_same_rows_partial",
    "Rxls.C65_formats_agree_partial",
    "Rxls.C65_disagree"
   ],
   "note": "False as stated (C65_disagree). Proved when no row is empty, or when empty rows are counted and the first row is not empty. C65_rows_exact is an iff on the delivered rows, for all skip, take and keep arguments; C65_same_rows_partial carries it to tables."
  },
  {
   "property": "C66",
   "status": "partial",
   "theorems": [
    "Rxls.C66_skip_rows_default",
    "Rxls.C66_skip_rows_partial",
    "Rxls.C66_exact"
   ],
   "note": "False with the default take_rows_non_empty: every file of either format raises ValueError (C66_skip_rows_default). C66_skip_rows_partial says what holds with take_rows_non_empty=True. C66_exact gives the condition on the sheet in each case."
  },
  {
   "property": "C67",
   "status": "partial",
   "theorems": [
    "Rxls.C67_missing_part",
    "Rxls.C67_missing_part_example"
   ],
   "note": "False: C67_missing_part proves that no file of either format without one of these parts is ever read."
  },
  {
   "property": "C68",
   "status": "partial",
   "theorems": [
    "Rxls.C68_history_exact",
    "Rxls.C68_history",
    "Rxls.C68_held",
    "Rxls.C68_held_default",
    "Rxls.C68_lookup_size_finding",
    "Rxls.C68_off",
    "Rxls.C68_numeric_partial",
    "Rxls.C68_temporal_partial",
    "Rxls.C68_serial_partial",
    "Rxls.C68_number_changed",
    "Rxls.C68_date_and_text_raises",
    "Rxls.C68_text_changed",
    "Rxls.C68_exact",
    "Rxls.C68_exact_default",
    "Rxls.C68_numeric_exact",
    "Rxls.C68_temporal_exact",
    "Rxls.C68_shared_texts_raise"
   ],
   "note": "Proved for whole tables. Numeric resolution: the texts of a column are all numbers or none. Temporal resolution: no text stands beside a date, or the texts are inline and are all dates or none. False otherwise: C68_date_and_text_raises, C68_text_changed; a number is shown as a date in a text column: C68_number_changed. C68_shared_texts_raise: every read without lookup, header and filters raises when a column has a moment and shared texts. C68_exact gives the result for every setting and all texts, run by run, unless a column has both moments and shared strings; C68_numeric_exact and C68_temporal_exact give the exact type and the texts that are rewritten. C68_held and C68_held_default give the exact table with missing shared strings. C68_history drops the last condition: the exact outcome, exception included, for all valid cells and settings; C68_lookup_size_finding: it depends on what lookup and header have read before. C68_history_exact: also without data rows."
  },
  {
   "property": "C69",
   "status": "proved",
   "theorems": [
    "Rxls.C69_xlsx_full",
    "Rxls.C69_xlsb_full",
    "Rxls.C69_null_number_finding",
    "Rxls.C69_xlsx",
    "Rxls.C69_xlsb",
    "Rxls.C69_no_workbook",
    "Rxls.C69_negative_rows",
    "Rxls.C69_conflict_words",
    "Rxls.C69_unknown_word",
    "Rxls.C69_formats"
   ],
   "note": "End to end through C63 and C64. C69_unknown_word: a misspelt conflict_resolve means \"no\". XLSB does not apply the error texts (C48). C69_xlsx_full/C69_xlsb_full as C63_xlsx_full/C64_xlsb_full. C69_null_number_finding: null_values test the numbers of shared strings (C48)."
  },
  {
   "property": "C70",
   "status": "partial",
   "theorems": [
    "Rxls.C70_time_part",
    "Rxls.C70_date_part_partial",
    "Rxls.C70_date_part_exact",
    "Rxls.C70_old_dates_missed"
   ],
   "note": "dt_has_t as stated. dt_has_d is false on 1970-01-02 00:00 and on every earlier date (C70_old_dates_missed: all Excel dates of 1900-1969); proved elsewhere. C70_date_part_exact: dt_has_d is exactly 'some timestamp is later than midnight of 1970-01-02'."
  },
  {
   "property": "C71",
   "status": "partial",
   "theorems": [
    "Rxls.C71_kernels_agree",
    "Rxls.C71_large",
    "Rxls.C71_large_negative",
    "Rxls.C71_exact"
   ],
   "note": "Proved up to 2^31-2 in magnitude and for all numbers that are not whole; false for whole numbers from 2^31 (C71_large gives both results). C71_large_negative: the same below -2^31-1. C71_exact: for whole numbers below 2^40 in magnitude, the two agree exactly from -2^31-1 to 2^31-1 and at the multiples of 2^30 beyond."
  },
  {
   "property": "C72",
   "status": "proved",
   "theorems": [
    "Rxls.C72_shown_number",
    "Rxls.C72_standard_numbers",
    "Rxls.C72_repr_injective",
    "Rxls.C72_shown_number_any",
    "Rxls.C72_size_field",
    "Rxls.C72_content_field",
    "Rxls.C72_layout"
   ],
   "note": "The numbers of the standard are checked for the 45 records of workbooks, sheets, shared strings and styles."
  },
  {
   "property": "C73",
   "status": "proved",
   "theorems": [
    "Rxls.C73_compiled",
    "Rxls.C73_agree"
   ],
   "note": "C73_compiled holds for every byte string, including those that overflow."
  },
  {
   "property": "C74",
   "status": "proved",
   "theorems": [
    "Rxls.C74_other_records_ignored",
    "Rxls.C74_rich_text_lost"
   ],
   "note": "As stated. C74_rich_text_lost: the ignored records include rich text cells (BrtCellRString)."
  },
  {
   "property": "C75",
   "status": "partial",
   "theorems": [
    "Rxls.C75_xlsb_same",
    "Rxls.C75_xlsx_same",
    "Rxls.C75_same_table_partial",
    "Rxls.C75_cut_part",
    "Rxls.C75_exact",
    "Rxls.C75_cut_part_example"
   ],
   "note": "Proved when the XLSB parts consist of complete records and the references have a proper column; false when a part ends inside a record. C75_exact gives the exact condition on the parts."
  },
  {
   "property": "C76",
   "status": "partial",
   "theorems": [
    "Rxls.C76_relative_targets_partial",
    "Rxls.C76_exact",
    "Rxls.C76_absolute_targets",
    "Rxls.C76_absolute_targets_example",
    "Rxls.C76_dot_segments"
   ],
   "note": "Proved for relative targets without dot segments; false for the others, no such file can be read. C76_exact gives the exact condition on the targets."
  },
  {
   "property": "C77",
   "status": "partial",
   "theorems": [
    "Rxls.C77_other_markup_partial",
    "Rxls.C77_outside_cells",
    "Rxls.C77_prefixed_elements",
    "Rxls.C77_prefixed_elements_example"
   ],
   "note": "Proved except for prefixes; files with prefixed elements cannot be read."
  },
  {
   "property": "C78",
   "status": "partial",
   "theorems": [
    "Rxls.C78_flag_ignored_xlsx",
    "Rxls.C78_flag_ignored_xlsb",
    "Rxls.C78_1900_system_partial",
    "Rxls.C78_four_years"
   ],
   "note": "Proved for the 1900 system; the flag of the 1904 system is ignored, dates are 1462 days early."
  },
  {
   "property": "C79",
   "status": "proved",
   "theorems": [
    "Rxls.C79_workbook_part",
    "Rxls.C79_sheet_element",
    "Rxls.C79_string_items",
    "Rxls.C79_format_elements",
    "Rxls.C79_cell_elements",
    "Rxls.C79_record_numbers",
    "Rxls.C79_conflict_words",
    "Rxls.C79_made_up_names"
   ],
   "note": "Attribute order and other markup are C77's subject."
  },
  {
   "property": "C80",
   "status": "partial",
   "theorems": [
    "Rxls.C80_texts_partial",
    "Rxls.C80_two_digit_year_loses_date",
    "Rxls.C80_before_1970",
    "Rxls.C80_midnights",
    "Rxls.C80_exact",
    "Rxls.C80_right_exact",
    "Rxls.C80_leading_space"
   ],
   "note": "Proved for moments after 1970-01-01 00:00 and no time after a two-digit year; false otherwise. C80_exact gives the outcome for every column of such texts; C80_right_exact is the exact condition. C80_leading_space: white space before a text makes no difference."
  },
  {
   "property": "C81",
   "status": "partial",
   "theorems": [
    "Rxls.C81_two_filters_mean_or",
    "Rxls.C81_two_filters_partial",
    "Rxls.C81_one_filter",
    "Rxls.C81_no_header_names",
    "Rxls.C81_given_names"
   ],
   "note": "The default strategy is `or` where the README says AND, and the names have a dot, not a colon. The other examples hold."
  },
  {
   "property": "C82",
   "status": "partial",
   "theorems": [
    "Rxls.C82_not_open",
    "Rxls.C82_while_open",
    "Rxls.C82_cells",
    "Rxls.C82_stable",
    "Rxls.C82_value",
    "Rxls.C82_closed",
    "Rxls.C82_closed_exact",
    "Rxls.C82_xlsx_cells",
    "Rxls.C82_xlsb_cells_partial",
    "Rxls.C82_xlsb_depends",
    "Rxls.C82_stale",
    "Rxls.C82_failed_enter",
    "Rxls.C82_opens"
   ],
   "note": "Proved over all histories, except: XLSB cells depend on whether shared was read before when a shared string is null (C82_xlsb_depends); an object opened again with a changed file serves the old parts (C82_stale, and by C82_stable always); a failed __enter__ leaves the object open (C82_failed_enter). C82_closed_exact: what every part of an object opened and closed gives, exactly."
  },
  {
   "property": "C83",
   "status": "partial",
   "theorems": [
    "Rxls.C83_made",
    "Rxls.C83_plain",
    "Rxls.C83_lost",
    "Rxls.C83_calls",
    "Rxls.C83_defaults"
   ],
   "note": "Proved for functions with option classes and for plain ones by position. False for named arguments of functions without options or with fixed ones, and for extra positional arguments of the latter, which are ignored (C83_lost). All calls in rxls are unaffected (C83_calls). C83_defaults: what is left out takes pyarrow's default."
  },
  {
   "property": "C84",
   "status": "proved",
   "theorems": [
    "Rxls.C84_document",
    "Rxls.C84_cut",
    "Rxls.C84_bytes",
    "Rxls.C84_exact",
    "Rxls.C84_classes",
    "Rxls.C84_roundtrip"
   ],
   "note": "The parser is a model of the XML recommendation and of expat's interface. Outside: DOCTYPE (counted as an error), other encodings than UTF-8."
  },
  {
   "property": "C85",
   "status": "proved",
   "theorems": [
    "Rxls.C85_xlsx_parts",
    "Rxls.C85_xlsx",
    "Rxls.C85_xlsb",
    "Rxls.C85_malformed_sheet",
    "Rxls.C85_vocabulary",
    "Rxls.C85_xlsx_full",
    "Rxls.C85_xlsb_full",
    "Rxls.C85_last_entry",
    "Rxls.C85_written_full",
    "Rxls.C85_written_xlsb_full",
    "Rxls.C85_bad_rels",
    "Rxls.C85_written_xlsb",
    "Rxls.C85_written"
   ],
   "note": "Inherits the conditions of C63/C64/C69. C85_malformed_sheet: a malformed sheet part is silently truncated (as C45). C85_xlsx_full/C85_xlsb_full; C85_last_entry: of entries with one name the last is read. C85_bad_rels: archives with an ill-formed or missing relationship part are refused. C85_written_full/C85_written_xlsb_full: written workbooks with null shared strings and any conflict_resolve, errors included."
  },
  {
   "property": "C86",
   "status": "proved",
   "theorems": [
    "Rxls.C86_view_exact",
    "Rxls.C86_roundtrip",
    "Rxls.C86_slice_elements",
    "Rxls.C86_slice_and_null",
    "Rxls.C86_other_size"
   ],
   "note": "As stated; C86_view_exact is the exact condition for the view to be the elements; C86_slice_and_null and C86_other_size record what happens outside."
  },
  {
   "property": "C87",
   "status": "proved",
   "theorems": [
    "Rxls.C87_exact",
    "Rxls.C87_int_exact",
    "Rxls.C87_number_text",
    "Rxls.C87_seventeen_digits",
    "Rxls.C87_both_formats",
    "Rxls.C87_shared_number",
    "Rxls.C87_text_becomes_number"
   ],
   "note": "As stated, for Python's float() as modelled in Model/NumText (ASCII digits). C87_shared_number: indices of shared strings. C87_text_becomes_number records texts that become numbers. C87_exact and C87_int_exact: outcome for every text."
  },
  {
   "property": "C88",
   "status": "partial",
   "theorems": [
    "Rxls.C88_full",
    "Rxls.C88_same_table_partial",
    "Rxls.C88_formats",
    "Rxls.C88_general"
   ],
   "note": "C88_same_table_partial for number formats both readers know (exactly which: C88_formats), texts as shared strings without surrounding white space, rows both formats show (C65_rows_exact). C88_general: numbers in General or percent cells are texts in XLSX only. C88_full: any conflict_resolve setting; the same table or the same error."
  },
  {
   "property": "C89",
   "status": "partial",
   "theorems": [
    "Rxls.C89_exact",
    "Rxls.C89_date_is_no_number",
    "Rxls.C89_column_partial",
    "Rxls.C89_type",
    "Rxls.C89_xlsx_partial",
    "Rxls.C89_xlsb_partial",
    "Rxls.C89_plus"
   ],
   "note": "C89_column_partial for one column and C89_xlsx_partial, C89_xlsb_partial for whole archives; C89_type gives the type. Missing: texts with a plus sign (C89_plus: Arrow refuses them), moments up to 1970 and times other than midnight after a year of two digits (C80), shared strings among moments (C68), columns that end before the last row. C89_exact characterises the texts that are numbers."
  },
  {
   "property": "C90",
   "status": "partial",
   "theorems": [
    "Rxls.C90_exact",
    "Rxls.C90_rows_exist_partial",
    "Rxls.C90_extra_rows_null",
    "Rxls.C90_extra_rows_finding"
   ],
   "note": "C90_exact gives the condition; C90_rows_exist_partial: it holds if no more rows are taken back than the header has; C90_extra_rows_null. Missing: false for more negative counts (C90_extra_rows_finding)."
  },
  {
   "property": "C91",
   "status": "partial",
   "theorems": [
    "Rxls.C91_predicates",
    "Rxls.C91_xlsx",
    "Rxls.C91_xlsb_exact",
    "Rxls.C91_take",
    "Rxls.C91_nulls",
    "Rxls.C91_prepare",
    "Rxls.C91_converted_numeric",
    "Rxls.C91_converted_temporal",
    "Rxls.C91_converted_is_skipped"
   ],
   "note": "C91_xlsx, C91_xlsb_exact, C91_take, C91_nulls, C91_prepare, C91_predicates hold without conditions. Missing: false for converted chunks (C91_converted_numeric, C91_converted_temporal: size 0; C91_converted_is_skipped)."
  },
  {
   "property": "C92",
   "status": "partial",
   "theorems": [
    "Rxls.C92_nulls",
    "Rxls.C92_then_add",
    "Rxls.C92_mask_finding",
    "Rxls.C92_mask_exact",
    "Rxls.C92_length_finding"
   ],
   "note": "Proved without a mask (C92_nulls, C92_then_add). With a mask the number of rows is right only if the mask keeps all rows (C92_mask_exact, C92_mask_finding), and the length of the empty column is 1 (C92_length_finding)."
  },
  {
   "property": "C93",
   "status": "partial",
   "theorems": [
    "Rxls.C93_no_date_missed",
    "Rxls.C93_padding_partial",
    "Rxls.C93_padding_finding",
    "Rxls.C93_styles_finding"
   ],
   "note": "False (C93_padding_finding, C93_styles_finding: `#,##0 _D_M` is a date). C93_no_date_missed: dates are always recognised; C93_padding_partial: exact when no padding is as wide as a date letter."
  },
  {
   "property": "C94",
   "status": "partial",
   "theorems": [
    "Rxls.C94_meant_stored",
    "Rxls.C94_exact",
    "Rxls.C94_plain_partial",
    "Rxls.C94_exact_text",
    "Rxls.C94_escape_finding"
   ],
   "note": "False (C94_escape_finding): the sequences are returned as text. C94_meant_stored: the escaping is invertible; C94_exact, C94_exact_text: exactly the texts without sequences are read as meant; C94_plain_partial."
  },
  {
   "property": "C95",
   "status": "partial",
   "theorems": [
    "Rxls.C95_one_sheet",
    "Rxls.C95_entries",
    "Rxls.C95_order",
    "Rxls.C95_fixed_names",
    "Rxls.C95_case_finding"
   ],
   "note": "The independence is proved in full. Lookup by relationship and without case is refuted: exact fixed names are necessary."
  },
  {
   "property": "C96",
   "status": "partial",
   "theorems": [
    "Rxls.C96_exact",
    "Rxls.C96_no_false_date",
    "Rxls.C96_elapsed_partial",
    "Rxls.C96_elapsed_finding",
    "Rxls.C96_styles_finding"
   ],
   "note": "False for upper case and for three letters when no other field is present (C96_elapsed_finding, C96_styles_finding). C96_exact says which codes are taken; C96_no_false_date; C96_elapsed_partial."
  },
  {
   "property": "C97",
   "status": "partial",
   "theorems": [
    "Rxls.C97_order_of_cells_partial",
    "Rxls.C97_title_finding",
    "Rxls.C97_order_finding"
   ],
   "note": "Proved for every lookup_head but a pattern, and for a pattern when the columns have their first cells in the same order. False otherwise (C97_order_finding, C97_title_finding)."
  },
  {
   "property": "C98",
   "status": "partial",
   "theorems": [
    "Rxls.C98_text",
    "Rxls.C98_injective",
    "Rxls.C98_column",
    "Rxls.C98_reread_finding"
   ],
   "note": "Text and injectivity are proved. Reading the text again is violated without polars: no default format has fractions of a second, so none of these texts is read (C98_reread_finding)."
  },
  {
   "property": "C99",
   "status": "partial",
   "theorems": [
    "Rxls.C99_left_out_partial",
    "Rxls.C99_own_cells",
    "Rxls.C99_rows_finding",
    "Rxls.C99_names_finding"
   ],
   "note": "false when leaving out a column changes the number of rows (C99_rows_finding) and for the names of a header over several rows (C99_names_finding)"
  },
  {
   "property": "C100",
   "status": "partial",
   "theorems": [
    "Rxls.C100_reasons",
    "Rxls.C100_plain",
    "Rxls.C100_xlsx",
    "Rxls.C100_xlsb",
    "Rxls.C100_all_occur"
   ],
   "note": "C100_xlsx, C100_xlsb: default arguments, as stated. C100_plain: header heights, an iff. C100_reasons: the other exceptions and the only reasons for them: a lookup_head number that is no column (KeyError), refused patterns, row_filters_strategy of a wrong type (TypeError), shared strings beside dates under temporal resolution (ArrowNotImplementedError). C100_all_occur: they all occur."
  },
  {
   "property": "C101",
   "status": "partial",
   "theorems": [
    "Rxls.C101_column_partial",
    "Rxls.C101_xlsx_partial",
    "Rxls.C101_xlsb_partial",
    "Rxls.C101_exact",
    "Rxls.C101_texts_partial",
    "Rxls.C101_reread",
    "Rxls.C101_time_alone_finding",
    "Rxls.C101_zone_finding"
   ],
   "note": "Exact for the styles after a date and for 24-hour times alone; violated up to 1970-01-01 00:00, for times alone with milliseconds or AM/PM, and for time zones."
  },
  {
   "property": "C102",
   "status": "partial",
   "theorems": [
    "Rxls.C102_exact",
    "Rxls.C102_table_column",
    "Rxls.C102_same_column_partial",
    "Rxls.C102_finding"
   ],
   "note": "False for row_filters when a column further left is empty (C102_finding); exact condition C102_exact."
  },
  {
   "property": "C103",
   "status": "partial",
   "theorems": [
    "Rxls.C103_exact",
    "Rxls.C103_differential_partial",
    "Rxls.C103_xlsb",
    "Rxls.C103_finding"
   ],
   "note": "Holds for XLSB (C103_xlsb). For XLSX the last numFmt of an id counts, wherever it stands (C103_exact); unchanged if no id is shared (C103_differential_partial), false otherwise: a table column of percentages makes the dates of a workbook numbers (C103_finding)."
  },
  {
   "property": "C104",
   "status": "partial",
   "theorems": [
    "Rxls.C104_xlsx_exact",
    "Rxls.C104_xlsx_deadlock",
    "Rxls.C104_xlsx_silent",
    "Rxls.C104_xlsx_read",
    "Rxls.C104_xlsx_partial",
    "Rxls.C104_xlsb",
    "Rxls.C104_xlsb_no_loss",
    "Rxls.C104_callback_finding"
   ],
   "note": "Proved for XLSB (C104_xlsb; C104_xlsb_no_loss also for null_values). False for XLSX: C104_xlsx_exact gives the outcome in every case. An exception in the first call comes before the try statement, so the sentinel is never put and read hangs (C104_xlsx_deadlock); later ones cut the table silently (C104_xlsx_silent, C104_xlsx_read, C104_callback_finding)."
  },
  {
   "property": "C105",
   "status": "partial",
   "theorems": [
    "Rxls.C105_exact",
    "Rxls.C105_style_number_partial",
    "Rxls.C105_shorter",
    "Rxls.C105_style_number_finding"
   ],
   "note": "C105_exact: the list the code takes, and C105_shorter: it is too short if an xfId is missing. C105_style_number_partial: as stated if all cell formats and no style formats have an xfId. Missing: false otherwise (C105_style_number_finding)."
  },
  {
   "property": "C106",
   "status": "partial",
   "theorems": [
    "Rxls.C106_exact",
    "Rxls.C106_declared_partial",
    "Rxls.C106_unused",
    "Rxls.C106_type_finding",
    "Rxls.C106_iso_finding",
    "Rxls.C106_xlsb"
   ],
   "note": "C106_exact: exact pairs; C106_unused: t other than s is ignored"
  },
  {
   "property": "C107",
   "status": "proved",
   "theorems": [
    "Rxls.C107_xlsx",
    "Rxls.C107_xlsb"
   ],
   "note": "proved at the level of read for both formats"
  },
  {
   "property": "C108",
   "status": "partial",
   "theorems": [
    "Rxls.C108_exact",
    "Rxls.C108_guides_partial",
    "Rxls.C108_guide_finding"
   ],
   "note": "C108_exact: exact condition for a string"
  },
  {
   "property": "C109",
   "status": "partial",
   "theorems": [
    "Rxls.C109_xlsb_partial",
    "Rxls.C109_xlsx_partial",
    "Rxls.C109_xlsx_finding",
    "Rxls.C109_keep_finding"
   ],
   "note": "XLSB: proved for take_rows_non_empty=False; XLSX: for rows above the first one"
  },
  {
   "property": "C110",
   "status": "partial",
   "theorems": [
    "Rxls.C110_prefix",
    "Rxls.C110_ends",
    "Rxls.C110_no_deadlock",
    "Rxls.C110_terminates",
    "Rxls.C110_unread",
    "Rxls.C110_whole",
    "Rxls.C110_quiet_partial",
    "Rxls.C110_traceback_finding",
    "Rxls.C110_window_finding"
   ],
   "note": "everything but the traceback is proved; the thread dies with an unexpected AttributeError when the file is closed before its `seek` or `read` (C110_traceback_finding, C110_window_finding)"
  },
  {
   "property": "C111",
   "status": "partial",
   "theorems": [
    "Rxls.C111_first_piece",
    "Rxls.C111_shared_exact",
    "Rxls.C111_shared_bound",
    "Rxls.C111_cell_exact",
    "Rxls.C111_short_partial",
    "Rxls.C111_long_finding"
   ],
   "note": "exact: whole iff at most 8192 bytes (and no blanks around it, not null); of a longer text only the first piece is read (C111_long_finding)"
  },
  {
   "property": "C112",
   "status": "proved",
   "theorems": [
    "Rxls.C112_formats",
    "Rxls.C112_one_sort",
    "Rxls.C112_mixed_depends",
    "Rxls.C112_numeral_depends",
    "Rxls.C112_precision_depends"
   ],
   "note": "C112_formats (any file, any conflict_resolve but temporal/all), C112_one_sort (both formats, through readFile); C112_mixed_depends, C112_numeral_depends, C112_precision_depends show that the conditions are needed. In an XLSX file cells typed as moments or numbers must contain numbers."
  },
  {
   "property": "C113",
   "status": "partial",
   "theorems": [
    "Rxls.C113_xlsx_same",
    "Rxls.C113_shared_exact",
    "Rxls.C113_cell_exact",
    "Rxls.C113_xlsx_partial",
    "Rxls.C113_xlsb",
    "Rxls.C113_blanks_finding"
   ],
   "note": "C113_xlsb proved; for XLSX C113_xlsx_partial with the exact conditions C113_shared_exact, C113_cell_exact; C113_xlsx_same: blanks at the ends never matter; C113_blanks_finding."
  },
  {
   "property": "C114",
   "status": "partial",
   "theorems": [
    "Rxls.C114_exact",
    "Rxls.C114_read_refused",
    "Rxls.C114_filled_partial",
    "Rxls.C114_missing_finding"
   ],
   "note": "C114_filled_partial; C114_exact: the outcome of every styles part; C114_read_refused, C114_missing_finding."
  },
  {
   "property": "C115",
   "status": "partial",
   "theorems": [
    "Rxls.C115_lookup_exact",
    "Rxls.C115_payload_exact",
    "Rxls.C115_xlsx_partial",
    "Rxls.C115_xlsb_partial",
    "Rxls.C115_file_partial",
    "Rxls.C115_memory_finding"
   ],
   "note": "proved for files whose references can be followed; the code violates it for others (C115_memory_finding)"
  },
  {
   "property": "C116",
   "status": "proved",
   "theorems": [
    "Rxls.C116_sheet",
    "Rxls.C116_xlsx",
    "Rxls.C116_xlsb"
   ],
   "note": "XLSX: exact for every event sequence. XLSB: for parts written from records."
  },
  {
   "property": "C117",
   "status": "partial",
   "theorems": [
    "Rxls.C117_xlsx_lost",
    "Rxls.C117_xlsb_rich_lost",
    "Rxls.C117_xlsb_partial",
    "Rxls.C117_inline_finding",
    "Rxls.C117_inline_refused"
   ],
   "note": "False for XLSX inline strings and XLSB rich strings: proved lost for all files and arguments. Proved for the XLSB records 6 and 8."
  },
  {
   "property": "C118",
   "status": "partial",
   "theorems": [
    "Rxls.C118_xlsx_cells",
    "Rxls.C118_xlsx_partial",
    "Rxls.C118_xlsb_cells",
    "Rxls.C118_xlsb_partial",
    "Rxls.C118_xlsb_finding",
    "Rxls.C118_title_finding"
   ],
   "note": "C118_xlsx_partial, C118_xlsb_partial: if the rows stay and the table keeps its height (XLSB: no null shared string). False otherwise (C118_xlsb_finding, C118_title_finding)."
  },
  {
   "property": "C119",
   "status": "partial",
   "theorems": [
    "Rxls.C119_xlsx",
    "Rxls.C119_xlsb",
    "Rxls.C119_promise",
    "Rxls.C119_finding"
   ],
   "note": "proved what happens; the promise fails unless header and skipped rows are one row together"
  },
  {
   "property": "C120",
   "status": "partial",
   "theorems": [
    "Rxls.C120_xlsx_partial",
    "Rxls.C120_xlsb_partial",
    "Rxls.C120_rows_finding",
    "Rxls.C120_resolution_finding"
   ],
   "note": "C120_xlsx_partial, C120_xlsb_partial: with a full column, and columns that can be resolved value by value. False otherwise (C120_rows_finding, C120_resolution_finding)."
  },
  {
   "property": "C121",
   "status": "proved",
   "theorems": [
    "Rxls.C121_xlsx",
    "Rxls.C121_xlsb",
    "Rxls.C121_file",
    "Rxls.C121_two_counts"
   ],
   "note": "C121_xlsx, C121_xlsb, C121_file; C121_two_counts"
  },
  {
   "property": "C122",
   "status": "partial",
   "theorems": [
    "Rxls.C122_grid",
    "Rxls.C122_stored_partial",
    "Rxls.C122_conditions"
   ],
   "note": "C122_stored_partial; see C88 for the workbooks left out"
  },
  {
   "property": "C123",
   "status": "partial",
   "theorems": [
    "Rxls.C123_accepted_partial",
    "Rxls.C123_exact",
    "Rxls.C123_finding",
    "Rxls.C123_every_precision",
    "Rxls.C123_no_digits",
    "Rxls.C123_column",
    "Rxls.C123_file_finding"
   ],
   "note": "False (C123_finding, C123_file_finding: odd numbers from 576460752305 on); C123_accepted_partial up to 2^53/5^float_precision; C123_exact is an iff up to the next power of two; C123_no_digits: proved for float_precision=0."
  },
  {
   "property": "C124",
   "status": "proved",
   "theorems": [
    "Rxls.C124_column",
    "Rxls.C124_table",
    "Rxls.C124_file",
    "Rxls.C124_rows_finding"
   ],
   "note": "Any sheet values, any first read without dtypes; second read from a grid or from archives of both formats."
  },
  {
   "property": "C125",
   "status": "proved",
   "theorems": [
    "Rxls.C125_column",
    "Rxls.C125_table",
    "Rxls.C125_xlsx",
    "Rxls.C125_xlsb",
    "Rxls.C125_types_finding"
   ],
   "note": "All values and cuts, both formats; conditions in the statement."
  },
  {
   "property": "C126",
   "status": "partial",
   "theorems": [
    "Rxls.C126_column",
    "Rxls.C126_table",
    "Rxls.C126_xlsx",
    "Rxls.C126_xlsb",
    "Rxls.C126_large_finding",
    "Rxls.C126_file_finding"
   ],
   "note": "C126_table, C126_xlsx, C126_xlsb if no number is outside the range of int64; false otherwise (C126_large_finding, C126_file_finding)."
  },
  {
   "property": "C127",
   "status": "proved",
   "theorems": [
    "Rxls.C127_xlsx",
    "Rxls.C127_xlsb"
   ],
   "note": "Proved for both formats over all parts at once."
  },
  {
   "property": "C128",
   "status": "proved",
   "theorems": [
    "Rxls.C128_table",
    "Rxls.C128_xlsx",
    "Rxls.C128_xlsb"
   ],
   "note": ""
  },
  {
   "property": "C129",
   "status": "partial",
   "theorems": [
    "Rxls.C129_xlsx_partial",
    "Rxls.C129_xlsb_partial",
    "Rxls.C129_finding"
   ],
   "note": "Proved for texts stored in their cells. Missing: shared strings, for which it fails (C129_finding)."
  },
  {
   "property": "C130",
   "status": "proved",
   "theorems": [
    "Rxls.C130_table",
    "Rxls.C130_xlsx",
    "Rxls.C130_xlsb"
   ],
   "note": ""
  },
  {
   "property": "C131",
   "status": "partial",
   "theorems": [
    "Rxls.C131_xlsx_partial",
    "Rxls.C131_xlsb",
    "Rxls.C131_chart_finding"
   ],
   "note": "XLSB: as stated. XLSX: if all sheets are worksheets; false with a chart sheet (C131_chart_finding)."
  },
  {
   "property": "C132",
   "status": "partial",
   "theorems": [
    "Rxls.C132_xlsx_partial",
    "Rxls.C132_xlsb_partial",
    "Rxls.C132_finding"
   ],
   "note": "Proved when conflict resolution is off or a matter of values; false with conflict resolution (C132_finding)."
  },
  {
   "property": "C133",
   "status": "proved",
   "theorems": [
    "Rxls.C133_columns",
    "Rxls.C133_cells",
    "Rxls.C133_names"
   ],
   "note": ""
  },
  {
   "property": "C134",
   "status": "proved",
   "theorems": [
    "Rxls.C134_columns",
    "Rxls.C134_cells",
    "Rxls.C134_dtypes"
   ],
   "note": "C134_dtypes"
  },
  {
   "property": "C135",
   "status": "proved",
   "theorems": [
    "Rxls.C135_nulls",
    "Rxls.C135_formats",
    "Rxls.C135_filters",
    "Rxls.C135_strategy",
    "Rxls.C135_dtypes"
   ],
   "note": "C135_nulls, C135_formats, C135_filters, C135_strategy, C135_dtypes"
  },
  {
   "property": "C136",
   "status": "proved",
   "theorems": [
    "Rxls.C136_table",
    "Rxls.C136_xlsx",
    "Rxls.C136_xlsb"
   ],
   "note": "C136_table, C136_xlsx, C136_xlsb"
  },
  {
   "property": "C137",
   "status": "proved",
   "theorems": [
    "Rxls.C137_columns",
    "Rxls.C137_set_columns",
    "Rxls.C137_positions",
    "Rxls.C137_set"
   ],
   "note": "C137_positions, C137_set"
  },
  {
   "property": "C138",
   "status": "proved",
   "theorems": [
    "Rxls.C138_columns",
    "Rxls.C138_rows"
   ],
   "note": ""
  },
  {
   "property": "C139",
   "status": "partial",
   "theorems": [
    "Rxls.C139_column_xlsx",
    "Rxls.C139_pattern_xlsx_partial",
    "Rxls.C139_column_xlsb",
    "Rxls.C139_pattern_xlsb_partial",
    "Rxls.C139_finding"
   ],
   "note": "fails for patterns (C139_finding)"
  },
  {
   "property": "C140",
   "status": "proved",
   "theorems": [
    "Rxls.C140_mask",
    "Rxls.C140_rows",
    "Rxls.C140_kept",
    "Rxls.C140_ends"
   ],
   "note": ""
  },
  {
   "property": "C141",
   "status": "proved",
   "theorems": [
    "Rxls.C141_strptime",
    "Rxls.C141_same",
    "Rxls.C141_repeated",
    "Rxls.C141_defaults",
    "Rxls.C141_exchange",
    "Rxls.C141_useless",
    "Rxls.C141_appended",
    "Rxls.C141_order_matters"
   ],
   "note": "For every parser of one format. A moment of zero counts as not recognised (finding of C23)."
  },
  {
   "property": "C142",
   "status": "partial",
   "theorems": [
    "Rxls.C142_array_partial",
    "Rxls.C142_whole_partial",
    "Rxls.C142_column_partial",
    "Rxls.C142_finding",
    "Rxls.C142_every_precision",
    "Rxls.C142_file_finding"
   ],
   "note": "Proved up to 2^51/10^p' (any numbers) and 2^53/5^p' (whole numbers); false beyond (C142_finding, C142_file_finding)."
  },
  {
   "property": "C143",
   "status": "proved",
   "theorems": [
    "Rxls.C143_mask",
    "Rxls.C143_rows",
    "Rxls.C143_kept",
    "Rxls.C143_positions"
   ],
   "note": ""
  },
  {
   "property": "C144",
   "status": "proved",
   "theorems": [
    "Rxls.C144_cells",
    "Rxls.C144_result",
    "Rxls.C144_xlsx",
    "Rxls.C144_xlsb",
    "Rxls.C144_finding",
    "Rxls.C144_file_finding"
   ],
   "note": ""
  }
 ]
}