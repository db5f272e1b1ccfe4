{
 "claims": [
  {
   "property": "C01",
   "status": "proved",
   "theorems": [
    "Maho.C01_encodeUint64_value",
    "Maho.C01_encodeUint32_value",
    "Maho.C01_encodeUint64_order",
    "Maho.C01_encodeUint32_order",
    "Maho.C01_encodeUint64_reverse",
    "Maho.C01_encodeUint32_reverse"
   ],
   "note": ""
  },
  {
   "property": "C02",
   "status": "proved",
   "theorems": [
    "Maho.C02_varint_roundtrip",
    "Maho.C02_varint_appends",
    "Maho.C02_varint_length",
    "Maho.C02_varint_prefix_free"
   ],
   "note": ""
  },
  {
   "property": "C03",
   "status": "proved",
   "theorems": [
    "Maho.C03_decodeVarint_exact",
    "Maho.C03_decodeVarint_fails"
   ],
   "note": ""
  },
  {
   "property": "C04",
   "status": "partial",
   "theorems": [
    "Maho.C04_varint_not_canonical",
    "Maho.C04_varint_overflow_accepted",
    "Maho.C04_varint_canonical_iff_partial"
   ],
   "note": "Varint decoding accepts non-minimal and overflowing encodings (C04_varint_not_canonical, C04_varint_overflow_accepted); canonical encodings characterised exactly."
  },
  {
   "property": "C05",
   "status": "proved",
   "theorems": [
    "Maho.C05_zigzag_roundtrip",
    "Maho.C05_zigzag_value",
    "Maho.C05_zigzag_short",
    "Maho.C05_zigzag_appends"
   ],
   "note": ""
  },
  {
   "property": "C06",
   "status": "proved",
   "theorems": [
    "Maho.C06_makeKey_defined",
    "Maho.C06_key_order",
    "Maho.C06_keyCols_made",
    "Maho.C06_key_order_columns"
   ],
   "note": ""
  },
  {
   "property": "C07",
   "status": "proved",
   "theorems": [
    "Maho.C07_key_injective"
   ],
   "note": ""
  },
  {
   "property": "C08",
   "status": "proved",
   "theorems": [
    "Maho.C08_key_prefix_free",
    "Maho.C08_key_prefix",
    "Maho.C08_key_below_max"
   ],
   "note": ""
  },
  {
   "property": "C09",
   "status": "partial",
   "theorems": [
    "Maho.C09_desc_not_reverse",
    "Maho.C09_desc_reverse_partial"
   ],
   "note": "False for NULL (first in both directions); proved for values of one kind."
  },
  {
   "property": "C10",
   "status": "partial",
   "theorems": [
    "Maho.C10_columnKey_overflow",
    "Maho.C10_columnKey_roundtrip_partial",
    "Maho.C10_columnKey_injective_partial",
    "Maho.C10_columnKey_fails_above"
   ],
   "note": "False for the column number 2^32-1 and numbers above 2^31-2; proved below and shown to fail above."
  },
  {
   "property": "C11",
   "status": "proved",
   "theorems": [
    "Maho.C11_columnKeyUpdated"
   ],
   "note": ""
  },
  {
   "property": "C12",
   "status": "partial",
   "theorems": [
    "Maho.C12_compare_reflexive",
    "Maho.C12_compare_antisymmetric",
    "Maho.C12_compare_kinds",
    "Maho.C12_less_transitive",
    "Maho.C12_not_transitive_nan",
    "Maho.C12_not_transitive_mixed",
    "Maho.C12_nan_bits",
    "Maho.C12_compare_value_partial",
    "Maho.C12_transitive_partial"
   ],
   "note": "Transitivity of <= is false with NaN and with big integers mixed with floats (witnesses); strict < is transitive on all values; reflexive and antisymmetric on all values; equals the mathematical order otherwise."
  },
  {
   "property": "C13",
   "status": "proved",
   "theorems": [
    "Maho.C13_compare_never_panics"
   ],
   "note": ""
  },
  {
   "property": "C14",
   "status": "proved",
   "theorems": [
    "Maho.C14_key_order_is_compare"
   ],
   "note": ""
  },
  {
   "property": "C15",
   "status": "proved",
   "theorems": [
    "Maho.C15_nearest_even",
    "Maho.C15_exact",
    "Maho.C15_monotone",
    "Maho.C15_cast"
   ],
   "note": ""
  },
  {
   "property": "C16",
   "status": "proved",
   "theorems": [
    "Maho.C16_cast_never_panics",
    "Maho.C16_cast_type",
    "Maho.C16_cast_same",
    "Maho.C16_cast_idempotent",
    "Maho.C16_float_to_int"
   ],
   "note": ""
  },
  {
   "property": "C17",
   "status": "proved",
   "theorems": [
    "Maho.C17_text_to_int",
    "Maho.C17_text_to_int_fails",
    "Maho.C17_int_to_text",
    "Maho.C17_roundtrip",
    "Maho.C17_text_injective",
    "Maho.C17_shortest"
   ],
   "note": ""
  },
  {
   "property": "C18",
   "status": "proved",
   "theorems": [
    "Maho.C18_bytes_text",
    "Maho.C18_roundtrip"
   ],
   "note": ""
  },
  {
   "property": "C19",
   "status": "proved",
   "theorems": [
    "Maho.C19_text_to_bool"
   ],
   "note": ""
  },
  {
   "property": "C20",
   "status": "partial",
   "theorems": [
    "Maho.C20_length_wraps",
    "Maho.C20_int1_unchecked",
    "Maho.C20_convert_sound_partial",
    "Maho.C20_convert_never_panics",
    "Maho.C20_convert_null"
   ],
   "note": "False for strings of 2^32 bytes and one byte integer columns (witnesses); proved otherwise."
  },
  {
   "property": "C21",
   "status": "proved",
   "theorems": [
    "Maho.C21_convert_keeps_valid",
    "Maho.C21_convert_idempotent"
   ],
   "note": ""
  },
  {
   "property": "C22",
   "status": "partial",
   "theorems": [
    "Maho.C22_row_too_long",
    "Maho.C22_row_never_panics",
    "Maho.C22_row_exact",
    "Maho.C22_short_row_null",
    "Maho.C22_row_sound_partial",
    "Maho.C22_short_row_sound_partial",
    "Maho.C22_row_keeps_valid"
   ],
   "note": "False for short rows with NOT NULL columns (witness); the result is characterised exactly for all rows."
  },
  {
   "property": "C23",
   "status": "proved",
   "theorems": [
    "Maho.C23_interning"
   ],
   "note": ""
  },
  {
   "property": "C24",
   "status": "proved",
   "theorems": [
    "Maho.C24_sections_atomic",
    "Maho.C24_locked_interning",
    "Maho.C24_locked_assigned",
    "Maho.C24_no_deadlock",
    "Maho.C24_concurrent_interning",
    "Maho.C24_assigned_for_ever",
    "Maho.C24_result_kept",
    "Maho.C24_one_name",
    "Maho.C24_progress"
   ],
   "note": ""
  },
  {
   "property": "C25",
   "status": "proved",
   "theorems": [
    "Maho.C25_prints_as_name",
    "Maho.C25_quoted",
    "Maho.C25_unquoted_ascii"
   ],
   "note": ""
  },
  {
   "property": "C26",
   "status": "proved",
   "theorems": [
    "Maho.C26_reserved",
    "Maho.C26_quoted_usable"
   ],
   "note": ""
  },
  {
   "property": "C27",
   "status": "partial",
   "theorems": [
    "Maho.C27_open_keyword_not_kept",
    "Maho.C27_long_name_not_kept",
    "Maho.C27_gob_roundtrip_partial",
    "Maho.C27_open_keyword_becomes_quoted"
   ],
   "note": "False for keywords that are not reserved (TEXT, INT, ...) and for names whose lower-cased form exceeds 128 bytes (witnesses); proved for all other identifiers in any history."
  },
  {
   "property": "C28",
   "status": "proved",
   "theorems": [
    "Maho.C28_scan_exact",
    "Maho.C28_scan_ordered",
    "Maho.C28_scan_succeeds",
    "Maho.C28_scan_no_error"
   ],
   "note": ""
  },
  {
   "property": "C29",
   "status": "proved",
   "theorems": [
    "Maho.C29_snapshot",
    "Maho.C29_scan_returns"
   ],
   "note": ""
  },
  {
   "property": "C30",
   "status": "proved",
   "theorems": [
    "Maho.C30_insert_succeeds_iff",
    "Maho.C30_insert_adds",
    "Maho.C30_insert_never_panics",
    "Maho.C30_insert_keeps_rows"
   ],
   "note": ""
  },
  {
   "property": "C31",
   "status": "partial",
   "theorems": [
    "Maho.C31_insert_not_atomic",
    "Maho.C31_single_insert_atomic_partial",
    "Maho.C31_failed_insert_is_prefix"
   ],
   "note": "False for several rows: the rows before the failing one stay (C31_insert_not_atomic); a failed insert of one row changes nothing, and a failed insert of many leaves exactly the rows before the failing one."
  },
  {
   "property": "C32",
   "status": "proved",
   "theorems": [
    "Maho.C32_current",
    "Maho.C32_delete",
    "Maho.C32_update_in_place",
    "Maho.C32_update_moves"
   ],
   "note": ""
  },
  {
   "property": "C33",
   "status": "partial",
   "theorems": [
    "Maho.C33_update_not_converted",
    "Maho.C33_update_keeps_valid_partial",
    "Maho.C33_key_update_converts_partial"
   ],
   "note": "False: an update of non-key columns stores the values without converting or checking them (C33_update_not_converted); proved for updates of key columns and for values that are already valid."
  },
  {
   "property": "C34",
   "status": "partial",
   "theorems": [
    "Maho.C34_failed_update_loses_row",
    "Maho.C34_update_in_place_no_error_partial",
    "Maho.C34_failed_update_exact"
   ],
   "note": "False: a failed update of the key loses the row (C34_failed_update_loses_row); proved for updates in place, and the failed update is characterised exactly."
  },
  {
   "property": "C35",
   "status": "partial",
   "theorems": [
    "Maho.C35_sorted",
    "Maho.C35_tables_kept_partial",
    "Maho.C35_keys_unique_partial",
    "Maho.C35_recreated_table_not_kept"
   ],
   "note": "Sortedness and key uniqueness of the tree proved for all histories. That rows sit under their own key is false after a table is dropped and created again with another key (C35_recreated_table_not_kept); proved for every table that is never dropped."
  },
  {
   "property": "C36",
   "status": "proved",
   "theorems": [
    "Maho.C36_held_unchanged",
    "Maho.C36_rollback"
   ],
   "note": ""
  },
  {
   "property": "C37",
   "status": "proved",
   "theorems": [
    "Maho.C37_commit",
    "Maho.C37_begin_sees_committed",
    "Maho.C37_view"
   ],
   "note": ""
  },
  {
   "property": "C38",
   "status": "proved",
   "theorems": [
    "Maho.C38_only_commit"
   ],
   "note": ""
  },
  {
   "property": "C39",
   "status": "proved",
   "theorems": [
    "Maho.C39_exclusive",
    "Maho.C39_begin_waits",
    "Maho.C39_serial",
    "Maho.C39_order",
    "Maho.C39_numbered"
   ],
   "note": ""
  },
  {
   "property": "C40",
   "status": "proved",
   "theorems": [
    "Maho.C40_completed_refused",
    "Maho.C40_completed_panics",
    "Maho.C40_lock_kept",
    "Maho.C40_never_fatal"
   ],
   "note": ""
  },
  {
   "property": "C41",
   "status": "proved",
   "theorems": [
    "Maho.C41_insert",
    "Maho.C41_delete",
    "Maho.C41_update",
    "Maho.C41_create",
    "Maho.C41_drop"
   ],
   "note": ""
  },
  {
   "property": "C42",
   "status": "partial",
   "theorems": [
    "Maho.C42_create_then_open_partial",
    "Maho.C42_create_then_open",
    "Maho.C42_unknown_refused",
    "Maho.C42_drop_then_unknown",
    "Maho.C42_create_existing_refused",
    "Maho.C42_drop_unknown_refused",
    "Maho.C42_keyword_column_not_opened",
    "Maho.C42_definition_stays",
    "Maho.C42_definition_committed"
   ],
   "note": "False for columns named by keywords that are not reserved (C42_keyword_column_not_opened); proved for all other definitions, at full strength when stored identifiers are stable. Persistence until DropTable proved over all histories."
  },
  {
   "property": "C43",
   "status": "partial",
   "theorems": [
    "Maho.C43_new_table_empty_partial",
    "Maho.C43_recreated_table_not_empty",
    "Maho.C43_created_rows",
    "Maho.C43_created_empty_partial"
   ],
   "note": "False after dropping: the rows of the dropped table appear in the recreated one (C43_recreated_table_not_empty); proved for tables never dropped, over all histories, and the created rows are characterised exactly."
  },
  {
   "property": "C44",
   "status": "proved",
   "theorems": [
    "Maho.C44_open_scans",
    "Maho.C44_closed_panics"
   ],
   "note": ""
  },
  {
   "property": "C45",
   "status": "proved",
   "theorems": [
    "Maho.C45_fresh_catalog"
   ],
   "note": ""
  },
  {
   "property": "C46",
   "status": "partial",
   "theorems": [
    "Maho.C46_histories_partial",
    "Maho.C46_databases_partial",
    "Maho.C46_long_name_panics"
   ],
   "note": "Proved for all histories of engine operations whose names have at most 128 bytes. False for longer names: creating such a database panics with the store locked (C46_long_name_panics)."
  },
  {
   "property": "C47",
   "status": "partial",
   "theorems": [
    "Maho.C47_schemas_partial",
    "Maho.C47_long_name_panics"
   ],
   "note": "Proved for all histories with names of at most 128 bytes; longer names panic (C47_long_name_panics)."
  },
  {
   "property": "C48",
   "status": "partial",
   "theorems": [
    "Maho.C48_create_table_partial",
    "Maho.C48_keyword_column_changes"
   ],
   "note": "Proved for all histories; names of at most 128 bytes, encoded definitions of at most 8192 bytes. False for columns named by keywords that are not reserved (C48_keyword_column_changes)."
  },
  {
   "property": "C49",
   "status": "partial",
   "theorems": [
    "Maho.C49_ids_partial",
    "Maho.C49_ids_wrap"
   ],
   "note": "Proved for all histories of fewer than 2^32 - 512 operations. False without bound: ids are cut to 32 bits and failed attempts use up ids (C49_ids_wrap)."
  },
  {
   "property": "C50",
   "status": "partial",
   "theorems": [
    "Maho.C50_dropped_name_partial",
    "Maho.C50_database_contents_stay",
    "Maho.C50_schema_contents_stay",
    "Maho.C50_table_stays"
   ],
   "note": "False for databases, schemas and tables (C50_database_contents_stay, C50_schema_contents_stay, C50_table_stays); proved that the dropped name itself is gone."
  },
  {
   "property": "C51",
   "status": "partial",
   "theorems": [
    "Maho.C51_round_trip_partial",
    "Maho.C51_insert_lookup_partial",
    "Maho.C51_int_pointer_panics",
    "Maho.C51_float32_pointer_panics",
    "Maho.C51_unexported_panics"
   ],
   "note": "Exact characterisation of the structs that are read back. False for pointers to int, int8, int16, int32 (C51_int_pointer_panics) and float32 (C51_float32_pointer_panics) and for fields that are not exported (C51_unexported_panics). Nil and empty slices are not told apart in not null columns."
  },
  {
   "property": "C52",
   "status": "proved",
   "theorems": [
    "Maho.C52_bracket"
   ],
   "note": ""
  },
  {
   "property": "C53",
   "status": "partial",
   "theorems": [
    "Maho.C53_atomic_partial",
    "Maho.C53_histories_partial",
    "Maho.C53_panics"
   ],
   "note": "Proved from every state for every statement that does not panic, and on all histories of supported statements against the catalog specification. False for statements the evaluator does not know: they panic with the store locked (C53_panics)."
  },
  {
   "property": "C54",
   "status": "proved",
   "theorems": [
    "Maho.C54_tables",
    "Maho.C54_schemas",
    "Maho.C54_statements",
    "Maho.C54_set"
   ],
   "note": ""
  },
  {
   "property": "C55",
   "status": "partial",
   "theorems": [
    "Maho.C55_lock_partial",
    "Maho.C55_supported_partial",
    "Maho.C55_blocks"
   ],
   "note": "Proved for all histories without a panic outside a transaction, in particular all histories of supported statements. False after a statement the evaluator does not know (C55_blocks)."
  },
  {
   "property": "C56",
   "status": "proved",
   "theorems": [
    "Maho.C56_scanner",
    "Maho.C56_progress",
    "Maho.C56_reaches_end",
    "Maho.C56_failing_reader",
    "Maho.C56_reader"
   ],
   "note": ""
  },
  {
   "property": "C57",
   "status": "proved",
   "theorems": [
    "Maho.C57_string",
    "Maho.C57_escape_string",
    "Maho.C57_constant"
   ],
   "note": ""
  },
  {
   "property": "C58",
   "status": "proved",
   "theorems": [
    "Maho.C58_integer",
    "Maho.C58_sound",
    "Maho.C58_least"
   ],
   "note": ""
  },
  {
   "property": "C59",
   "status": "partial",
   "theorems": [
    "Maho.C59_hex_partial",
    "Maho.C59_all_bytes",
    "Maho.C59_not_stable",
    "Maho.C59_stable_partial"
   ],
   "note": "Proved for all byte strings, all white space and comments before and all following input. Stability is false: the token's value is a slice of the scanner's buffer, which the next token overwrites (C59_not_stable); C59_stable_partial says exactly when the value survives."
  },
  {
   "property": "C60",
   "status": "partial",
   "theorems": [
    "Maho.C60_scan_partial",
    "Maho.C60_white_space",
    "Maho.C60_input_partial",
    "Maho.C60_dropped"
   ],
   "note": "Proved for all inputs: the input is the concatenation of white space, comments and the texts of the tokens or reported errors, except that a '-' or '/' before the end of the input is dropped (C60_dropped)."
  },
  {
   "property": "C61",
   "status": "partial",
   "theorems": [
    "Maho.C61_nested_partial",
    "Maho.C61_written_partial",
    "Maho.C61_test_not_nested",
    "Maho.C61_test_stops",
    "Maho.C61_in_not_nested",
    "Maho.C61_words"
   ],
   "note": "Proved for every way to write an expression in which a test (IS, IN, ANY, SOME, ALL) is the last thing at its level of parentheses: the parser returns the only well nested tree with the operands and operators in source order. Precedence is violated for an operator after such a test under a prefix operator (C61_test_not_nested) and for operators in parentheses to the left of a test with a query (C61_in_not_nested); otherwise the parser stops after the test (C61_test_stops)."
  },
  {
   "property": "C62",
   "status": "partial",
   "theorems": [
    "Maho.C62_printed_partial",
    "Maho.C62_decoded_partial",
    "Maho.C62_same_bare",
    "Maho.C62_same_text",
    "Maho.C62_same_partial",
    "Maho.C62_parentheses_added",
    "Maho.C62_name_changed",
    "Maho.C62_quote_lost",
    "Maho.C62_bytes_changed",
    "Maho.C62_float_changed",
    "Maho.C62_least_integer",
    "Maho.C62_test_rejected",
    "Maho.C62_no_from",
    "Maho.C62_having_lost"
   ],
   "note": "Proved for every printable expression (names that need no quotes, no bytes, no string with a quote, floats printed with a decimal point, every subquery with FROM, no HAVING without GROUP BY, no ANY or ALL test to the left of an operator): the text parses to the same expression with a node for parentheses around every operation, which prints to the same text. Not literally the same tree (C62_parentheses_added); quotes of names, bytes, some floats, the least integer, some tests, a missing FROM and HAVING without GROUP BY are changed, lost or rejected (C62_name_changed and following)."
  },
  {
   "property": "C63",
   "status": "partial",
   "theorems": [
    "Maho.C63_printed_partial",
    "Maho.C63_decoded_partial",
    "Maho.C63_same_bare",
    "Maho.C63_same_text",
    "Maho.C63_fixed_partial",
    "Maho.C63_same_partial",
    "Maho.C63_insert_panics",
    "Maho.C63_update_rejected",
    "Maho.C63_size_lost",
    "Maho.C63_type_rejected",
    "Maho.C63_check_rejected",
    "Maho.C63_column_check_moved",
    "Maho.C63_notNull_name_lost",
    "Maho.C63_foreign_key_rejected",
    "Maho.C63_actions_lost",
    "Maho.C63_verbose_lost",
    "Maho.C63_set_rejected",
    "Maho.C63_option_rejected",
    "Maho.C63_copy_rejected",
    "Maho.C63_delimiter_rejected",
    "Maho.C63_copy_ascii",
    "Maho.C63_no_from",
    "Maho.C63_having_lost"
   ],
   "note": "Proved for every printable statement, of every kind that the parser produces: Parse reads the printed text, at the end of the input and before a semicolon, as the same statement with a node for parentheses around every operation, which prints to the same text and is then stable. Excluded, each with a statement that the parser produces and whose text is changed, rejected or not printable: DEFAULT as a value (a panic for INSERT), column types other than BOOL, BYTES, DOUBLE and INT of the usual size, constraints without a name or on a column, foreign keys without a name or with actions, VERBOSE, strings as values of variables and options, COPY without columns or with a quote as the delimiter, SELECT without FROM, HAVING without GROUP BY; and what is excluded in C62. Delimiters outside ASCII are excluded too, and Parse never returns one (C63_copy_ascii)."
  },
  {
   "property": "C64",
   "status": "partial",
   "theorems": [
    "Maho.C64_returns_partial",
    "Maho.C64_panics_only",
    "Maho.C64_never_loops",
    "Maho.C64_input_partial",
    "Maho.C64_null_panics",
    "Maho.C64_escape_panics",
    "Maho.C64_lookback",
    "Maho.C64_ring",
    "Maho.C64_ring_never_loops",
    "Maho.C64_ring_input_partial"
   ],
   "note": "C64_panics_only and C64_never_loops hold for all token lists and all inputs: a call returns a statement, an error or the end of the input and takes a token, or it panics for one of two reasons, and after at most as many calls as there are tokens the end or a panic is reached. Panics excluded, that is for inputs without the escape \\UFFFFFFFD and without NULL as the value of SET or USE, every call returns a statement or an error, consumes input, and finitely many calls reach the end of the input. The excluded inputs panic (C64_null_panics, C64_escape_panics). C64_ring shows that the parser with its ring of three tokens returns the same for every input, so its panic about too much lookback is never reached."
  },
  {
   "property": "C65",
   "status": "proved",
   "theorems": [
    "Maho.C65_create_table"
   ],
   "note": "Proved for every accepted CREATE TABLE; moreover the key of every constraint has as many directions as columns and no column twice, and constraints on a column refer to an existing one with the default or NOT NULL that they name."
  },
  {
   "property": "C66",
   "status": "partial",
   "theorems": [
    "Maho.C66_round_trip_partial",
    "Maho.C66_size_zero",
    "Maho.C66_real"
   ],
   "note": "Proved for all types that the parser produces, for every following text, except character and byte types of size 0, whose String panics (C66_size_zero), and REAL, which is printed as DOUBLE (C66_real)."
  },
  {
   "property": "C67",
   "status": "partial",
   "theorems": [
    "Maho.C67_copy_partial",
    "Maho.C67_data_partial",
    "Maho.C67_comment",
    "Maho.C67_garbage",
    "Maho.C67_no_semicolon",
    "Maho.C67_rejected"
   ],
   "note": "Proved for all texts and all sequences of calls in which every COPY statement is accepted, ends with a ;, and has only white space between the delimiter and the ;, for inputs without the panics of C64. With a comment there the statement is rejected (C67_comment), with other text there it can be accepted with the wrong data (C67_garbage). Without the ; lines of comments and white space after it are missing in the data (C67_no_semicolon). After a rejected COPY statement the next statement can be lost (C67_rejected)."
  },
  {
   "property": "C68",
   "status": "partial",
   "theorems": [
    "Maho.C68_position_partial",
    "Maho.C68_sign",
    "Maho.C68_minus",
    "Maho.C68_end",
    "Maho.C68_semicolon"
   ],
   "note": "Proved for every token that does not start with - or / and is not the end of a statement or of the input, after any white space and comments. A token that starts with - or / gets the position after the next character (C68_sign, C68_minus); the end of a statement or of the input has the position of the third token before it, or line 0 (C68_end, C68_semicolon)."
  },
  {
   "property": "C69",
   "status": "partial",
   "theorems": [
    "Maho.C69_exists_partial",
    "Maho.C69_table_not_dropped",
    "Maho.C69_index_gone",
    "Maho.C69_index_again"
   ],
   "note": "Proved for databases, schemas and CREATE TABLE after all histories of supported statements, for names and definitions that fit the catalog. False for tables and indexes: DROP TABLE and DROP INDEX of anything succeed and do nothing (C69_table_not_dropped, C69_index_gone), and CREATE INDEX does nothing, so it succeeds again (C69_index_again)."
  },
  {
   "property": "C70",
   "status": "partial",
   "theorems": [
    "Maho.C70_listed_partial",
    "Maho.C70_tables_not_listed"
   ],
   "note": "Proved for databases and schemas, and for OpenTable if no table was dropped, after all histories: what exists is computed from the operations and their replies alone. False for tables: ListTables is always empty (C70_tables_not_listed), and dropped tables stay (C50_table_stays)."
  },
  {
   "property": "C71",
   "status": "partial",
   "theorems": [
    "Maho.C71_delete",
    "Maho.C71_select",
    "Maho.C71_update_partial",
    "Maho.C71_update_key_partial",
    "Maho.C71_shift_fails",
    "Maho.C71_failed_update_loses_row"
   ],
   "note": "Proved in full for reading and deleting, and for updates outside the key with every outcome of the callback; updates of the key are proved if they succeed. An update of the key that is refused loses the row (C71_failed_update_loses_row), and adding one to every key is refused although the new keys differ (C71_shift_fails)."
  },
  {
   "property": "C72",
   "status": "partial",
   "theorems": [
    "Maho.C72_always_ends",
    "Maho.C72_ends_partial",
    "Maho.C72_echo_partial",
    "Maho.C72_copy_partial",
    "Maho.C72_null_crashes",
    "Maho.C72_escape_crashes",
    "Maho.C72_default_note",
    "Maho.C72_empty_takes_next"
   ],
   "note": "The console is modelled on the parser that reads runes (Model/ReadParse.lean). C72_always_ends: on every text it ends, at the end of the text or by a panic, after at most as many lines as there are runes, and the lines are those for what Parse returns. Partial is what Parse returns: texts without NULL settings and the escape \\UFFFFFFFD, and with COPY only as C67 has it; for these the lines are what the calls of Parse should return (C72_copy_partial), and for printed statements (C63) they are these statements (C72_echo_partial). The code violates the property: Parse panics (C72_null_crashes, C72_escape_crashes), printing DEFAULT panics inside fmt.Println (C72_default_note), and an empty statement takes the next one with it (C72_empty_takes_next)."
  },
  {
   "property": "C73",
   "status": "partial",
   "theorems": [
    "Maho.C73_always_ends",
    "Maho.C73_text_partial",
    "Maho.C73_copy_partial",
    "Maho.C73_effect_partial"
   ],
   "note": "Composes C63 (printed statements parse back), C67 (the parser on runes) and C53 (sessions). C73_always_ends: on every text the script ends, and does what the statements do that Parse returns. Partial is which statements these are: the printable statements of C63 without COPY (C73_text_partial), or every text on which C67 says what Parse returns, with COPY (C73_copy_partial); for the effect the conditions of C53."
  },
  {
   "property": "C74",
   "status": "partial",
   "theorems": [
    "Maho.C74_reads",
    "Maho.C74_unambiguous",
    "Maho.C74_rows_partial",
    "Maho.C74_negative_fails",
    "Maho.C74_float_becomes_int",
    "Maho.C74_quote_splits",
    "Maho.C74_backslash_becomes_bytes",
    "Maho.C74_nul_is_lost",
    "Maho.C74_empty_fails",
    "Maho.C74_not_hex"
   ],
   "note": "C74_reads proves that ParseRows accepts exactly the texts of the grammar Spec.RowsText (all runes, all rows) and C74_unambiguous that a text has one list of rows. C74_rows_partial proves the round trip for one or more rows of one or more readable values with any separator of a comma and white space. Missing where false: negative integers (C74_negative_fails), floats without a fraction (C74_float_becomes_int), strings with a quote (C74_quote_splits), with a backslash or a NUL at the start (C74_backslash_becomes_bytes, C74_nul_is_lost), no rows or values (C74_empty_fails)."
  },
  {
   "property": "C75",
   "status": "partial",
   "theorems": [
    "Maho.C75_unordered_partial",
    "Maho.C75_ordered_partial",
    "Maho.C75_no_floats",
    "Maho.C75_keeps_rows",
    "Maho.C75_nan_equals_all",
    "Maho.C75_nan_order",
    "Maho.C75_big_integer"
   ],
   "note": "C75_unordered_partial and C75_ordered_partial prove both directions for values on which Compare is the order of SQL (no NaN; no integers beyond 2^53 together with floats), for every sort that meets the contract of sort.Slice. C75_no_floats: equality and permutation when there are no floats. C75_keeps_rows: the slices keep their rows. False with NaN (C75_nan_equals_all, C75_nan_order) and for big integers against floats (C75_big_integer)."
  },
  {
   "property": "C76",
   "status": "partial",
   "theorems": [
    "Maho.C76_sound",
    "Maho.C76_input",
    "Maho.C76_complete_partial",
    "Maho.C76_unambiguous_partial"
   ],
   "note": "C76_sound: whatever one call of Parse returns is written that way in the tokens that it takes, for every statement, clause and constraint (keys and columns are distinct, only strings and bytes have sizes, at most one default and so on); the grammar says in which order the tokens stand, and C61 and C62 how operators nest. C76_input is the same for the calls on any text. C76_complete_partial: everything in the grammar is accepted as the statement described, also after an error; missing: what C61 shows the code to get wrong, operators after tests and tests with a query after several operators. C76_unambiguous_partial: the same tokens are not two statements."
  },
  {
   "property": "C77",
   "status": "proved",
   "theorems": [
    "Maho.C77_identifiers",
    "Maho.C77_columns",
    "Maho.C77_unambiguous",
    "Maho.C77_size_wraps",
    "Maho.C77_not_checked"
   ],
   "note": "C77_identifiers and C77_columns are equivalences with a grammar of texts (Spec/Columns.lean), for every text. C77_unambiguous: a text has one meaning. C77_size_wraps: a size of 2^32 + 1 becomes 1. C77_not_checked: columns may be there twice and be twice in the key."
  },
  {
   "property": "C78",
   "status": "proved",
   "theorems": [
    "Maho.C78_accepted",
    "Maho.C78_same_table",
    "Maho.C78_only_tests",
    "Maho.C78_only_statements"
   ],
   "note": "C78_same_table: whenever ParseColumns accepts a text and Parse accepts CREATE TABLE, a name and that text in parentheses, the statement has the columns and types that ParseColumns returns, and evaluating it where there is no such table passes on these and the key that ParseColumns returns. C78_accepted: both accept every text of columns with names as in statements, sizes below 2^32 - 1, distinct columns that are not reserved words, NOT NULL at most once a column and at most one PRIMARY KEY. C78_only_tests and C78_only_statements: texts that only one of them accepts (two columns in the key, DOUBLE PRECISION and others)."
  },
  {
   "property": "C79",
   "status": "partial",
   "theorems": [
    "Maho.C79_statement",
    "Maho.C79_protocol_partial",
    "Maho.C79_all_ended_partial",
    "Maho.C79_not_ended",
    "Maho.C79_repository"
   ],
   "note": "C79_statement: what one statement asks keeps to the protocol, whatever the engine answers. C79_protocol_partial and C79_all_ended_partial: so does every history of statements that return, and at the end all transactions but the open one are ended, each once. C79_repository: the session model of C52-C55 is this model with the repository's engine. C79_not_ended: with every engine, a statement that the evaluator does not know panics outside a transaction and its transaction is never ended; this is what the partial theorems exclude."
  },
  {
   "property": "C80",
   "status": "partial",
   "theorems": [
    "Maho.C80_create_table",
    "Maho.C80_create_index",
    "Maho.C80_one_request_partial",
    "Maho.C80_drop_tables_partial",
    "Maho.C80_if_exists_ignored"
   ],
   "note": "C80_create_table, C80_create_index, C80_one_request_partial and C80_drop_tables_partial give the requests and the outcome for each statement, for every engine. C80_if_exists_ignored: IF EXISTS of DROP TABLE and DROP INDEX is not passed on, so with every engine that rejects what is not there the statement fails. CREATE TABLE takes every error of OpenTable for a table that is not there."
  },
  {
   "property": "C81",
   "status": "partial",
   "theorems": [
    "Maho.C81_atomic_partial",
    "Maho.C81_session_partial",
    "Maho.C81_drop_tables",
    "Maho.C81_left_out_partial"
   ],
   "note": "C81_atomic_partial and C81_session_partial: for every engine whose requests change nothing when they fail, a statement other than DROP TABLE with several tables that fails changes nothing. C81_drop_tables: with the engine of evaluate_test.go, DROP TABLE of two tables in a transaction drops the first and fails at the second. C81_left_out_partial: with the repository's engine, where dropping a table does nothing, a statement that fails can be left out of every history of statements of any number of sessions and all other replies are the same; for names and definitions that fit (as in C53)."
  },
  {
   "property": "C82",
   "status": "proved",
   "theorems": [
    "Maho.C82_alike",
    "Maho.C82_logged"
   ],
   "note": "C82_alike is a simulation theorem: from states and sessions that are related, the replies are equal and states and sessions stay related. C82_logged: an engine answers like itself with a list of its requests, which is how C79 and C80 observe it."
  },
  {
   "property": "C83",
   "status": "partial",
   "theorems": [
    "Maho.C83_calls_partial",
    "Maho.C83_string_races"
   ],
   "note": "Model/IdLocks.lean has ID and String with the RWMutex and one access per step. C83_calls_partial: calls of ID never race with each other. C83_string_races: String reads the map of names without the mutex, so it races with an ID that creates a name. C24_sections_atomic, C24_locked_interning, C24_locked_assigned and C24_no_deadlock carry C24 over to this machine."
  },
  {
   "property": "C84",
   "status": "partial",
   "theorems": [
    "Maho.C84_copies_partial",
    "Maho.C84_row_shared",
    "Maho.C84_row_shared_key",
    "Maho.C84_bytes_shared",
    "Maho.C84_bytes_key"
   ],
   "note": "Model/Memory.lean is the store with the addresses of slices. C84_copies_partial: it does what a store that copies does, as long as callers write neither into bytes nor into a row from Next without columns. C84_row_shared, C84_row_shared_key, C84_bytes_shared and C84_bytes_key: such writes change committed rows, survive Rollback and leave two rows with one primary key."
  },
  {
   "property": "C85",
   "status": "partial",
   "theorems": [
    "Maho.C85_resolved_partial",
    "Maho.C85_not_resolved",
    "Maho.C85_queries_not_resolved"
   ],
   "note": "C85_resolved_partial: exactly the tables that the statement is about are completed, and all other names stay as they are. C85_not_resolved and C85_queries_not_resolved: tables in FROM, in EXPLAIN, in subqueries and in foreign keys are never completed."
  },
  {
   "property": "C86",
   "status": "partial",
   "theorems": [
    "Maho.C86_blind",
    "Maho.C86_kept_partial",
    "Maho.C86_contents",
    "Maho.C86_not_kept",
    "Maho.C86_not_kept_later"
   ],
   "note": "C86_kept_partial: the bytes are kept if no later token writes other bytes over them. C86_blind: nothing else of what Parse does depends on the bytes. C86_contents: what the bytes are at any time, for tokens that fit into the first array. C86_not_kept and C86_not_kept_later: a second literal, a name or a number after a literal changes it, and so does the next statement."
  },
  {
   "property": "C87",
   "status": "partial",
   "theorems": [
    "Maho.C87_name",
    "Maho.C87_columns_partial",
    "Maho.C87_same_name",
    "Maho.C87_distinct_partial",
    "Maho.C87_not_distinct",
    "Maho.C87_size_lost"
   ],
   "note": "C87_name: exactly which column name a field name gives, and which are refused. C87_columns_partial: exactly which structs are accepted, and their columns and keys, for sizes less than 2^32. C87_same_name: exactly which field names without _ have the same column. C87_distinct_partial: the columns are different for fields in camel case without names in tags. C87_not_distinct: Abcdef and ABCDEF, Ab_c and AbC, and a name in a tag give two columns of the same name. C87_size_lost: the upper bits of a size are dropped without a panic."
  },
  {
   "property": "C88",
   "status": "partial",
   "theorems": [
    "Maho.C88_unique_partial",
    "Maho.C88_accepted_partial",
    "Maho.C88_not_unique",
    "Maho.C88_refused"
   ],
   "note": "C88_unique_partial: keys, defaults and NOT NULL have names that no earlier constraint has, and keys are different. C88_accepted_partial: any number of keys without names on different lists of columns are accepted, if the names of the columns have only small letters and digits. C88_not_unique: checks and foreign keys can have the name of another constraint. C88_refused: (a) and (a DESC) get the same name and are refused, and so are (a, b) and (a_b)."
  },
  {
   "property": "C89",
   "status": "partial",
   "theorems": [
    "Maho.C89_written",
    "Maho.C89_inserted",
    "Maho.C89_update_partial",
    "Maho.C89_read",
    "Maho.C89_text_stored",
    "Maho.C89_number_changed",
    "Maho.C89_nil_inserted",
    "Maho.C89_not_a_struct"
   ],
   "note": "C89_written and C89_inserted: exactly which structs are inserted, and their rows; C89_not_a_struct: other arguments but nil are refused. C89_read: exactly what a row is read as, and when reading panics. C89_update_partial: exactly which structs are taken for updates, if fields for string columns are strings. C89_text_stored: a number for a string column is taken, and the text <int Value> is stored, since reflect.Value.String does not panic. C89_number_changed: a number that does not fit the field is stored by an update and read as another number. C89_nil_inserted: nil is inserted as a row of NULLs, also in columns that are not null."
  },
  {
   "property": "C90",
   "status": "partial",
   "theorems": [
    "Maho.C90_found",
    "Maho.C90_methods",
    "Maho.C90_expected",
    "Maho.C90_told_apart_partial",
    "Maho.C90_messages_partial",
    "Maho.C90_bytes",
    "Maho.C90_parameters",
    "Maho.C90_floats"
   ],
   "note": "C90_found: the token and the left over string that got sees, after any calls of scan and unscan. C90_methods: the methods of the parser fail exactly when there is a message. C90_expected: exactly when there is a message, and what it lists. C90_told_apart_partial and C90_messages_partial: messages that are the same are about the same expectation and the same token, for tokens other than bytes, parameters and scanner errors, with numbers to six digits. C90_bytes: for bytes the message has a string that an earlier token has left, VALUES ('ab', 1 x'41') gives: got bytes ab. C90_parameters: all parameters are: token -10. C90_floats: 1e-9 and 2e-9 have the same message."
  },
  {
   "property": "C91",
   "status": "partial",
   "theorems": [
    "Maho.C91_token",
    "Maho.C91_layout_partial",
    "Maho.C91_parse_partial",
    "Maho.C91_unambiguous",
    "Maho.C91_console_partial",
    "Maho.C91_respaced",
    "Maho.C91_comment"
   ],
   "note": "C91_token: each spelling of a token is read as the token, if what follows does not continue it. C91_layout_partial, C91_parse_partial: whole texts, and what Parse returns for them; a comment directly after an operator of one rune is missing. C91_unambiguous: a text spells one list of tokens. C91_console_partial: the console writes the same for two layouts, without COPY and NULL settings. C91_respaced: every text without errors can be given other white space and comments between its tokens, as long as they begin with white space. C91_comment: =/* is an error, for every operator of one rune other than + and -."
  },
  {
   "property": "C92",
   "status": "partial",
   "theorems": [
    "Maho.C92_upto_partial",
    "Maho.C92_texts_partial",
    "Maho.C92_entered_partial",
    "Maho.C92_left",
    "Maho.C92_empty"
   ],
   "note": "C92_upto_partial: for all tokens before and after the ;, also for errors, and what is left for the next call; the statement without tokens is missing. C92_texts_partial: for texts, with the ring of three tokens. C92_entered_partial: for a text up to a ;, laid out as in C91, with any text after it. C92_left: after a statement exactly what is after the ; is left. C92_empty: the token after the ; of a statement without tokens is read too, so that ; BEGIN is an error."
  }
 ]
}