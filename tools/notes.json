{
"C04": {
"note": "Varint decoding accepts non-minimal and overflowing encodings (C04_varint_not_canonical, C04_varint_overflow_accepted); canonical encodings characterised exactly."
},
"C09": {
"note": "False for NULL (first in both directions); proved for values of one kind."
},
"C10": {
"note": "False for the column number 2^32-1 and numbers above 2^31-2; proved below and shown to fail above."
},
"C12": {
"note": "Transitivity of <= is false with NaN and with big integers mixed with floats (witnesses); strict < is transitive on all values; reflexive and antisymmetric on all values; equals the mathematical order otherwise."
},
"C20": {
"note": "False for strings of 2^32 bytes and one byte integer columns (witnesses); proved otherwise."
},
"C22": {
"note": "False for short rows with NOT NULL columns (witness); the result is characterised exactly for all rows."
},
"C27": {
"note": "False for keywords that are not reserved (TEXT, INT, ...) and for names whose lower-cased form exceeds 128 bytes (witnesses); proved for all other identifiers in any history."
},
"C31": {
"note": "False for several rows: the rows before the failing one stay (C31_insert_not_atomic); a failed insert of one row changes nothing, and a failed insert of many leaves exactly the rows before the failing one."
},
"C33": {
"note": "False: an update of non-key columns stores the values without converting or checking them (C33_update_not_converted); proved for updates of key columns and for values that are already valid."
},
"C34": {
"note": "False: a failed update of the key loses the row (C34_failed_update_loses_row); proved for updates in place, and the failed update is characterised exactly."
},
"C35": {
"note": "Sortedness and key uniqueness of the tree proved for all histories. That rows sit under their own key is false after a table is dropped and created again with another key (C35_recreated_table_not_kept); proved for every table that is never dropped."
},
"C42": {
"note": "False for columns named by keywords that are not reserved (C42_keyword_column_not_opened); proved for all other definitions, at full strength when stored identifiers are stable. Persistence until DropTable proved over all histories."
},
"C43": {
"note": "False after dropping: the rows of the dropped table appear in the recreated one (C43_recreated_table_not_empty); proved for tables never dropped, over all histories, and the created rows are characterised exactly."
},
"C46": {
"note": "Proved for all histories of engine operations whose names have at most 128 bytes. False for longer names: creating such a database panics with the store locked (C46_long_name_panics)."
},
"C47": {
"note": "Proved for all histories with names of at most 128 bytes; longer names panic (C47_long_name_panics)."
},
"C48": {
"note": "Proved for all histories; names of at most 128 bytes, encoded definitions of at most 8192 bytes. False for columns named by keywords that are not reserved (C48_keyword_column_changes)."
},
"C49": {
"note": "Proved for all histories of fewer than 2^32 - 512 operations. False without bound: ids are cut to 32 bits and failed attempts use up ids (C49_ids_wrap)."
},
"C50": {
"note": "False for databases, schemas and tables (C50_database_contents_stay, C50_schema_contents_stay, C50_table_stays); proved that the dropped name itself is gone."
},
"C51": {
"note": "Exact characterisation of the structs that are read back. False for pointers to int, int8, int16, int32 (C51_int_pointer_panics) and float32 (C51_float32_pointer_panics) and for fields that are not exported (C51_unexported_panics). Nil and empty slices are not told apart in not null columns."
},
"C53": {
"note": "Proved from every state for every statement that does not panic, and on all histories of supported statements against the catalog specification. False for statements the evaluator does not know: they panic with the store locked (C53_panics)."
},
"C55": {
"note": "Proved for all histories without a panic outside a transaction, in particular all histories of supported statements. False after a statement the evaluator does not know (C55_blocks)."
},
"C59": {
"note": "Proved for all byte strings, all white space and comments before and all following input. Stability is false: the token's value is a slice of the scanner's buffer, which the next token overwrites (C59_not_stable); C59_stable_partial says exactly when the value survives."
},
"C60": {
"note": "Proved for all inputs: the input is the concatenation of white space, comments and the texts of the tokens or reported errors, except that a '-' or '/' before the end of the input is dropped (C60_dropped)."
},
"C61": {
"note": "Proved for every way to write an expression in which a test (IS, IN, ANY, SOME, ALL) is the last thing at its level of parentheses: the parser returns the only well nested tree with the operands and operators in source order. Precedence is violated for an operator after such a test under a prefix operator (C61_test_not_nested) and for operators in parentheses to the left of a test with a query (C61_in_not_nested); otherwise the parser stops after the test (C61_test_stops)."
},
"C62": {
"note": "Proved for every printable expression (names that need no quotes, no bytes, no string with a quote, floats printed with a decimal point, every subquery with FROM, no HAVING without GROUP BY, no ANY or ALL test to the left of an operator): the text parses to the same expression with a node for parentheses around every operation, which prints to the same text. Not literally the same tree (C62_parentheses_added); quotes of names, bytes, some floats, the least integer, some tests, a missing FROM and HAVING without GROUP BY are changed, lost or rejected (C62_name_changed and following)."
},
"C63": {
"note": "Proved for every printable statement, of every kind that the parser produces: Parse reads the printed text, at the end of the input and before a semicolon, as the same statement with a node for parentheses around every operation, which prints to the same text and is then stable. Excluded, each with a statement that the parser produces and whose text is changed, rejected or not printable: DEFAULT as a value (a panic for INSERT), column types other than BOOL, BYTES, DOUBLE and INT of the usual size, constraints without a name or on a column, foreign keys without a name or with actions, VERBOSE, strings as values of variables and options, COPY without columns or with a quote as the delimiter, SELECT without FROM, HAVING without GROUP BY; and what is excluded in C62. Delimiters outside ASCII are excluded too, and Parse never returns one (C63_copy_ascii)."
},
"C64": {
"note": "C64_panics_only and C64_never_loops hold for all token lists and all inputs: a call returns a statement, an error or the end of the input and takes a token, or it panics for one of two reasons, and after at most as many calls as there are tokens the end or a panic is reached. Panics excluded, that is for inputs without the escape \\UFFFFFFFD and without NULL as the value of SET or USE, every call returns a statement or an error, consumes input, and finitely many calls reach the end of the input. The excluded inputs panic (C64_null_panics, C64_escape_panics). C64_ring shows that the parser with its ring of three tokens returns the same for every input, so its panic about too much lookback is never reached."
},
"C65": {
"note": "Proved for every accepted CREATE TABLE; moreover the key of every constraint has as many directions as columns and no column twice, and constraints on a column refer to an existing one with the default or NOT NULL that they name."
},
"C66": {
"note": "Proved for all types that the parser produces, for every following text, except character and byte types of size 0, whose String panics (C66_size_zero), and REAL, which is printed as DOUBLE (C66_real)."
},
"C67": {
"note": "Proved for all texts and all sequences of calls in which every COPY statement is accepted, ends with a ;, and has only white space between the delimiter and the ;, for inputs without the panics of C64. With a comment there the statement is rejected (C67_comment), with other text there it can be accepted with the wrong data (C67_garbage). Without the ; lines of comments and white space after it are missing in the data (C67_no_semicolon). After a rejected COPY statement the next statement can be lost (C67_rejected)."
},
"C68": {
"note": "Proved for every token that does not start with - or / and is not the end of a statement or of the input, after any white space and comments. A token that starts with - or / gets the position after the next character (C68_sign, C68_minus); the end of a statement or of the input has the position of the third token before it, or line 0 (C68_end, C68_semicolon)."
},
"C69": {
"note": "Proved for databases, schemas and CREATE TABLE after all histories of supported statements, for names and definitions that fit the catalog. False for tables and indexes: DROP TABLE and DROP INDEX of anything succeed and do nothing (C69_table_not_dropped, C69_index_gone), and CREATE INDEX does nothing, so it succeeds again (C69_index_again)."
},
"C70": {
"note": "Proved for databases and schemas, and for OpenTable if no table was dropped, after all histories: what exists is computed from the operations and their replies alone. False for tables: ListTables is always empty (C70_tables_not_listed), and dropped tables stay (C50_table_stays)."
},
"C71": {
"note": "Proved in full for reading and deleting, and for updates outside the key with every outcome of the callback; updates of the key are proved if they succeed. An update of the key that is refused loses the row (C71_failed_update_loses_row), and adding one to every key is refused although the new keys differ (C71_shift_fails)."
},
"C72": {
"note": "The console is modelled on the parser that reads runes (Model/ReadParse.lean). C72_always_ends: on every text it ends, at the end of the text or by a panic, after at most as many lines as there are runes, and the lines are those for what Parse returns. Partial is what Parse returns: texts without NULL settings and the escape \\UFFFFFFFD, and with COPY only as C67 has it; for these the lines are what the calls of Parse should return (C72_copy_partial), and for printed statements (C63) they are these statements (C72_echo_partial). The code violates the property: Parse panics (C72_null_crashes, C72_escape_crashes), printing DEFAULT panics inside fmt.Println (C72_default_note), and an empty statement takes the next one with it (C72_empty_takes_next)."
},
"C73": {
"note": "Composes C63 (printed statements parse back), C67 (the parser on runes) and C53 (sessions). C73_always_ends: on every text the script ends, and does what the statements do that Parse returns. Partial is which statements these are: the printable statements of C63 without COPY (C73_text_partial), or every text on which C67 says what Parse returns, with COPY (C73_copy_partial); for the effect the conditions of C53."
},
"C74": {
"note": "C74_reads proves that ParseRows accepts exactly the texts of the grammar Spec.RowsText (all runes, all rows) and C74_unambiguous that a text has one list of rows. C74_rows_partial proves the round trip for one or more rows of one or more readable values with any separator of a comma and white space. Missing where false: negative integers (C74_negative_fails), floats without a fraction (C74_float_becomes_int), strings with a quote (C74_quote_splits), with a backslash or a NUL at the start (C74_backslash_becomes_bytes, C74_nul_is_lost), no rows or values (C74_empty_fails)."
},
"C75": {
"note": "C75_unordered_partial and C75_ordered_partial prove both directions for values on which Compare is the order of SQL (no NaN; no integers beyond 2^53 together with floats), for every sort that meets the contract of sort.Slice. C75_no_floats: equality and permutation when there are no floats. C75_keeps_rows: the slices keep their rows. False with NaN (C75_nan_equals_all, C75_nan_order) and for big integers against floats (C75_big_integer)."
},
"C76": {
"note": "C76_sound: whatever one call of Parse returns is written that way in the tokens that it takes, for every statement, clause and constraint (keys and columns are distinct, only strings and bytes have sizes, at most one default and so on); the grammar says in which order the tokens stand, and C61 and C62 how operators nest. C76_input is the same for the calls on any text. C76_complete_partial: everything in the grammar is accepted as the statement described, also after an error; missing: what C61 shows the code to get wrong, operators after tests and tests with a query after several operators. C76_unambiguous_partial: the same tokens are not two statements."
},
"C77": {
"note": "C77_identifiers and C77_columns are equivalences with a grammar of texts (Spec/Columns.lean), for every text. C77_unambiguous: a text has one meaning. C77_size_wraps: a size of 2^32 + 1 becomes 1. C77_not_checked: columns may be there twice and be twice in the key."
},
"C78": {
"note": "C78_same_table: whenever ParseColumns accepts a text and Parse accepts CREATE TABLE, a name and that text in parentheses, the statement has the columns and types that ParseColumns returns, and evaluating it where there is no such table passes on these and the key that ParseColumns returns. C78_accepted: both accept every text of columns with names as in statements, sizes below 2^32 - 1, distinct columns that are not reserved words, NOT NULL at most once a column and at most one PRIMARY KEY. C78_only_tests and C78_only_statements: texts that only one of them accepts (two columns in the key, DOUBLE PRECISION and others)."
},
"C79": {
"note": "C79_statement: what one statement asks keeps to the protocol, whatever the engine answers. C79_protocol_partial and C79_all_ended_partial: so does every history of statements that return, and at the end all transactions but the open one are ended, each once. C79_repository: the session model of C52-C55 is this model with the repository's engine. C79_not_ended: with every engine, a statement that the evaluator does not know panics outside a transaction and its transaction is never ended; this is what the partial theorems exclude."
},
"C80": {
"note": "C80_create_table, C80_create_index, C80_one_request_partial and C80_drop_tables_partial give the requests and the outcome for each statement, for every engine. C80_if_exists_ignored: IF EXISTS of DROP TABLE and DROP INDEX is not passed on, so with every engine that rejects what is not there the statement fails. CREATE TABLE takes every error of OpenTable for a table that is not there."
},
"C81": {
"note": "C81_atomic_partial and C81_session_partial: for every engine whose requests change nothing when they fail, a statement other than DROP TABLE with several tables that fails changes nothing. C81_drop_tables: with the engine of evaluate_test.go, DROP TABLE of two tables in a transaction drops the first and fails at the second. C81_left_out_partial: with the repository's engine, where dropping a table does nothing, a statement that fails can be left out of every history of statements of any number of sessions and all other replies are the same; for names and definitions that fit (as in C53)."
},
"C82": {
"note": "C82_alike is a simulation theorem: from states and sessions that are related, the replies are equal and states and sessions stay related. C82_logged: an engine answers like itself with a list of its requests, which is how C79 and C80 observe it."
},
"C83": {
"note": "Model/IdLocks.lean has ID and String with the RWMutex and one access per step. C83_calls_partial: calls of ID never race with each other. C83_string_races: String reads the map of names without the mutex, so it races with an ID that creates a name. C24_sections_atomic, C24_locked_interning, C24_locked_assigned and C24_no_deadlock carry C24 over to this machine."
},
"C84": {
"note": "Model/Memory.lean is the store with the addresses of slices. C84_copies_partial: it does what a store that copies does, as long as callers write neither into bytes nor into a row from Next without columns. C84_row_shared, C84_row_shared_key, C84_bytes_shared and C84_bytes_key: such writes change committed rows, survive Rollback and leave two rows with one primary key."
},
"C85": {
"note": "C85_resolved_partial: exactly the tables that the statement is about are completed, and all other names stay as they are. C85_not_resolved and C85_queries_not_resolved: tables in FROM, in EXPLAIN, in subqueries and in foreign keys are never completed."
},
"C86": {
"note": "C86_kept_partial: the bytes are kept if no later token writes other bytes over them. C86_blind: nothing else of what Parse does depends on the bytes. C86_contents: what the bytes are at any time, for tokens that fit into the first array. C86_not_kept and C86_not_kept_later: a second literal, a name or a number after a literal changes it, and so does the next statement."
},
"C87": {
"note": "C87_name: exactly which column name a field name gives, and which are refused. C87_columns_partial: exactly which structs are accepted, and their columns and keys, for sizes less than 2^32. C87_same_name: exactly which field names without _ have the same column. C87_distinct_partial: the columns are different for fields in camel case without names in tags. C87_not_distinct: Abcdef and ABCDEF, Ab_c and AbC, and a name in a tag give two columns of the same name. C87_size_lost: the upper bits of a size are dropped without a panic."
},
"C88": {
"note": "C88_unique_partial: keys, defaults and NOT NULL have names that no earlier constraint has, and keys are different. C88_accepted_partial: any number of keys without names on different lists of columns are accepted, if the names of the columns have only small letters and digits. C88_not_unique: checks and foreign keys can have the name of another constraint. C88_refused: (a) and (a DESC) get the same name and are refused, and so are (a, b) and (a_b)."
},
"C89": {
"note": "C89_written and C89_inserted: exactly which structs are inserted, and their rows; C89_not_a_struct: other arguments but nil are refused. C89_read: exactly what a row is read as, and when reading panics. C89_update_partial: exactly which structs are taken for updates, if fields for string columns are strings. C89_text_stored: a number for a string column is taken, and the text <int Value> is stored, since reflect.Value.String does not panic. C89_number_changed: a number that does not fit the field is stored by an update and read as another number. C89_nil_inserted: nil is inserted as a row of NULLs, also in columns that are not null."
},
"C90": {
"note": "C90_found: the token and the left over string that got sees, after any calls of scan and unscan. C90_methods: the methods of the parser fail exactly when there is a message. C90_expected: exactly when there is a message, and what it lists. C90_told_apart_partial and C90_messages_partial: messages that are the same are about the same expectation and the same token, for tokens other than bytes, parameters and scanner errors, with numbers to six digits. C90_bytes: for bytes the message has a string that an earlier token has left, VALUES ('ab', 1 x'41') gives: got bytes ab. C90_parameters: all parameters are: token -10. C90_floats: 1e-9 and 2e-9 have the same message."
},
"C91": {
"note": "C91_token: each spelling of a token is read as the token, if what follows does not continue it. C91_layout_partial, C91_parse_partial: whole texts, and what Parse returns for them; a comment directly after an operator of one rune is missing. C91_unambiguous: a text spells one list of tokens. C91_console_partial: the console writes the same for two layouts, without COPY and NULL settings. C91_respaced: every text without errors can be given other white space and comments between its tokens, as long as they begin with white space. C91_comment: =/* is an error, for every operator of one rune other than + and -."
},
"C92": {
"note": "C92_upto_partial: for all tokens before and after the ;, also for errors, and what is left for the next call; the statement without tokens is missing. C92_texts_partial: for texts, with the ring of three tokens. C92_entered_partial: for a text up to a ;, laid out as in C91, with any text after it. C92_left: after a statement exactly what is after the ; is left. C92_empty: the token after the ; of a statement without tokens is read too, so that ; BEGIN is an error."
}
}