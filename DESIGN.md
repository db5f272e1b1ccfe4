# A formal model of leftmike/maho in Lean 4

The source under /repo is read as text; nothing of it is built or run. The
model is a set of total computable Lean functions written function by function
after the Go code. Every definition cites the file and lines it models. The
theorems are about those functions.

## Layout

| directory | contents |
|---|---|
| `lean/Verif/Model/*`  | the model of the code, one file per Go package or file |
| `lean/Verif/Spec/*`   | small independent specifications used in theorem statements |
| `lean/Verif/Lemmas/*` | helper lemmas |
| `lean/Verif/Props/*`  | the property theorems, named `Cnn_...`, with non-vacuity examples |
| `lean/Verif/Replay/*` | the cases of the repository's own tests, checked on the model |
| `tools/replay/*`      | the programs that write `lean/Verif/Replay` from the Go test files |

## Representation of Go data

* byte = `BitVec 8`, uint32/uint64/int32/int64 = `BitVec n` with wrapping
  arithmetic; int64 read through `toInt`.
* `[]byte` and `string` = `List (BitVec 8)`. Aliasing of slices is modelled only
  where the code depends on it (scanner buffer, storage trees).
* float64 = its 64 IEEE-754 bits. Comparison, NaN test and negation are defined
  on the bits; int64 -> float64 is modelled exactly (round to nearest even).
  Text formatting/parsing of floats and out-of-range float -> int conversion are
  parameters of the model.
* `types.Value` = inductive type; the nil interface (SQL NULL) is a case of its own.
* A Go call ends in `ok v`, `err` (an error value) or `panic` (a Go panic);
  the three outcomes are distinguished everywhere. Error texts are not modelled
  (where code branches on a specific error value, e.g. io.EOF, that value is a
  separate case).
* sync.Mutex and goroutines = explicit state machines over atomic steps;
  theorems quantify over all step sequences.
* google/btree (an external dependency, source not in the repo) = an ordered set
  over `lessItems`, represented as a strictly sorted list. `Clone` = a new
  reference holding the same set (copy on write).
* encoding/gob = a parameter with the round-trip law (`decode (encode x)` = x with
  every Identifier replaced by what GobDecode(GobEncode id) gives); an instance
  of the parameter is constructed so that the law is known to be satisfiable.

## Trusted base

* Lean's kernel, and the axioms `propext`, `Classical.choice`, `Quot.sound` (no
  others; `#print axioms` is checked for every property theorem). No `sorry`, no
  `native_decide`, no `bv_decide`.
* The reading of the Go source: the model is hand-written.
* The assumptions on external code listed above (btree, gob, Unicode tables,
  float text formatting).

## The model against the repository's tests

The tests of the repository cannot be run here, but their cases can be run on the
model. `tools/replay` reads the tables of cases in the Go test files and writes one
`example` per case, proved with `decide +kernel`, so the build fails where the
model and a test disagree. No disagreement has been found.

* `Replay/Parser`: parser/parser_test.go
* `Replay/Scanner`: the tests of parser/scanner and parser/token
* `Replay/Print`: the tests of parser/sql, and of names and column types
* `Replay/Values`: the tests of values, identifiers and encode
* `Replay/Texts`: the tests of testutil
* `Replay/Storage`: storage/test/table.go, run by the interpreter in `Replay/Store`
* `Replay/Engine`: engine/engine_test.go; `Replay/EngineRun`
  has the interpreter and the engine tests that are not tables of cases
* `Replay/Evaluate`: evaluate/session_test.go and evaluate/evaluate_test.go, with the
  engines of these files (Lemmas/FakeEngine.lean) and the traces they print

`Replay/Env` has the parameters the cases run with: the letters, digits and texts
of floats that occur in the tests. Left out are DROP DATABASE with options (the
parser never sets them), column and value types that are no constants of the
package, a row that is no struct, struct tags of other packages, and the test of
concurrent interning, which is random. The tests of evaluate do not compile at this
commit: `evalTable` in evaluate_test.go has no method `TableId`, which the interface
`engine.Table` has; their cases are run on the model all the same.

## Plan per property

Encoding and values
* C01-C05: functions on byte lists; specification = big-endian/base-128 value of
  a byte list as a natural number; induction on the list / number of digits.
  C04 is expected to fail (overlong encodings): a witness for the negation plus
  a partial theorem giving the exact condition.
* C06-C09: `MakeKey` on arbitrary keys and rows against an independent
  column-by-column comparison of values. Proof: each value encoding is
  "lexicographically self-delimiting", composition by induction on the key list.
  C09 is expected to fail for NULL (NULL first in both directions).
* C10-C11: bit-vector arithmetic; C10 fails at 2^31-1.
* C12-C14: `Compare`; C12 fails for NaN and mixed int/float; partial on the rest.
* C15: int64 -> float64 rounding against a rational-number specification.
* C16-C22: `CastValue`, `ConvertValue`, `ConvertRow`; specs: decimal numerals,
  UTF-8 well-formedness (Unicode table 3-7), predicate "value fits column".
  C20 fails at lengths >= 2^32 (length truncated to uint32), C22 fails for short
  rows (NOT NULL not checked on padding).

Identifiers
* C23-C27: interning table as state; histories = sequences of calls; concurrent
  version with the RLock/Lock steps split. Case folding: exact on ASCII,
  a parameter beyond. C27 fails for non-reserved keywords such as TEXT.

Storage
* C28-C35, C41-C43: transaction-local operations as functions on the tree;
  abstract specification: a finite map per table.
* C36-C40, C44: a world with a heap of trees, store pointer, mutex, transaction
  and rows objects; all step sequences. C31, C33, C34, C43 are expected to fail
  in part (multi-row insert keeps earlier rows inside the transaction; update
  without key change does not convert; failed key update loses the row; dropped
  table keeps rows).

Engine and session
* C45-C51: the engine functions composed from the storage model; abstract
  catalog as specification. C50 fails (not implemented in the code).
* C52-C55: session state machine. C53/C55 fail for statements the evaluator does
  not implement (panic with the lock held).

Scanner, parser, printer
* C56-C60: the scanner as a function on a rune list.
* C61-C66: the parser as a function on the token list; printer functions as in
  the sql package.
  Expected failures are recorded as negation theorems next to partial theorems.

Histories as seen by a client
* C69: pairs of statements of a session, after any history.
* C70: what exists computed from the operations and replies of a history alone,
  compared with the listings.

Typed tables
* C71: a visit of the rows by a callback with state, as a function on the list of
  rows; the store afterwards is compared with it.

Console and texts (Model/Console.lean: main.go on the parser that reads runes, and the
same loop with a session)
* C72: the loop ends on every text and writes the statements of the text; `Script` says which
  statements a text has, and for texts with COPY the places of C67 do.
* C73: a text has the effect of its statements: C63, C67 and C53 composed.

Rows as texts (Model/Rows.lean: testutil/parse.go and testutil/rows.go, which the tests
of the project use)
* C74: the grammar of rows as a relation; the reader decides it, and printed rows are in
  it.
* C75: `RowsEqual` against lists that are the same one by one, or after a permutation;
  `sort.Slice` is a parameter with its contract.
* C76: the statements of `Parse` against a grammar of statements (Spec/Statement.lean): sound for
  all tokens of a text, complete for the expressions and queries of Spec/Grammar.lean.

* C77: the lists of identifiers and columns of testutil/parse.go (Model/Columns.lean)
  against a grammar of texts (Spec/Columns.lean), as equivalences.
* C78: the same grammar with the names of statements describes CREATE TABLE: C77, C76 and
  the evaluator composed.

Any engine (Model/Evaluate.lean: sessions and the evaluator with whatever answers the
requests of the interfaces `Engine` and `Transaction`)
* C79: the list of requests and answers of a history against a protocol, for every engine;
  the session model of C52-C55 is the instance with the repository's engine.
* C80: the requests of each statement, for every engine.
* C81: a statement that fails changes nothing if the requests that fail do not; with the
  repository's engine it can be left out of the history.
* C82: simulation between engines.

Identifiers below the atomic sections (Model/IdLocks.lean: `ID` and `String` with the
`sync.RWMutex`, one access of a shared variable per step)
* C83: conflicting accesses are never enabled at the same time. C24 holds for these
  schedules too: the machine with the lock refines the one with atomic sections, and a
  call that has not returned never waits for ever.

The store with memory (Model/Memory.lean: rows and bytes have addresses; writes of
callers into their slices are calls like the others)
* C84: simulation between the store with memory and a store that copies
  (Spec/Memory.lean). Rows of the caller are in memory of their own, except those from
  `Next` without columns; slices of bytes are shared in both directions. With C59 a
  stored bytes literal can be the scanner's buffer.

Names in statements
* C85: the tables in a statement, in all clauses (Spec/Names.lean), before and after
  `Resolve`.

The buffer of the scanner (Model/ScanBuffer.lean: the arrays of the bytes.Buffer, and
what each token writes)
* C86: bytes tokens get numbers in place of their values, the parser runs on them, and
  the numbers in the statement are replaced by what the slices contain at some time.
  `C86_blind` (a relation between two runs of every method of the parser) justifies
  this: the parser does not look into bytes.

Structs and their columns (Model/Typed.lean)
* C87: a field name is divided into words, capitals and then other characters; a tag
  is a list of parts with commas between them. `MakeTypedInfo` is compared with what
  these say. Field names are ASCII.
* C89: what a field of a struct is in a column (`stored`, `OfColumn`, `ShortEnough`)
  and what a column is in a field (`ReadAs`), as relations that do not follow the code; the
  model of `fieldToValue` has the text that `reflect.Value.String` returns for values that are
  not strings, with the names of the predeclared types, and arguments of `TypedTableInsert`
  that are not pointers to structs (`StructArg`).

Names of constraints (on the grammar of C76, Spec/Statement.lean)
* C88: an invariant of the elements of a definition (`NewAfter`), and a definition
  built from columns and keys without names, parsed by C76_complete_partial. That
  names are told apart is a hypothesis, proved for the interning tables in C23.

* C90: what the parser looks for is a `Wanted` (Spec/Messages.lean), which says the
  tokens it takes and the text of the expectation, as an English list (`orList`). The
  ring of the parser is modelled once more with the field `String` of its slots;
  `LeftOver` says which string is in it, by the tokens alone. `%q` is an injective
  function of the environment, `%f` is modelled with its six digits. That equal
  messages have equal expectations is proved by taking the message apart from the
  left: no beginning of a message is a beginning of another one, keywords are capital
  letters, and names of runes have a fixed length.

* C91: the converse of C60. `Delimited` (Spec/Layout.lean) says for each kind of token what can come
  directly after it without changing it, `LaidOut` is a text that spells given tokens with white
  space and comments between them, and `Separator` is white space and comments that can be put
  between any two tokens. The helper lemmas in Lemmas/Layout.lean read each spelling in `Spells` with
  any delimited text after it.

* C92: `Upto` (Lemmas/Ahead.lean) relates two runs of a method on lists that end with `;` followed by
  `x` and by `y`; it is shown for every method of the parser, as `Sim` is for C64. The fuel of the two
  runs differs, so a run that is stuck is related to everything, and C64 excludes it at the end.

Not modelled: the test packages, error message texts other than those of C90.

## Where the code does not have the property

Each entry names the theorem that proves the negation on a concrete input. The
remaining part is proved in theorems ending in `_partial`.

| property | what the code does | witness |
|---|---|---|
| C04 | varint decoding accepts overlong and overflowing encodings (encode/encode.go) | `C04_varint_not_canonical`, `C04_varint_overflow_accepted` |
| C09 | NULL sorts first in ascending and in descending key columns | see Props/Key.lean |
| C10 | `MakeColumnKey` wraps for column numbers from 2^31-1 | see Props/Key.lean |
| C12 | `Compare` is not transitive with NaN and with big integers mixed with floats | see Props/Value.lean |
| C20 | the length check of a string truncates its length to 32 bits; one-byte integer columns | see Props/Value.lean |
| C22 | a short row is padded with NULL without the NOT NULL check | see Props/Value.lean |
| C27 | an identifier that is a keyword but not reserved (TEXT, INT, ...) changes by GobEncode/GobDecode | see Props/Ident.lean |
| C31 | a failed insert of several rows keeps the rows before the failing one | `C31_insert_not_atomic` |
| C33 | an update of columns outside the key neither converts nor checks the values | `C33_update_not_converted` |
| C34 | a failed update of key columns has already deleted the row | `C34_failed_update_loses_row` |
| C35 | after dropping and re-creating a table with another key, old rows sit under old keys | `C35_recreated_table_not_kept` |
| C42 | a table with a column named by a non-reserved keyword cannot be opened | `C42_keyword_column_not_opened` |
| C43 | rows of a dropped table appear in a table created with the same id | `C43_recreated_table_not_empty` |
| C46, C47 | a name of more than 128 bytes (64 letters can become more than 128 bytes by lower-casing) panics; `CreateDatabase` then leaves the store locked | `C46_long_name_panics`, `C47_long_name_panics` |
| C48 | a column named by a non-reserved keyword has another identifier when the table is opened | `C48_keyword_column_changes` |
| C49 | table ids are cut to 32 bits, failed attempts use up ids | `C49_ids_wrap` |
| C50 | `DropDatabase` leaves schemas and tables, `DropSchema` leaves tables, `DropTable` does nothing | `C50_database_contents_stay`, `C50_schema_contents_stay`, `C50_table_stays` |
| C51 | pointers to int, int8, int16, int32, float32 and fields that are not exported cannot be read back | `C51_int_pointer_panics`, `C51_float32_pointer_panics`, `C51_unexported_panics` |
| C53, C55 | SELECT, VALUES, SHOW, INSERT, UPDATE, DELETE, COPY, EXPLAIN and ALTER TABLE panic in the evaluator; outside a transaction the store stays locked and BEGIN of every session waits forever | `C53_panics`, `C55_blocks` |
| C59 | the value of a bytes token is a slice of the scanner's buffer, which the next token overwrites; the parser keeps that slice in literals | `C59_not_stable` |
| C60 | a `-` or `/` as the last character of the input is dropped without an error | `C60_dropped` |
| C61 | an operator after IS NULL, IN, ANY or ALL takes all that is before it (`NOT a IS NULL == b` is `(NOT (a IS NULL)) == b`), or ends the expression (`a IS NULL AND b` is rejected); the operand of IN, ANY and ALL is not put in order of precedence: `(2 * 3 + 1) IN (...)` tests 2 * (3 + 1) | `C61_test_not_nested`, `C61_test_stops`, `C61_in_not_nested` |
| C62 | `String` adds parentheses that become nodes, prints names without quotes (`"A"` becomes `a`), strings without doubling the quotes in them (the string `a' OR 'b` becomes an operation), bytes as a string that reads differently, floats with an exponent or without a point as something else, the least integer as a number that is rejected; `x == ANY (...) AND y` is rejected when read back; a query without FROM prints `FROM %!s(<nil>)`; HAVING without GROUP BY is not printed | `C62_parentheses_added`, `C62_name_changed`, `C62_quote_lost`, `C62_bytes_changed`, `C62_float_changed`, `C62_least_integer`, `C62_test_rejected`, `C62_no_from`, `C62_having_lost` |
| C63 | `String` of an INSERT with DEFAULT panics and of an UPDATE with DEFAULT prints `%!s(<nil>)`; the size of a column is lost (BIGINT becomes INT) and strings print as STRING, which is rejected; a check or a foreign key without a name prints `CONSTRAINT` without a name, which is rejected; the check of a column becomes one of the table; the names of NOT NULL and DEFAULT, the actions of foreign keys and VERBOSE are lost; strings in SET and in options of CREATE DATABASE lose their quotes; COPY without columns prints `()`; a quote as delimiter is not doubled | `C63_insert_panics`, `C63_update_rejected`, `C63_size_lost`, `C63_type_rejected`, `C63_check_rejected`, `C63_column_check_moved`, `C63_notNull_name_lost`, `C63_foreign_key_rejected`, `C63_actions_lost`, `C63_verbose_lost`, `C63_set_rejected`, `C63_option_rejected`, `C63_copy_rejected`, `C63_delimiter_rejected`, `C63_no_from`, `C63_having_lost` |
| C64 | `USE NULL` and `SET x = NULL` panic; an escape `\UFFFFFFFD` panics | `C64_null_panics`, `C64_escape_panics` |
| C66 | a type of size zero, such as VARCHAR(0), is accepted and its String panics; REAL is printed as DOUBLE | `C66_size_zero`, `C66_real` |
| C67 | after DELIMITER the parser moves the input to the next line before it has read the `;`: a comment before the `;` makes the statement fail, and other text there can be accepted with the wrong data; without the `;` the scanner reads beyond the line; after a COPY statement that is rejected for what follows it, the next statement is lost | `C67_comment`, `C67_garbage`, `C67_no_semicolon`, `C67_rejected` |
| C68 | an error at a token that starts with `-` or `/` names the place after the next character; an error at `;` or at the end of the input names the place of the third token before, or line 0 | `C68_minus`, `C68_semicolon` |
| C69 | DROP TABLE, DROP INDEX and CREATE INDEX do nothing and succeed whatever exists | `C69_table_not_dropped`, `C69_index_gone`, `C69_index_again` |
| C70 | `ListTables` always returns nothing | `C70_tables_not_listed` |
| C71 | a typed update of the key stops at the first clash with a row that is still to be moved, and the row is lost | `C71_shift_fails`, `C71_failed_update_loses_row` |
| C72 | a panic of `Parse` ends the console; `DEFAULT` cannot be printed; an empty statement swallows the statement after it | `C72_null_crashes`, `C72_escape_crashes`, `C72_default_note`, `C72_empty_takes_next` |
| C74 | negative integers, floats without a fraction, strings with a quote, backslash or NUL, and empty rows are not read back; what is not a hex digit is taken as one | `C74_negative_fails`, `C74_float_becomes_int`, `C74_quote_splits`, `C74_backslash_becomes_bytes`, `C74_nul_is_lost`, `C74_empty_fails`, `C74_not_hex` |
| C75 | a NaN equals every number, and the same rows with a NaN in another order are not equal; an integer beyond 2^53 equals another float | `C75_nan_equals_all`, `C75_nan_order`, `C75_big_integer` |
| C77 | the size of a column is cut to 32 bits, columns can be there twice and twice in the key | `C77_size_wraps`, `C77_not_checked` |
| C78 | a text with a key of several columns can only be read by `ParseColumns`, `DOUBLE PRECISION` only by `Parse` | `C78_only_tests`, `C78_only_statements` |
| C79 | a statement that the evaluator does not know panics outside a transaction and its transaction is never ended, with every engine | `C79_not_ended` |
| C80 | IF EXISTS of DROP TABLE and DROP INDEX is ignored | `C80_if_exists_ignored` |
| C81 | DROP TABLE of several tables in a transaction keeps the drops before the one that fails | `C81_drop_tables` |
| C83 | `Identifier.String` reads the map of names without the mutex, while `ID` may be writing it | `C83_string_races` |
| C84 | `Next` without columns returns the stored slice, and slices of bytes are kept by `Insert` and `Update` and handed out by `Next`: a caller who writes into them changes committed rows, in spite of `Rollback` and without the key | `C84_row_shared`, `C84_row_shared_key`, `C84_bytes_shared`, `C84_bytes_key` |
| C85 | the tables of FROM, EXPLAIN, subqueries and foreign keys are not completed with the defaults of the session | `C85_not_resolved`, `C85_queries_not_resolved` |
| C86 | bytes literals are slices of the buffer of the scanner: `VALUES (x'0102', x'0304')` holds the second value twice, and a statement that has been returned changes when the next one is scanned | `C86_not_kept`, `C86_not_kept_later` |
| C87 | fields that differ only in capitals (`Abcdef`, `ABCDEF`), or in `_` (`Ab_c`, `AbC`), or that are named by tags get two columns of the same name; of a size in a tag only the lower 32 bits are kept, so that 4294967296 is size zero | `C87_not_distinct`, `C87_size_lost` |
| C88 | two checks, a check and a key, or a foreign key and a key can have the same name; `UNIQUE (a), UNIQUE (a DESC)` and `UNIQUE (a, b), UNIQUE (a_b)` are refused, because the names made for the keys are the same | `C88_not_unique`, `C88_refused` |
| C89 | an update with a number for a string column stores the text `<int Value>`; an update with a larger integer type stores a number that the field of the table cannot have, and reading gives another number; `TypedTableInsert` of nil inserts a row of NULLs, also in columns that are not null | `C89_text_stored`, `C89_number_changed`, `C89_nil_inserted` |
| C90 | the message about a bytes token has the string that an earlier token has left in the ring: `VALUES ('ab', 1 x'41')` is refused with `expected rune ,, or rune ), got bytes ab`; all parameters are `token -10`; small numbers are all `float 0.000000` | `C90_bytes`, `C90_parameters`, `C90_floats` |
| C91 | a comment directly after an operator of one rune is not a comment: `a =/* c */ b` is refused, because `/` is taken for a part of the operator; `a = /* c */ b` is accepted | `C91_comment` |
| C92 | the statement without tokens reads the token after its `;`: `; BEGIN` is an error, `;` and `;;` are accepted, and the console waits for the next token | `C92_empty` |

## Assumptions of the engine model

`EngineEnv` (Model/Typed.lean) has as parameters the interning of names, gob for
table definitions and rounding to float32. Its laws about identifiers are those
proved for the interning tables in C25 and C27, for names of at most 128 bytes.
`SystemFits` (Spec/Engine.lean): the gob encodings of the four system table
definitions have at most 8192 bytes. `sampleEngine` (Lemmas/EngineSample.lean)
satisfies all of them. Reflection (engine/typedtable.go) is modelled by lists of
field descriptions; a `reflect.Value` method on a wrong kind panics.

## Simplifications of the session model

* A session evaluates one statement at a time; statements of different sessions
  are interleaved whole (the store has one lock, which a statement outside a
  transaction holds until it ends). A statement that waits is recorded as
  waiting and changes nothing.
* A panic ends the goroutine's statement and leaves the state as it is; whether
  the Go program survives it is outside the model.
* `types.ID(s, false)` in SET is the parameter `SqlEnv.unquoted`.

## Simplifications of the scanner model

* The input is a list of runes, then EOF forever or a read error forever. The
  one-rune pushback is an element of that list; `C56_reader` shows that this is
  what the fields `unread` and `read` do.
* Line and column numbers are left out. A new `ScanCtx` is used for every token.
* Model/ReadScan.lean has the scanner once more with `readRune`, `unreadRune`, the
  buffer, line and column, as in the code. `C56_scanner` shows that it returns the
  same tokens; C68 is about its positions.
* `unicode.IsLetter` and `unicode.IsDigit` beyond ASCII, `strconv.ParseFloat` and
  `types.ID` are parameters (`ScanEnv`).

Observed while modelling, and not a property of their own: `5-3` scans to the two
integers 5 and -3; the least int64 cannot be written (`C58_least`);
`\UFFFFFFFD` in a constant gives token.Error without an error, on which the
parser panics; octal escapes are taken modulo 256; `b'\xff'` gives two bytes
(UTF-8); runs of operator characters such as `=>` or `**` are errors.

## Simplifications of the parser model

* The parser is a function on the list of the tokens of the input; the end of the
  list is token.EOF. Putting a token back is an element of that list.
  Model/RingParse.lean has the parser once more with the ring of three scan
  contexts, the calls of `unscan` and the reads of the current context as in the
  code. `C64_ring` shows that it returns the same for every input, up to the
  first call that panics, so `unscan` itself never panics.
* Recursion takes the length of the list as its bound; the theorems show that
  the bound is never reached. The Go stack limit is left out.
* Error texts and positions are left out; an error is `Parsed.error`.
* A failing reader is left out. A new ScanCtx is used for every token.
* The bytes in a literal are a copy of those in the token. In the code they are a
  slice of the buffer of the scanner; C86 is about that.
* In these models COPY leaves the input as it is. Model/ReadParse.lean has `Parse`
  with the scanner of Model/ReadScan.lean, the move of the input to the next line
  and the reader of the data. The tokens that the scanner will return are
  computed ahead, and again when the input is moved or read by others. C67 relates
  it to the parser on lists.

Observed while modelling, and not a property of their own: an empty statement
consumes its `;` and then wants another end of a statement; the quoted name `""`
is identifier 0; EXECUTE, PREPARE and DETACH return a nil statement without an
error; a scan error at the start of a statement does not set `failed`; joins
associate to the right only, so that `a JOIN b ON x JOIN c ON y` is a syntax
error; IS NULL and IN bind tighter than every operator.

## Simplifications of the storage model

* The operations of one transaction come from one goroutine at a time. `Begin`,
  `Commit` and `Rollback` are divided at every point where another goroutine can
  observe an intermediate state (after Lock, before Unlock, before the
  transaction forgets its store).
* Rows and bytes are values, as if the store copied them. C84 is about the slices
  that the store shares with its callers.
* `Identifier.String` reads the map of names without the lock; C83 is about this
  race, all other models take the read as atomic.
