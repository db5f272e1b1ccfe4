{"id": "C01", "title": "Fixed-width integers encode big-endian and order-preserving", "statement": "EncodeUint64 (EncodeUint32) appends to the caller's buffer exactly 8 (4) bytes whose big-endian value is the argument, so decoding with binary.BigEndian gives the number back, and comparing two encodings with bytes.Compare gives the same answer as comparing the numbers; encoding the complement reverses that order.", "quantifier": "all uint64 / uint32 values, all buffers, all pairs of values", "why_tests_cant": "2^64 values and 2^128 pairs; a shift typo that is wrong for one byte lane survives sampling.", "anchors": ["encode/encode.go:EncodeUint64", "encode/encode.go:EncodeUint32"]}
{"id": "C02", "title": "Varint round trip", "statement": "For every number and every trailing data, DecodeVarint(EncodeVarint(nil,n) ++ rest) returns exactly (rest, n, true); EncodeVarint only appends, writes between 1 and 10 bytes, and no encoding is a proper prefix of another.", "quantifier": "all uint64 values, all prefixes and all trailing byte strings", "why_tests_cant": "Boundaries at every power of 2^7 and arbitrary trailing bytes cannot be enumerated.", "anchors": ["encode/encode.go:EncodeVarint", "encode/encode.go:DecodeVarint"]}
{"id": "C03", "title": "Varint decoder is total and exactly characterised", "statement": "On every byte string DecodeVarint stops without panic: it succeeds exactly when one of the first ten bytes is below 128, it then consumes exactly the bytes up to and including the first such byte and returns the little-endian base-128 number they spell, modulo 2^64; otherwise it reports failure.", "quantifier": "all byte strings", "why_tests_cant": "Untrusted input: the domain of byte strings is infinite and overflow/short-buffer cases interact.", "anchors": ["encode/encode.go:DecodeVarint"]}
{"id": "C04", "title": "Varint encodings are canonical", "statement": "Every byte string accepted by DecodeVarint is the encoding of the number returned: re-encoding the number gives back exactly the consumed bytes.", "quantifier": "all byte strings accepted by the decoder", "why_tests_cant": "Overlong and overflowing encodings are a sparse subset of an infinite domain.", "anchors": ["encode/encode.go:DecodeVarint", "encode/encode.go:EncodeVarint"]}
{"id": "C05", "title": "Zigzag round trip and size", "statement": "DecodeZigzag64(EncodeZigzag64(nil,n) ++ rest) = (rest, n, true) for every signed number; the number stored is 2n for n >= 0 and -2n-1 for n < 0, so numbers of small magnitude get short encodings.", "quantifier": "all int64 values and all trailing byte strings", "why_tests_cant": "2^64 values; sign-extension mistakes only show at particular bit patterns.", "anchors": ["encode/encode.go:EncodeZigzag64", "encode/encode.go:DecodeZigzag64"]}
{"id": "C06", "title": "Index keys order rows as the key columns say", "statement": "For any primary key definition (columns with ASC/DESC) and any two rows, bytes.Compare of their MakeKey encodings equals the comparison of the rows column by column, first difference deciding: NULL first, then booleans false<true, integers numerically, floats numerically with NaN before all and -0 = +0, strings and byte strings bytewise, with the direction of non-NULL values of the same kind reversed for DESC columns.", "quantifier": "all key definitions of any length, all pairs of rows, all values, strings of any length", "why_tests_cant": "Order preservation is a relation between pairs of unbounded strings and multi-column keys; escapes of 0 and 1 bytes, sign bits and complements interact.", "anchors": ["encode/key.go:MakeKey", "encode/key.go:encodeKeyBytes"]}
{"id": "C07", "title": "Index keys identify rows", "statement": "Two rows get the same MakeKey exactly when all key columns hold equal values (with -0 = +0 and all NaNs equal): no two different primary keys ever collide and equal primary keys never get different encodings.", "quantifier": "all key definitions, all pairs of rows", "why_tests_cant": "A collision loses or merges rows; finding one by sampling pairs of unbounded strings is hopeless.", "anchors": ["encode/key.go:MakeKey", "encode/key.go:encodeKeyBytes"]}
{"id": "C08", "title": "Index keys are self-delimiting and below MaxKey", "statement": "For a fixed key definition no row's key is a proper prefix of another row's key, the key for the first k columns is a prefix of the full key, and every key compares below MaxKey.", "quantifier": "all key definitions, all pairs of rows, all split points of the key", "why_tests_cant": "Needs all pairs of unbounded strings.", "anchors": ["encode/key.go:MakeKey", "encode/key.go:MaxKey"]}
{"id": "C09", "title": "DESC is the exact reverse of ASC", "statement": "For a single key column, the order of keys under DESC is the exact reverse of the order under ASC for any two values of that column.", "quantifier": "all pairs of column values including NULL and NaN", "why_tests_cant": "All pairs of values, unbounded strings.", "anchors": ["encode/key.go:MakeKey", "types/column.go:MakeColumnKey"]}
{"id": "C10", "title": "Column keys round trip", "statement": "MakeColumnKey(num, reverse) remembers its arguments: Column() gives num back and Reverse() gives reverse back, so distinct (column, direction) pairs give distinct keys.", "quantifier": "all uint32 column numbers and both directions", "why_tests_cant": "Two's-complement overflow only happens at the end of a 2^32 domain.", "anchors": ["types/column.go:MakeColumnKey", "types/column.go:Column", "types/column.go:Reverse"]}
{"id": "C11", "title": "Key update detection is exact", "statement": "ColumnKeyUpdated(key, cols) is true exactly when at least one updated column is one of the key columns.", "quantifier": "all keys and column lists of any length", "why_tests_cant": "Unbounded lists.", "anchors": ["types/column.go:ColumnKeyUpdated"]}
{"id": "C12", "title": "Compare is a total order", "statement": "types.Compare is reflexive, antisymmetric (Compare(a,b) = -Compare(b,a)) and transitive on SQL values, with NULL least and kinds ordered bool < number < string < bytes.", "quantifier": "all pairs and triples of values, NaN and mixed int/float included", "why_tests_cant": "Transitivity ranges over triples; float rounding and NaN break it at isolated points.", "anchors": ["types/value.go:Compare"]}
{"id": "C13", "title": "Compare never panics", "statement": "types.Compare returns -1, 0 or 1 for every pair of values, NULLs included; it never reaches the panics in the per-type compare methods.", "quantifier": "all pairs of values", "why_tests_cant": "All pairs of kinds and values.", "anchors": ["types/value.go:Compare", "types/value.go:compare"]}
{"id": "C14", "title": "Stored order agrees with value order", "statement": "For two non-NULL values of the same SQL type (NaN excluded), the order of their ascending index keys is the order types.Compare reports.", "quantifier": "all pairs of same-typed values", "why_tests_cant": "A mismatch would make range scans disagree with comparisons at isolated values.", "anchors": ["encode/key.go:MakeKey", "types/value.go:Compare"]}
{"id": "C15", "title": "Integer to float conversion is correctly rounded", "statement": "Converting an integer to a float (cast, or inside Compare) gives the nearest representable number with ties to even; it is exact up to 2^53 in magnitude and monotone over all integers.", "quantifier": "all int64 values and pairs of them", "why_tests_cant": "2^64 values; rounding boundaries are sparse.", "anchors": ["types/value.go:CastValue", "types/value.go:Int64Value.compare"]}
{"id": "C16", "title": "Cast gives the requested type", "statement": "CastValue to a valid type never panics; it keeps NULL, otherwise returns either an error or a value of the requested type, leaves a value that already has that type unchanged, and casting the result again changes nothing.", "quantifier": "all values and all five types", "why_tests_cant": "All values, including all strings.", "anchors": ["types/value.go:CastValue"]}
{"id": "C17", "title": "Integers survive a round trip through text", "statement": "Casting an integer to text and that text (with any surrounding blanks, tabs and newlines) back to an integer gives the same integer; text is accepted as an integer exactly when it is an optionally signed non-empty decimal numeral in the int64 range.", "quantifier": "all int64 values, all strings", "why_tests_cant": "2^64 values and infinitely many strings.", "anchors": ["types/value.go:CastValue"]}
{"id": "C18", "title": "Strings and byte strings convert losslessly", "statement": "Casting text to bytes and back gives the same text whenever it is valid UTF-8; casting bytes to text succeeds exactly for well-formed UTF-8 and never alters the bytes.", "quantifier": "all byte strings", "why_tests_cant": "UTF-8 validity has many boundary classes over unbounded strings.", "anchors": ["types/value.go:CastValue"]}
{"id": "C19", "title": "Boolean text is recognised exactly", "statement": "A text value casts to true exactly when, after removing surrounding blanks, tabs and newlines, it is one of t,true,y,yes,on,1 and to false exactly for f,false,n,no,off,0; everything else is an error.", "quantifier": "all strings", "why_tests_cant": "Infinite domain.", "anchors": ["types/value.go:CastValue"]}
{"id": "C20", "title": "A converted value satisfies its column type", "statement": "If ConvertValue accepts a value for a column then the result is NULL only in a nullable column, has the column's type, is at most the column's size long (strings and bytes) and lies in the column's integer range.", "quantifier": "all values, all column types, all sizes", "why_tests_cant": "All combinations of sizes and lengths, including length wrap-around.", "anchors": ["types/value.go:ConvertValue"]}
{"id": "C21", "title": "Conversion accepts valid values unchanged", "statement": "If a value already satisfies its column type ConvertValue returns it unchanged, so converting twice is the same as converting once.", "quantifier": "all values and column types", "why_tests_cant": "Infinite domain.", "anchors": ["types/value.go:ConvertValue"]}
{"id": "C22", "title": "A converted row satisfies its table", "statement": "If ConvertRow accepts a row, the result has exactly one value per column and every value satisfies its column type, NOT NULL included; it never panics for valid column types, and it rejects rows that are too long.", "quantifier": "all rows and all column lists", "why_tests_cant": "Unbounded rows; short rows are padded.", "anchors": ["types/value.go:ConvertRow"]}
{"id": "C23", "title": "Identifiers are interned faithfully", "statement": "In any history of ID calls, two calls return the same identifier exactly when their names are the same after truncation to 128 bytes and, if unquoted, case folding (unquoted keywords being distinct from quoted ones).", "quantifier": "all histories of ID calls, all names, quoted or not", "why_tests_cant": "Unbounded histories and names.", "anchors": ["types/identifier.go:ID", "types/identifier.go:lookupID"]}
{"id": "C24", "title": "Concurrent identifier creation is safe", "statement": "With any number of goroutines calling ID in any interleaving, every call returns the identifier that stays assigned to its name for ever; no name gets two identifiers, no identifier gets two names.", "quantifier": "all schedules of any number of concurrent calls", "why_tests_cant": "The double-checked lookup has a window between read unlock and write lock; schedules cannot be enumerated.", "anchors": ["types/identifier.go:ID", "types/identifier.go:lookupID"]}
{"id": "C25", "title": "An identifier prints as its name", "statement": "ID(s, quoted).String() is the name: s itself truncated if quoted, lower-cased if unquoted, or the upper-case keyword; it never changes later.", "quantifier": "all names, all histories", "why_tests_cant": "Unbounded histories and names.", "anchors": ["types/identifier.go:String", "types/identifier.go:ID"]}
{"id": "C26", "title": "Only unquoted reserved words are reserved", "statement": "ID(s, quoted).IsReserved() holds exactly when the name is unquoted and its upper-cased form is one of the reserved words; quoting always yields a usable name.", "quantifier": "all names, all histories", "why_tests_cant": "Unbounded names.", "anchors": ["types/identifier.go:IsReserved", "types/identifier.go:ID"]}
{"id": "C27", "title": "Identifiers survive encoding", "statement": "GobDecode(GobEncode(id)) gives the same identifier back, so stored table definitions keep their column and table names.", "quantifier": "all identifiers obtainable in any history", "why_tests_cant": "Depends on how the name was created and on the keyword table.", "anchors": ["types/identifier.go:GobEncode", "types/identifier.go:GobDecode"]}
{"id": "C28", "title": "Range scans are exact", "statement": "Rows(cols, min, max, pred) returns exactly the rows of the table visible to the transaction whose key lies between the keys of min and max (unbounded when nil) and that satisfy the predicate, each once, in key order, projected on cols.", "quantifier": "all table contents, bounds, predicates, column lists", "why_tests_cant": "Unbounded table contents and bounds.", "anchors": ["storage/basic/basic.go:table.Rows", "storage/basic/basic.go:rows.Next"]}
{"id": "C29", "title": "An open scan is a snapshot", "statement": "Rows already opened keep returning the rows as of the moment Rows was called, whatever inserts, updates and deletes the transaction does meanwhile.", "quantifier": "all scans and all interleaved operation sequences", "why_tests_cant": "Unbounded interleavings of scanning and writing.", "anchors": ["storage/basic/basic.go:table.Rows", "storage/basic/basic.go:rows.Next", "storage/basic/basic.go:rowRef.Update"]}
{"id": "C30", "title": "Insert adds exactly the given rows", "statement": "A successful Insert makes the table contain its old rows plus the converted new rows and nothing else; it fails if a row does not convert or its key is already present, and it never overwrites an existing row.", "quantifier": "all table contents and row lists", "why_tests_cant": "Unbounded contents and batches.", "anchors": ["storage/basic/basic.go:table.Insert"]}
{"id": "C31", "title": "A failed insert has no effect", "statement": "If Insert returns an error the table is unchanged.", "quantifier": "all table contents and row lists", "why_tests_cant": "Needs multi-row batches failing at any position.", "anchors": ["storage/basic/basic.go:table.Insert"]}
{"id": "C32", "title": "Update and delete touch exactly one row", "statement": "RowRef.Delete removes exactly the current row; RowRef.Update replaces exactly the given columns of the current row and moves it to its new key; all other rows of all tables are unchanged.", "quantifier": "all table contents, rows, column lists and values", "why_tests_cant": "Frame conditions over unbounded contents.", "anchors": ["storage/basic/basic.go:rowRef.Update", "storage/basic/basic.go:rowRef.Delete"]}
{"id": "C33", "title": "Updated rows satisfy the table", "statement": "After a successful Update the stored row satisfies the column types of the table (type, size, range, NOT NULL), as after Insert.", "quantifier": "all tables, rows and updated values", "why_tests_cant": "Depends on whether key columns are touched.", "anchors": ["storage/basic/basic.go:rowRef.Update"]}
{"id": "C34", "title": "A failed update has no effect", "statement": "If Update returns an error the row and the table are unchanged.", "quantifier": "all tables, rows and updated values", "why_tests_cant": "Depends on collisions with other rows.", "anchors": ["storage/basic/basic.go:rowRef.Update"]}
{"id": "C35", "title": "Primary keys are unique and the store stays sorted", "statement": "In every reachable state of every transaction history, no two rows of a table have the same key, every row is stored under the key computed from its own columns, and the tree is strictly sorted.", "quantifier": "all histories of storage operations", "why_tests_cant": "Inductive invariant over unbounded histories.", "anchors": ["storage/basic/basic.go", "storage/basic/btree.go"]}
{"id": "C36", "title": "Rollback undoes everything", "statement": "After Rollback the committed state is exactly what it was at Begin, whatever the transaction did.", "quantifier": "all operation sequences in a transaction", "why_tests_cant": "Copy-on-write sharing between snapshot and working tree must be right for every sequence.", "anchors": ["storage/basic/basic.go:Rollback", "storage/basic/basic.go:forWrite"]}
{"id": "C37", "title": "Commit publishes exactly the transaction's writes", "statement": "After Commit the committed state is the transaction's working state: the next transaction sees all its writes and nothing else.", "quantifier": "all operation sequences in a transaction", "why_tests_cant": "Unbounded sequences.", "anchors": ["storage/basic/basic.go:Commit", "storage/basic/basic.go:Begin"]}
{"id": "C38", "title": "Uncommitted changes never reach the committed state", "statement": "While a transaction runs, no operation other than Commit changes the committed tree.", "quantifier": "all histories", "why_tests_cant": "forWrite decides copying by pointer identity; must hold at every step of every history.", "anchors": ["storage/basic/basic.go:forWrite", "storage/basic/basic.go:Commit"]}
{"id": "C39", "title": "Transactions are mutually exclusive and serial", "statement": "Under every schedule of any number of goroutines at most one transaction is active, and the committed state always equals applying the committed transactions one after another in the order they began.", "quantifier": "all schedules of any number of concurrent clients", "why_tests_cant": "Schedules cannot be enumerated.", "anchors": ["storage/basic/basic.go:Begin", "storage/basic/basic.go:Commit", "storage/basic/basic.go:Rollback"]}
{"id": "C40", "title": "A completed transaction is inert", "statement": "Commit and Rollback on a completed transaction return an error and change nothing, in particular they never release another transaction's lock.", "quantifier": "all histories", "why_tests_cant": "Depends on interleaving with other transactions.", "anchors": ["storage/basic/basic.go:Commit", "storage/basic/basic.go:Rollback", "engine/engine.go:Commit", "engine/engine.go:Rollback"]}
{"id": "C41", "title": "Tables do not interfere", "statement": "Operations on one table never change what is read from another table or from the table definitions.", "quantifier": "all pairs of table ids, all operations", "why_tests_cant": "2^32 table ids packed into relation numbers; all contents.", "anchors": ["storage/basic/btree.go:toRelationId", "storage/basic/btree.go:lessItems"]}
{"id": "C42", "title": "Tables open with the definition they were created with", "statement": "After CreateTable succeeds OpenTable with the same definition succeeds (in the same and later transactions) and any differing definition or an unknown table is refused, until DropTable.", "quantifier": "all table definitions, all later operations", "why_tests_cant": "Unbounded definitions and histories; definitions are stored encoded.", "anchors": ["storage/basic/basic.go:CreateTable", "storage/basic/basic.go:OpenTable", "storage/basic/basic.go:DropTable"]}
{"id": "C43", "title": "A newly created table is empty", "statement": "Right after CreateTable a scan of the table returns no rows.", "quantifier": "all histories before the creation, including drop and re-create", "why_tests_cant": "Depends on earlier history.", "anchors": ["storage/basic/basic.go:CreateTable", "storage/basic/basic.go:DropTable"]}
{"id": "C44", "title": "Open scans are counted exactly", "statement": "A transaction can be committed or rolled back exactly when every Rows it returned has been closed; otherwise the call panics and changes nothing.", "quantifier": "all histories of opening and closing scans", "why_tests_cant": "Unbounded histories.", "anchors": ["storage/basic/basic.go:rowsCount", "storage/basic/basic.go:rows.Close", "storage/basic/basic.go:Commit"]}
{"id": "C45", "title": "A fresh system has the documented catalog", "statement": "After Init on an empty store the databases are exactly system and maho, the schemas exactly system.info and maho.public, and the four system tables can be opened with their definitions and ids.", "quantifier": "the initial state and every read of it", "why_tests_cant": "Needs every lookup, including all absent names.", "anchors": ["engine/init.go:Init"]}
{"id": "C46", "title": "Databases behave as a set of names", "statement": "Create, drop and list databases behave as insert, delete and sorted listing of a set of names: create fails exactly on an existing name, drop fails exactly on a missing name unless IF EXISTS, failures change nothing.", "quantifier": "all histories of database operations", "why_tests_cant": "Unbounded histories through storage, keys and transactions.", "anchors": ["engine/engine.go:CreateDatabase", "engine/engine.go:DropDatabase", "engine/engine.go:ListDatabases"]}
{"id": "C47", "title": "Schemas behave as a set of names per database", "statement": "Create, drop and list schemas behave as operations on a set of (database, schema) pairs; create requires the database to exist; listing returns exactly the schemas of that database in name order.", "quantifier": "all histories of schema operations, all names", "why_tests_cant": "The listing relies on key order contiguity over all names.", "anchors": ["engine/engine.go:CreateSchema", "engine/engine.go:DropSchema", "engine/engine.go:ListSchemas"]}
{"id": "C48", "title": "Tables are created once and found again", "statement": "CreateTable requires the schema to exist and the name to be free; afterwards OpenTable finds it with the same definition and id, and no other lookup changes.", "quantifier": "all histories, all names and definitions", "why_tests_cant": "Unbounded histories.", "anchors": ["engine/engine.go:CreateTable", "engine/engine.go:OpenTable"]}
{"id": "C49", "title": "Table ids are never shared", "statement": "All tables in the catalog have distinct ids, user tables get ids of at least 512, and ids increase with creation order.", "quantifier": "all histories of committed and rolled-back transactions", "why_tests_cant": "Unbounded histories.", "anchors": ["engine/engine.go:nextTableId", "engine/engine.go:CreateTable"]}
{"id": "C50", "title": "Dropping removes what it contains", "statement": "After DROP DATABASE its schemas and tables are gone, after DROP SCHEMA its tables are gone, after DROP TABLE the table is gone.", "quantifier": "all catalogs", "why_tests_cant": "Depends on catalog contents.", "anchors": ["engine/engine.go:DropDatabase", "engine/engine.go:DropSchema", "engine/engine.go:DropTable"]}
{"id": "C51", "title": "Typed rows round trip", "statement": "Writing a struct with TypedTableInsert and reading the row back with RowToStruct gives the same struct: every bool, string, bytes, float and integer field, NULL pointers included.", "quantifier": "all struct layouts and field values", "why_tests_cant": "All combinations of field kinds and values.", "anchors": ["engine/typedtable.go:structToRow", "engine/typedtable.go:RowToStruct"]}
{"id": "C52", "title": "Session transactions bracket correctly", "statement": "BEGIN is refused exactly when the session already has a transaction, COMMIT and ROLLBACK exactly when it has none; CREATE and DROP DATABASE are refused inside a transaction.", "quantifier": "all sequences of statements", "why_tests_cant": "Unbounded statement histories.", "anchors": ["evaluate/session.go:Evaluate"]}
{"id": "C53", "title": "Autocommit statements are atomic", "statement": "Outside an explicit transaction a statement that fails leaves the committed state unchanged and a statement that succeeds has exactly its effect committed; in both cases the store is free afterwards.", "quantifier": "all statements and all states", "why_tests_cant": "Every statement from every state.", "anchors": ["evaluate/session.go:Evaluate", "evaluate/evaluate.go:Evaluate"]}
{"id": "C54", "title": "Names resolve against the session defaults", "statement": "A table name without database gets the session's database and, if also without schema, the session's schema; a fully qualified name is never changed; resolving twice changes nothing; SET DATABASE / SET SCHEMA change exactly their default.", "quantifier": "all names and session states", "why_tests_cant": "All combinations of missing parts.", "anchors": ["evaluate/session.go:ResolveTable", "evaluate/session.go:ResolveSchema", "evaluate/session.go:set"]}
{"id": "C55", "title": "No statement can block the server", "statement": "After any statement of any session returns or fails, the store is locked only if some session has an explicit transaction open.", "quantifier": "all statements, all sessions, all histories", "why_tests_cant": "Depends on panics while holding the lock.", "anchors": ["evaluate/session.go:Evaluate", "evaluate/evaluate.go:Evaluate"]}
{"id": "C56", "title": "Scanning always terminates and makes progress", "statement": "For every input each Scan returns, consumes at least one character unless at the end of input, and repeated scanning reaches EOF after at most as many tokens as characters.", "quantifier": "all inputs", "why_tests_cant": "Infinite domain of inputs.", "anchors": ["parser/scanner/scanner.go:Scan"]}
{"id": "C57", "title": "Quoted strings scan to their contents", "statement": "Writing any text between single quotes with quotes doubled and backslashes escaped and scanning it yields one String token with exactly that text, whatever follows that is not a continuation.", "quantifier": "all texts of any length", "why_tests_cant": "Unbounded strings with escapes.", "anchors": ["parser/scanner/scanner.go:scanString"]}
{"id": "C58", "title": "Numbers scan to their value", "statement": "The decimal numeral of every non-negative int64 scans to one Integer token with that value, and a numeral too large for int64 is an error, never a wrong value.", "quantifier": "all numerals", "why_tests_cant": "2^63 values and unbounded numerals.", "anchors": ["parser/scanner/scanner.go:scanInteger"]}
{"id": "C59", "title": "Hex byte strings scan to their bytes", "statement": "x'..' with any even number of hex digits scans to one Bytes token with exactly those bytes, and the token's value stays the same while scanning continues.", "quantifier": "all byte strings and all following input", "why_tests_cant": "Unbounded strings; value is a slice of a reused buffer.", "anchors": ["parser/scanner/scanner.go:scanHexBytes"]}
{"id": "C60", "title": "No input is silently ignored", "statement": "Scanning loses no characters: apart from white space and comments every character of the input belongs to a token or to a reported error.", "quantifier": "all inputs", "why_tests_cant": "Infinite domain; end of input cases.", "anchors": ["parser/scanner/scanner.go:Scan"]}
{"id": "C61", "title": "Expressions respect precedence and associativity", "statement": "Parsing an infix expression yields the tree in which tighter operators are nested inside looser ones and operators of equal precedence associate to the left, with parentheses overriding; the operands and operators appear in source order.", "quantifier": "all expressions of any length and nesting", "why_tests_cant": "Unbounded expressions; rotations are applied recursively.", "anchors": ["parser/parser.go:adjustPrecedence", "parser/parser.go:parseSubExpr"]}
{"id": "C62", "title": "Printed expressions parse back", "statement": "Printing an expression with String and parsing the text yields the same expression.", "quantifier": "all expressions of any depth", "why_tests_cant": "Unbounded trees.", "anchors": ["parser/sql/expr.go:String", "parser/parser.go:parseExpr"]}
{"id": "C63", "title": "Printed statements parse back", "statement": "Printing a parsed statement with String and parsing the text yields the same statement.", "quantifier": "all statements the parser can produce", "why_tests_cant": "Unbounded trees.", "anchors": ["parser/sql/stmt.go:String", "parser/sql/datadef.go:String", "parser/sql/query.go:String", "parser/parser.go:Parse"]}
{"id": "C64", "title": "Parsing never crashes", "statement": "Parse returns a statement or an error for every input; no input makes it panic or loop.", "quantifier": "all inputs", "why_tests_cant": "Infinite domain.", "anchors": ["parser/parser.go:Parse"]}
{"id": "C65", "title": "CREATE TABLE definitions are consistent", "statement": "Every CREATE TABLE accepted by the parser has distinct column names, one type and default per column, at most one primary key, and constraints whose key lists have a direction for every column.", "quantifier": "all accepted inputs", "why_tests_cant": "Unbounded definitions.", "anchors": ["parser/parser.go:parseCreateTable", "parser/parser.go:parseColumn", "parser/parser.go:addKeyConstraint"]}
{"id": "C66", "title": "Column types print and parse back", "statement": "Every column type the parser produces has a printable name, and parsing that name yields the same type.", "quantifier": "all column types, all sizes", "why_tests_cant": "2^32 sizes.", "anchors": ["types/column.go:String", "parser/parser.go:parseColumnType"]}
{"id": "C67", "title": "COPY takes its data from the lines after the statement", "statement": "After COPY ... FROM STDIN the field From delivers exactly the characters after the line in which the statement ends, FromLine is the number of that next line, and the following call of Parse goes on after the characters that were read.", "quantifier": "all inputs, all sequences of calls of Parse and of ReadRune", "why_tests_cant": "Unbounded inputs; the parser has read ahead a token or a character in some forms of the statement and not in others.", "anchors": ["parser/parser.go:parseCopy", "parser/parser.go:Parse", "parser/scanner/scanner.go:RuneReader"]}
{"id": "C68", "title": "Errors name the place of the offending token", "statement": "The line and column that the scanner records for a token, and that parse errors report, are those of the first character of the token.", "quantifier": "all inputs, all tokens of the input", "why_tests_cant": "Unbounded inputs; tests of the scanner do not look at positions after comments, signs and semicolons.", "anchors": ["parser/scanner/scanner.go:Scan", "parser/scanner/scanner.go:readRune", "parser/parser.go:error"]}
{"id": "C69", "title": "Statements check what exists", "statement": "Creating what exists and dropping what does not exist is refused, unless IF NOT EXISTS or IF EXISTS is given; what was created can be dropped and what was dropped can be created again.", "quantifier": "all histories of statements, all names", "why_tests_cant": "Unbounded histories with transactions.", "anchors": ["evaluate/evaluate.go:EvaluateCreateTable", "evaluate/evaluate.go:EvaluateDropTable", "evaluate/evaluate.go:EvaluateCreateIndex", "evaluate/evaluate.go:EvaluateDropIndex", "engine/engine.go:DropTable"]}
{"id": "C70", "title": "What exists is listed and found", "statement": "ListDatabases, ListSchemas and ListTables return exactly the databases, schemas and tables that were created and not dropped since, in ascending order, and OpenTable finds exactly the tables among them; what a transaction did counts only in it and after its COMMIT.", "quantifier": "all histories of operations", "why_tests_cant": "Unbounded histories with transactions.", "anchors": ["engine/engine.go:ListDatabases", "engine/engine.go:ListSchemas", "engine/engine.go:ListTables", "engine/engine.go:OpenTable"]}
{"id": "C71", "title": "Going through a typed table changes exactly the chosen rows", "statement": "TypedTableSelect, TypedTableUpdate and TypedTableDelete offer exactly the rows in the range to the callback, in the order of the key and each once, until the callback ends the visit; exactly the rows it chooses are changed or deleted and nothing else in the store; an end of file from the callback is success, an error is returned.", "quantifier": "all tables, all ranges, all callbacks with any state", "why_tests_cant": "Unbounded tables, arbitrary callbacks.", "anchors": ["engine/typedtable.go:typedTableSelect", "engine/typedtable.go:TypedTableSelect", "engine/typedtable.go:TypedTableUpdate", "engine/typedtable.go:TypedTableDelete", "storage/basic/basic.go:Update"]}
{"id": "C72", "title": "The console writes every statement it reads", "statement": "For every text on its input the console ends at the end of the text, and for every statement in it that is accepted it writes that statement, in order, and for the others an error; no text makes it crash.", "quantifier": "all texts", "why_tests_cant": "Unbounded texts with any number of statements.", "anchors": ["main.go:main", "parser/parser.go:Parse"]}
{"id": "C73", "title": "SQL text has the effect of the statements it spells", "statement": "A session that is given a text of statements, parsed by the parser and evaluated one after the other, gives the replies and reaches the state of the statements that the text spells, and on a new server that is what the statements mean for the catalog.", "quantifier": "all texts of printed statements, all servers, all sessions", "why_tests_cant": "The composition of scanner, parser, session and engine over unbounded texts and histories.", "anchors": ["parser/parser.go:Parse", "evaluate/session.go:Evaluate", "evaluate/evaluate.go:Evaluate", "main.go:main"]}
{"id": "C74", "title": "Rows are printed and read back", "statement": "ParseRows accepts exactly the texts that the grammar of rows describes and returns their rows, and what FormatRows prints for rows is read back as the same rows.", "quantifier": "for all environments, texts and lists of rows", "why_tests_cant": "A test reads a few texts; it cannot show that no other text is accepted, or that every value is read back.", "anchors": ["testutil/parse.go:42-257", "testutil/rows.go:10-20", "types/value.go:210-229"]}
{"id": "C75", "title": "RowsEqual decides whether two lists have the same rows", "statement": "RowsEqual is true exactly when the two lists have the same rows one by one, or with unordered when they have the same rows in some order, however sort.Slice orders rows of which neither is less.", "quantifier": "for all lists of rows and all sorts with the contract of sort.Slice", "why_tests_cant": "The tests of the project rely on RowsEqual; when it is wrong they pass or fail wrongly.", "anchors": ["testutil/rows.go:22-65", "types/value.go:188-208"]}
{"id": "C76", "title": "Parse accepts exactly the statements of its grammar", "statement": "Parse returns a statement only for tokens that are that statement in the grammar of the comments, followed by a semicolon or the end, and it accepts everything that the grammar describes, as the statement described.", "quantifier": "for all environments, lists of tokens and statements", "why_tests_cant": "A test parses some texts; it cannot show that no text outside of the grammar is accepted, or that every combination of clauses is.", "anchors": ["parser/parser.go:33-367", "parser/parser.go:438-1031", "parser/parser.go:1300-1398", "parser/parser.go:1536-1955"]}
{"id": "C77", "title": "Lists of identifiers and of columns are read as they are written", "statement": "ParseIdentifiers accepts exactly the texts that are one or more identifiers with commas between them, and returns those identifiers. ParseColumns accepts exactly the texts that are one or more columns with commas between them, each a name, a type with a size if it is one of strings or bytes, and any number of PRIMARY KEY and NOT NULL; it returns the names, the types with the sizes modulo 2^32, and the columns of the key in the order of the text.", "quantifier": "for all environments and texts", "why_tests_cant": "The tests of the storage engines get their tables from these texts; a test tries some of them, and cannot show that nothing else is accepted.", "anchors": ["testutil/parse.go:275-452"]}
{"id": "C78", "title": "A text of columns makes the same table in tests and in CREATE TABLE", "statement": "Whatever text of columns ParseColumns and CREATE TABLE accept, both make the same table of it: the same columns, types and key.", "quantifier": "for all environments, texts of columns, names of tables and stores", "why_tests_cant": "The tests of the engines define tables by ParseColumns and not by statements; only if both agree on all texts do the tests say something about the tables that statements make.", "anchors": ["testutil/parse.go:366-434", "parser/parser.go:438-455", "parser/parser.go:561-855", "evaluate/evaluate.go:53-66", "evaluate/evaluate.go:96-122"]}
{"id": "C79", "title": "Sessions keep to the protocol of transactions with every engine", "statement": "Whatever engine a session is given, it creates and drops databases and begins transactions only while it has no transaction open, uses only the transaction it began, and ends every transaction it begins exactly once.", "quantifier": "for all engines (their states, transactions and replies), sessions and histories of statements", "why_tests_cant": "The engine is an interface; engines such as the one in the repository hold a lock from Begin until Commit or Rollback, so a session that leaves a transaction open stops the server.", "anchors": ["evaluate/session.go:25-118", "evaluate/evaluate.go:13-42", "engine/engine.go:16-47"]}
{"id": "C80", "title": "Evaluate asks the transaction for what the statement says", "statement": "For every engine, CREATE and DROP of schemas, tables and indexes ask the transaction exactly for what the statement says: the names, columns, types and key of the statement, nothing if it is to do nothing, and no more after a failure.", "quantifier": "for all engines, transactions, states and statements", "why_tests_cant": "What a client asked for must be what reaches the engine.", "anchors": ["evaluate/evaluate.go:13-143"]}
{"id": "C81", "title": "A statement that fails in a transaction changes nothing", "statement": "A statement that fails inside of a transaction leaves the transaction as it was, so the rest of the history goes on as if the statement had not been there.", "quantifier": "for all engines whose requests change nothing when they fail, and all histories of sessions with the repository's engine", "why_tests_cant": "A client that goes on after an error must not commit half of the statement that failed.", "anchors": ["evaluate/evaluate.go:68-143", "evaluate/session.go:95-106"]}
{"id": "C82", "title": "Engines that answer alike cannot be told apart", "statement": "If two engines answer every request alike, sessions on them give the same replies to every history of statements.", "quantifier": "for all pairs of engines, relations between their states and transactions, and histories", "why_tests_cant": "It makes the tests with the small engines of the test files say something about the sessions with real engines, and lets an engine be replaced.", "anchors": ["evaluate/session.go:25-118", "evaluate/evaluate.go:13-143", "engine/engine.go:16-61"]}
{"id": "C83", "title": "No data race on the tables of identifiers", "statement": "No two goroutines ever access one of the shared variables identifiers, names and lastIdentifier at the same time unless both only read it, whatever calls of ID and Identifier.String they make.", "quantifier": "for all numbers of calls, their arguments and all interleavings of their single accesses", "why_tests_cant": "A race shows only in particular interleavings, and in Go a map that is read and written at the same time ends the whole server.", "anchors": ["types/identifier.go:273-324"]}
{"id": "C84", "title": "The store shares no memory with its callers", "statement": "What a transaction returns does not depend on what callers do with the rows and values that they have given to the store or got from it: the store does what it would do if it copied every row and every value that comes in or goes out.", "quantifier": "for all sequences of calls of Insert, Rows, Next, Current, Update, Delete, Commit and Rollback, and of writes of callers into their rows and into the bytes in them", "why_tests_cant": "Slices are shared silently: a caller that reuses a row or a buffer changes committed rows behind the key order, locks and transactions, and nothing fails until much later.", "anchors": ["storage/basic/basic.go:324-474", "storage/basic/btree.go:14-50", "types/value.go:239-379"]}
{"id": "C85", "title": "Every table name of a statement is completed", "statement": "When a session evaluates a statement, every table that the statement names, in whatever clause, is completed with the defaults of the session before the statement is evaluated.", "quantifier": "for all statements and all sessions", "why_tests_cant": "Table names occur in many clauses and inside nested queries; a forgotten one shows only when the defaults of two sessions differ.", "anchors": ["parser/sql/stmt.go:9-75", "parser/sql/datadef.go:188-384", "parser/sql/query.go:87-296", "evaluate/session.go:34-52"]}
{"id": "C86", "title": "A statement holds the bytes of its text", "statement": "When Parse returns a statement, every bytes literal in it holds the bytes that are written in the text, and it goes on holding them while the next statements are read.", "quantifier": "for all texts and all calls of Parse", "why_tests_cant": "The value of a bytes token is a slice of the buffer of the scanner, which is reset for the next token; the literal keeps the slice, so whatever is scanned next may change it without an error.", "anchors": ["parser/scanner/scanner.go:46", "parser/scanner/scanner.go:69-73", "parser/scanner/scanner.go:466-473", "parser/scanner/scanner.go:549-575", "parser/parser.go:33-70", "parser/parser.go:1189-1190", "parser/parser.go:1861-1895"]}
{"id": "C87", "title": "A typed table has the columns that its struct describes", "statement": "MakeTypedInfo gives the table of a struct one column for each field, in the order of the fields, with the name, the type, the size, NOT NULL and the place in the primary key that the field and its tag say; it refuses every other struct; and the columns of different fields have different names.", "quantifier": "for all struct types and all tags", "why_tests_cant": "The tests try a dozen structs; the rules for tags and for turning field names into column names are about all texts, and one of the tests itself has two fields with the same column.", "anchors": ["engine/typedinfo.go:25-60", "engine/typedinfo.go:62-93", "engine/typedinfo.go:95-189", "engine/typedinfo.go:191-198"]}
{"id": "C88", "title": "The constraints of a table have different names, and only repeated ones are refused", "statement": "In the definition of a table that Parse accepts, no two constraints have the same name and no key is there twice; and a key that is written without a name is not refused as long as the table has no other constraint on the same key.", "quantifier": "for all CREATE TABLE statements", "why_tests_cant": "The names of keys without a name are made from the names of their columns, so that whether two of them are the same depends on all column names; the tests have a few.", "anchors": ["parser/parser.go:555-616", "parser/parser.go:689-700", "parser/parser.go:702-727", "parser/parser.go:729-747", "parser/parser.go:749-850"]}
{"id": "C89", "title": "Typed tables take only structs that fit, and structs get what is in the row", "statement": "Inserting a struct into a typed table, and updating with one, is accepted exactly if each field is a field of the table and has a value of the type and size of its column, and then exactly these values are stored; everything else panics and stores nothing. Reading a row into a struct sets each field to the value of its column, or panics if the field cannot have this value.", "quantifier": "for all struct types, structs, rows, and other arguments (nil, nil pointers, values that are not pointers)", "why_tests_cant": "The methods of reflect that read and set fields panic for the wrong kinds, except for some that do not; the tests have one struct of each kind and no updates with other types.", "anchors": ["engine/typedtable.go:14-46", "engine/typedtable.go:48-70", "engine/typedtable.go:72-148", "engine/typedtable.go:150-178", "engine/typedtable.go:184-198"]}
{"id": "C90", "title": "Messages of the parser say what was expected and which token was found", "statement": "If the parser finds a token it does not expect, its message lists exactly what was expected and names the token that was found: two messages that are the same are about the same expectation and the same token.", "quantifier": "for all sequences of tokens, all ways to go forwards and back in them, and everything that is expected", "why_tests_cant": "The tests only look whether there is an error. The message is made from fields that tokens of other kinds leave as they were, in a ring of three slots that are used again.", "anchors": ["parser/parser.go:76-135", "parser/parser.go:137-163", "parser/parser.go:179-185", "parser/parser.go:196-244", "parser/token/token.go:74-82", "parser/scanner/scanner.go:27-36"]}
{"id": "C91", "title": "White space and comments between tokens do not change what is read", "statement": "A text that spells tokens one after the other is read as exactly these tokens, whatever white space and comments are between them, so that two layouts of the same tokens are parsed alike.", "quantifier": "for all tokens, all their spellings, all white space and all comments, and all tables of letters and digits beyond ASCII in which no rune has two classes", "why_tests_cant": "The scanner looks ahead in many places: after e, b and x, after - and /, after operators, after numbers, and after a closing quote, where it also skips white space. Each of them could take a rune that belongs to what follows. C60 says that what is read is spelled in the text; this is the other direction.", "anchors": ["parser/scanner/scanner.go:112-252", "parser/scanner/scanner.go:284-390", "parser/scanner/scanner.go:457-575", "parser/token/token.go:51-88"]}
{"id": "C92", "title": "What Parse returns does not depend on what is after the semicolon", "statement": "What a call of Parse returns, a statement, an error or a panic, is decided by the tokens up to the ; that ends the statement, whatever is after it, and all that is after the ; is left for the next call.", "quantifier": "for all tokens before the ;, all pairs of lists of tokens after it, both values of the field failed, and all environments", "why_tests_cant": "The parser puts back up to three tokens and asks for optional words in about a hundred places. One of them that reads beyond the ; would make the console wait for more input, or make a statement depend on the next one.", "anchors": ["parser/parser.go:33-70", "parser/parser.go:76-110", "parser/parser.go:137-244", "parser/parser.go:246-367"]}
