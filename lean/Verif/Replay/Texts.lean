import Verif.Replay.Env
import Verif.Model.Columns
import Verif.Props.Rows
/-
testutil/parse_test.go and testutil/rows_test.go on the model (written by
tools/replay/texts.py).
-/
namespace Maho.Replay

/-- testutil/parse_test.go:18 -/
example : ∀ c ∈ ([("'abc'", some (some (.str (ascii "abc")))), (" \t\n 'abc'  ", some (some (.str
  (ascii "abc")))), ("'", none), ("' ", none), ("123", some (some (.int 123))), (" 123 ", some
  (some (.int 123)))] : List (String × Option (Option Value))), (parseValue rowEnv (runes
  c.1)).map (·.1) = c.2 := by decide +kernel

/-- testutil/parse_test.go:24 -/
example : ∀ c ∈ ([("123.456", some (some (.float 0x405edd2f1a9fbe77#64))), ("123..456", none),
  (".", none), (".123", some (some (.float 0x3fbf7ced916872b0#64))), ("true", some (some (.bool
  true))), ("  False  ", some (some (.bool false)))] : List (String × Option (Option Value))),
  (parseValue rowEnv (runes c.1)).map (·.1) = c.2 := by decide +kernel

/-- testutil/parse_test.go:30 -/
example : ∀ c ∈ ([("t", none), ("null", some none), ("'\\a'", none), ("'\\x1234", none),
  ("'\\x123'", none), ("'\\x1234567890abcdef'", some (some (.bytes [18, 52, 86, 120, 144, 171,
  205, 239])))] : List (String × Option (Option Value))), (parseValue rowEnv (runes c.1)).map
  (·.1) = c.2 := by decide +kernel

/-- testutil/parse_test.go:60 -/
example : ∀ c ∈ ([("(123, 'abc', true, 456.789, '\\x010203')", some (ascii
  "(123, 'abc', true, 456.789, '\\x010203')")), ("(123 true)", none), ("123, true)", none),
  ("(123, true", none), ("()", none), (" (    123,456 ,'abc'  ,   'def'    )   ", some (ascii
  "(123, 456, 'abc', 'def')"))] : List (String × Option Bytes)), (parseRow rowEnv (runes c.1)).map
  (fun r => rowString env r.1) = c.2 := by decide +kernel

/-- testutil/parse_test.go:96 -/
example : ∀ c ∈ ([("(123, 'abc', true, 456.789, '\\x010203')", some (ascii
  "(123, 'abc', true, 456.789, '\\x010203')")), ("(12, 345), (123 true)", none),
  ("(true, false), 123, true)", none), ("('abc', 'def'), (123, true", none), ("(12, 345), ()",
  none), (" (    123,456 ,'abc'  ,   'def'    )   ", some (ascii "(123, 456, 'abc', 'def')")),
  ("(12,34,'abc')   ,('def',567,89),    (true,true,false),(null,null,null)", some (ascii
  "(12, 34, 'abc'), ('def', 567, 89), (true, true, false), (NULL, NULL, NULL)"))] : List (String ×
  Option Bytes)), (parseRows rowEnv (runes c.1)).map (formatRows env (ascii ", ")) = c.2 :=
  by decide +kernel

/-- testutil/parse_test.go:136 -/
example : ∀ c ∈ ([("id1", some (I "id1")), ("+id1", none), ("  id2  ", some (I "id2")),
  ("  id3,  ", some (I "id3"))] : List (String × Option Identifier)), (readIdentifier rowEnv
  (runes c.1)).map (·.1) = c.2 := by decide +kernel

/-- testutil/parse_test.go:162 -/
example : ∀ c ∈ ([("id1", some [(I "id1")]), ("id1 id2", none), ("id1, id2", some [(I "id1"), (I
  "id2")]), (" id1,id2  ", some [(I "id1"), (I "id2")]), ("id1, id2,   ", none), ("", none),
  ("  ", none), ("int, char, bytes", some [Kw.INT, Kw.CHAR, Kw.BYTES])] : List (String × Option
  (List Identifier))), readIdentifiers rowEnv (runes c.1) = c.2 := by decide +kernel

/-- testutil/parse_test.go:195 -/
example : readColumns rowEnv (runes "col1 int") = some ([(I "col1")], [⟨.int64, 4, false, false⟩],
  []) := by decide +kernel

/-- testutil/parse_test.go:200 -/
example : readColumns rowEnv (runes "col1 bad") = none := by decide +kernel

/-- testutil/parse_test.go:201 -/
example : readColumns rowEnv (runes "col1 int, col2 bool") = some ([(I "col1"), (I "col2")],
  [⟨.int64, 4, false, false⟩, ⟨.bool, 1, false, false⟩], []) := by decide +kernel

/-- testutil/parse_test.go:209 -/
example : readColumns rowEnv (runes "c1 varbinary ( 123 ), c2 varchar(45), c3 text(678)") = some
  ([(I "c1"), (I "c2"), (I "c3")], [⟨.bytes, 123, false, false⟩, ⟨.string, 45, false, false⟩,
  ⟨.string, 678, false, false⟩], []) := by decide +kernel

/-- testutil/parse_test.go:219 -/
example : readColumns rowEnv (runes "c1 binary 123)") = none := by decide +kernel

/-- testutil/parse_test.go:220 -/
example : readColumns rowEnv (runes "c1 binary(123), c2 binary(456") = none := by decide +kernel

/-- testutil/parse_test.go:221 -/
example : readColumns rowEnv (runes "c1 text()") = none := by decide +kernel

/-- testutil/parse_test.go:222 -/
example : readColumns rowEnv (runes "c1 int, c2 bool not null, c3 char primary key") = some ([(I
  "c1"), (I "c2"), (I "c3")], [⟨.int64, 4, false, false⟩, ⟨.bool, 1, false, true⟩, ⟨.string, 1,
  true, false⟩], [(makeColumnKey 2 false)]) := by decide +kernel

/-- testutil/parse_test.go:233 -/
example : readColumns rowEnv (runes "c1 int not null primary key, c2 bool, c3 char primary key") =
  some ([(I "c1"), (I "c2"), (I "c3")], [⟨.int64, 4, false, true⟩, ⟨.bool, 1, false, false⟩,
  ⟨.string, 1, true, false⟩], [(makeColumnKey 0 false), (makeColumnKey 2 false)]) :=
  by decide +kernel

/-- testutil/parse_test.go:244 -/
example : readColumns rowEnv (runes "c1 int not, c2 bool") = none := by decide +kernel

/-- testutil/parse_test.go:245 -/
example : readColumns rowEnv (runes "c1 int, c2 bool primary") = none := by decide +kernel

/-- testutil/parse_test.go:246 -/
example : readColumns rowEnv (runes "c1 int null, c2 bool") = none := by decide +kernel

/-- testutil/parse_test.go:247 -/
example : readColumns rowEnv (runes "c1 int, c2 bool 123") = none := by decide +kernel

/-- testutil/rows_test.go:21 -/
example : formatRows env (ascii "") [[(some (.str (ascii "abc"))), none, (some (.bool true))],
  [(some (.float 0x4028e66666666666#64)), (some (.int 678)), (some (.bool false))], [(some (.int
  1)), (some (.int 23)), (some (.int 456))]] = ascii
  "('abc', NULL, true)(12.45, 678, false)(1, 23, 456)" := by decide +kernel

/-- testutil/rows_test.go:22 -/
example : formatRows env (ascii "\n") [[(some (.str (ascii "abc"))), none, (some (.bool true))],
  [(some (.float 0x4028e66666666666#64)), (some (.int 678)), (some (.bool false))], [(some (.int
  1)), (some (.int 23)), (some (.int 456))]] = ascii
  "('abc', NULL, true)\n(12.45, 678, false)\n(1, 23, 456)" := by decide +kernel

/-- testutil/rows_test.go:25 -/
example : formatRows env (ascii "---") [[(some (.str (ascii "abc"))), none, (some (.bool true))],
  [(some (.float 0x4028e66666666666#64)), (some (.int 678)), (some (.bool false))], [(some (.int
  1)), (some (.int 23)), (some (.int 456))]] = ascii
  "('abc', NULL, true)---(12.45, 678, false)---(1, 23, 456)" := by decide +kernel

/-- testutil/rows_test.go:42 -/
example : (do let rows1 ← parseRows rowEnv (runes
  "('abc', NULL, true), (12.45, 678, false), (1, 23, 456)"); let rows2 ← parseRows rowEnv (runes
  "('abc', NULL, true), (12.45, 678, false), (1, 23, 456)"); pure (rowsEqual insertionSort rows1
  rows2 false).1) = some true := by decide +kernel

/-- testutil/rows_test.go:48 -/
example : (do let rows1 ← parseRows rowEnv (runes
  "('abc', NULL, true), (12.45, 678, false), (1, 23, 456)"); let rows2 ← parseRows rowEnv (runes
  "(12.45, 678, false), (1, 23, 456), ('abc', NULL, true)"); pure (rowsEqual insertionSort rows1
  rows2 false).1) = some false := by decide +kernel

/-- testutil/rows_test.go:54 -/
example : (do let rows1 ← parseRows rowEnv (runes
  "('abc', NULL, true), (12.45, 678, false), (1, 23, 456)"); let rows2 ← parseRows rowEnv (runes
  "(12.45, 678, false), (1, 23, 456), ('abc', NULL, true)"); pure (rowsEqual insertionSort rows1
  rows2 true).1) = some true := by decide +kernel

end Maho.Replay
