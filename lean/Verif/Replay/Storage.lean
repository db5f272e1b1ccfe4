import Verif.Replay.Store
/-
The tests of storage/test/table.go, which storage/basic/basic_test.go runs on the store of
storage/basic, on the model (written by tools/replay/storage.py).
-/
namespace Maho.Replay

/-- storage/test/table.go:1236-1246 -/
def table0 : List Row := (List.range 19).map fun n =>
  [some (.int (BitVec.ofNat 64 (n + 1))), some (.bool ((n + 1) % 2 == 0)), some (.str []),
    some (.int (BitVec.ofNat 64 (n + 1)))]

/-- storage/test/table.go:1286-1288 -/
def negated : Row → List ColumnNum × List (Option Value)
  | [_, _, _, some (.int n)] => ([3], [some (.int (-n))])
  | _ => ([], [])

/-- storage/test/table.go:1293-1297 -/
def table1 : List Row := table0.map fun
  | [a, some (.bool true), b, some (.int n)] => [a, some (.bool true), b, some (.int (-n))]
  | row => row

/-- storage/test/table.go:1328-1334 -/
def table2 : List Row := table1.filter fun row => row[1]? == some (some (.bool true))

/-- storage/test/table.go:21 `TestCreateTable` -/
example : passes World.initial [
  [.openTable (engineTableId + 1) [] [] none true,
    .createTable (engineTableId + 1) [(I "col1"), (I "col2")] [⟨.string, 128, false, true⟩,
      ⟨.int64, 4, false, true⟩] (some [makeColumnKey 0 false]) false,
    .openTable (engineTableId + 1) [(I "col1"), (I "col2")] [⟨.string, 128, false, true⟩, ⟨.int64,
      4, false, true⟩] (some [makeColumnKey 0 false]) false,
    .tableType (engineTableId + 1) 1 [(I "col1"), (I "col2")] [⟨.string, 128, false, true⟩,
      ⟨.int64, 4, false, true⟩] (some [makeColumnKey 0 false]),
    .commit false],
  [.openTable (engineTableId + 1) [(I "col1"), (I "col2")] [⟨.string, 128, false, true⟩, ⟨.int64,
      4, false, true⟩] (some [makeColumnKey 0 false]) false,
    .tableType (engineTableId + 1) 1 [(I "col1"), (I "col2")] [⟨.string, 128, false, true⟩,
      ⟨.int64, 4, false, true⟩] (some [makeColumnKey 0 false]),
    .rollback false],
  [.createTable (engineTableId + 2) [(I "col1"), (I "col2"), (I "col3")] [⟨.string, 128, false,
      true⟩, ⟨.int64, 4, false, true⟩, ⟨.string, 4096, false, true⟩] (some [makeColumnKey 2
      false, makeColumnKey 1 true]) false,
    .rollback false],
  [.openTable (engineTableId + 2) [] [] none true,
    .openTable (engineTableId + 1) [(I "col1"), (I "col2")] [⟨.string, 128, false, true⟩, ⟨.int64,
      4, false, true⟩] (some [makeColumnKey 0 false]) false,
    .tableType (engineTableId + 1) 1 [(I "col1"), (I "col2")] [⟨.string, 128, false, true⟩,
      ⟨.int64, 4, false, true⟩] (some [makeColumnKey 0 false]),
    .rollback false],
  [.createTable (engineTableId + 2) [(I "col1"), (I "col2"), (I "col3")] [⟨.string, 128, false,
      true⟩, ⟨.int64, 4, false, true⟩, ⟨.string, 4096, false, true⟩] (some [makeColumnKey 2
      false, makeColumnKey 1 true]) false,
    .commit false],
  [.openTable (engineTableId + 1) [(I "col1"), (I "col2")] [⟨.string, 128, false, true⟩, ⟨.int64,
      4, false, true⟩] (some [makeColumnKey 0 false]) false,
    .tableType (engineTableId + 1) 1 [(I "col1"), (I "col2")] [⟨.string, 128, false, true⟩,
      ⟨.int64, 4, false, true⟩] (some [makeColumnKey 0 false]),
    .openTable (engineTableId + 2) [(I "col1"), (I "col2"), (I "col3")] [⟨.string, 128, false,
      true⟩, ⟨.int64, 4, false, true⟩, ⟨.string, 4096, false, true⟩] (some [makeColumnKey 2
      false, makeColumnKey 1 true]) false,
    .tableType (engineTableId + 2) 1 [(I "col1"), (I "col2"), (I "col3")] [⟨.string, 128, false,
      true⟩, ⟨.int64, 4, false, true⟩, ⟨.string, 4096, false, true⟩] (some [makeColumnKey 2
      false, makeColumnKey 1 true]),
    .rollback false],
  [.createTable (1) [] [] none true,
    .createTable (engineTableId + 3) [(I "col1"), (I "col2"), (I "col3")] [⟨.string, 128, false,
      true⟩, ⟨.int64, 4, false, true⟩] none true,
    .createTable (engineTableId + 4) [(I "col1"), (I "col2"), (I "col3")] [⟨.string, 128, false,
      true⟩, ⟨.int64, 4, false, true⟩, ⟨.string, 4096, false, true⟩] (some [makeColumnKey 3
      false]) true,
    .commit false],
  [.createTable (engineTableId + 5) [(I "col1"), (I "col2"), (I "col3")] [⟨.string, 128, false,
      true⟩, ⟨.int64, 4, false, true⟩, ⟨.string, 4096, false, true⟩] none false,
    .openTable (engineTableId + 5) [(I "col1"), (I "col2"), (I "col3")] [⟨.string, 128, false,
      true⟩, ⟨.int64, 4, false, true⟩, ⟨.string, 4096, false, true⟩] none false,
    .tableType (engineTableId + 5) 1 [(I "col1"), (I "col2"), (I "col3")] [⟨.string, 128, false,
      true⟩, ⟨.int64, 4, false, true⟩, ⟨.string, 4096, false, true⟩] none,
    .commit false]] = true := by decide +kernel

/-- storage/test/table.go:192 `TestDropTable` -/
example : passes World.initial [
  [.dropTable (engineTableId + 1) true,
    .createTable (engineTableId + 1) [(I "col1"), (I "col2")] [⟨.string, 128, false, true⟩,
      ⟨.int64, 4, false, true⟩] (some [makeColumnKey 0 false]) false,
    .openTable (engineTableId + 1) [(I "col1"), (I "col2")] [⟨.string, 128, false, true⟩, ⟨.int64,
      4, false, true⟩] (some [makeColumnKey 0 false]) false,
    .createTable (engineTableId + 2) [(I "col1"), (I "col2")] [⟨.string, 128, false, true⟩,
      ⟨.int64, 4, false, true⟩] (some [makeColumnKey 0 false]) false,
    .openTable (engineTableId + 2) [(I "col1"), (I "col2")] [⟨.string, 128, false, true⟩, ⟨.int64,
      4, false, true⟩] (some [makeColumnKey 0 false]) false,
    .commit false],
  [.openTable (engineTableId + 1) [(I "col1"), (I "col2")] [⟨.string, 128, false, true⟩, ⟨.int64,
      4, false, true⟩] (some [makeColumnKey 0 false]) false,
    .dropTable (engineTableId + 1) false,
    .openTable (engineTableId + 1) [] [] none true,
    .rollback false],
  [.openTable (engineTableId + 1) [(I "col1"), (I "col2")] [⟨.string, 128, false, true⟩, ⟨.int64,
      4, false, true⟩] (some [makeColumnKey 0 false]) false,
    .dropTable (engineTableId + 1) false,
    .openTable (engineTableId + 1) [] [] none true,
    .commit false],
  [.openTable (engineTableId + 1) [] [] none true,
    .openTable (engineTableId + 2) [(I "col1"), (I "col2")] [⟨.string, 128, false, true⟩, ⟨.int64,
      4, false, true⟩] (some [makeColumnKey 0 false]) false,
    .rollback false]] = true := by decide +kernel

/-- storage/test/table.go:282 `TestInsert` -/
example : passes World.initial [
  [.createTable (engineTableId + 1) [(I "col1"), (I "col2"), (I "col3"), (I "col4"), (I "col5")]
      [⟨.string, 4096, false, true⟩, ⟨.bool, 0, false, true⟩, ⟨.bytes, 2048, false, false⟩,
      ⟨.float64, 0, false, true⟩, ⟨.int64, 4, false, false⟩] (some [makeColumnKey 0 false])
      false,
    .commit false],
  [.openTable (engineTableId + 1) [(I "col1"), (I "col2"), (I "col3"), (I "col4"), (I "col5")]
      [⟨.string, 4096, false, true⟩, ⟨.bool, 0, false, true⟩, ⟨.bytes, 2048, false, false⟩,
      ⟨.float64, 0, false, true⟩, ⟨.int64, 4, false, false⟩] (some [makeColumnKey 0 false])
      false,
    .insert (rows
      "\n\
      ('abcdef', true, null, 123.456, 789),\n\
      ('ABC', false, '\\x010203', 1.23, 45),\n\
      ('xyz', false, null, 23.45)")
      false,
    .commit false],
  [.openTable (engineTableId + 1) [(I "col1"), (I "col2"), (I "col3"), (I "col4"), (I "col5")]
      [⟨.string, 4096, false, true⟩, ⟨.bool, 0, false, true⟩, ⟨.bytes, 2048, false, false⟩,
      ⟨.float64, 0, false, true⟩, ⟨.int64, 4, false, false⟩] (some [makeColumnKey 0 false])
      false,
    .select none none none none (rows
      "\n\
      ('abcdef', true, null, 123.456, 789),\n\
      ('ABC', false, '\\x010203', 1.23, 45),\n\
      ('xyz', false, null, 23.45, null)")
      true,
    .commit false],
  [.openTable (engineTableId + 1) [(I "col1"), (I "col2"), (I "col3"), (I "col4"), (I "col5")]
      [⟨.string, 4096, false, true⟩, ⟨.bool, 0, false, true⟩, ⟨.bytes, 2048, false, false⟩,
      ⟨.float64, 0, false, true⟩, ⟨.int64, 4, false, false⟩] (some [makeColumnKey 0 false])
      false,
    .insert (rows "\n\
      ('abcdef',true, null, 123.456, 789)") true,
    .rollback false],
  [.openTable (engineTableId + 1) [(I "col1"), (I "col2"), (I "col3"), (I "col4"), (I "col5")]
      [⟨.string, 4096, false, true⟩, ⟨.bool, 0, false, true⟩, ⟨.bytes, 2048, false, false⟩,
      ⟨.float64, 0, false, true⟩, ⟨.int64, 4, false, false⟩] (some [makeColumnKey 0 false])
      false,
    .insert (rows "\n\
      ('qrst', true, null, 123.456, 789, false)") true,
    .rollback false],
  [.openTable (engineTableId + 1) [(I "col1"), (I "col2"), (I "col3"), (I "col4"), (I "col5")]
      [⟨.string, 4096, false, true⟩, ⟨.bool, 0, false, true⟩, ⟨.bytes, 2048, false, false⟩,
      ⟨.float64, 0, false, true⟩, ⟨.int64, 4, false, false⟩] (some [makeColumnKey 0 false])
      false,
    .select none none none none (rows
      "\n\
      ('abcdef', true, null, 123.456, 789),\n\
      ('ABC', false, '\\x010203', 1.23, 45),\n\
      ('xyz', false, null, 23.45, null)")
      true,
    .rollback false]] = true := by decide +kernel

/-- storage/test/table.go:421 `TestRows` -/
example : passes World.initial [
  [.createTable (engineTableId + 1) [(I "col1"), (I "col2"), (I "col3"), (I "col4")] [⟨.int64, 4,
      false, true⟩, ⟨.int64, 4, false, true⟩, ⟨.float64, 0, false, true⟩, ⟨.string, 4096,
      false, true⟩] (some [makeColumnKey 0 false]) false,
    .commit false],
  [.openTable (engineTableId + 1) [(I "col1"), (I "col2"), (I "col3"), (I "col4")] [⟨.int64, 4,
      false, true⟩, ⟨.int64, 4, false, true⟩, ⟨.float64, 0, false, true⟩, ⟨.string, 4096,
      false, true⟩] (some [makeColumnKey 0 false]) false,
    .insert (rows
      "\n\
      (0, 0, 0, 'zero'),\n\
      (2, 20, 2.2, 'two'),\n\
      (4, 40, 4.4, 'four'),\n\
      (6, 60, 6.6, 'six'),\n\
      (8, 80, 8.8, 'eight'),\n\
      (10, 100, 10.10, 'ten')")
      false,
    .commit false],
  [.openTable (engineTableId + 1) [(I "col1"), (I "col2"), (I "col3"), (I "col4")] [⟨.int64, 4,
      false, true⟩, ⟨.int64, 4, false, true⟩, ⟨.float64, 0, false, true⟩, ⟨.string, 4096,
      false, true⟩] (some [makeColumnKey 0 false]) false,
    .rows none none none none false,
    .next (row "(0, 0, 0, 'zero')") false false false,
    .current false false,
    .next (row "(2, 20, 2.2, 'two')") false false false,
    .current false false,
    .next (row "(4, 40, 4.4, 'four')") false false false,
    .next (row "(6, 60, 6.6, 'six')") false false false,
    .next (row "(8, 80, 8.8, 'eight')") false false false,
    .next (row "(10, 100, 10.10, 'ten')`)") false false false,
    .next [] false true false,
    .close false false,
    .commit false],
  [.openTable (engineTableId + 1) [(I "col1"), (I "col2"), (I "col3"), (I "col4")] [⟨.int64, 4,
      false, true⟩, ⟨.int64, 4, false, true⟩, ⟨.float64, 0, false, true⟩, ⟨.string, 4096,
      false, true⟩] (some [makeColumnKey 0 false]) false,
    .rows none none none none false,
    .current false true,
    .close false false,
    .rollback false],
  [.openTable (engineTableId + 1) [(I "col1"), (I "col2"), (I "col3"), (I "col4")] [⟨.int64, 4,
      false, true⟩, ⟨.int64, 4, false, true⟩, ⟨.float64, 0, false, true⟩, ⟨.string, 4096,
      false, true⟩] (some [makeColumnKey 0 false]) false,
    .rows none none none none false,
    .next (row "(0, 0, 0, 'zero')") false false false,
    .close false false,
    .next [] false false true,
    .rollback false],
  [.openTable (engineTableId + 1) [(I "col1"), (I "col2"), (I "col3"), (I "col4")] [⟨.int64, 4,
      false, true⟩, ⟨.int64, 4, false, true⟩, ⟨.float64, 0, false, true⟩, ⟨.string, 4096,
      false, true⟩] (some [makeColumnKey 0 false]) false,
    .rows none none none none false,
    .next (row "(0, 0, 0, 'zero')") false false false,
    .current false false,
    .close false false,
    .current false true,
    .rollback false],
  [.openTable (engineTableId + 1) [(I "col1"), (I "col2"), (I "col3"), (I "col4")] [⟨.int64, 4,
      false, true⟩, ⟨.int64, 4, false, true⟩, ⟨.float64, 0, false, true⟩, ⟨.string, 4096,
      false, true⟩] (some [makeColumnKey 0 false]) false,
    .rows none none none none false,
    .next (row "(0, 0, 0, 'zero')") false false false,
    .close false false,
    .close false true,
    .rollback false],
  [.openTable (engineTableId + 1) [(I "col1"), (I "col2"), (I "col3"), (I "col4")] [⟨.int64, 4,
      false, true⟩, ⟨.int64, 4, false, true⟩, ⟨.float64, 0, false, true⟩, ⟨.string, 4096,
      false, true⟩] (some [makeColumnKey 0 false]) false,
    .rows none none none none false,
    .next (row "(0, 0, 0, 'zero')") false false false,
    .rollback true,
    .close false false,
    .rollback false],
  [.openTable (engineTableId + 1) [(I "col1"), (I "col2"), (I "col3"), (I "col4")] [⟨.int64, 4,
      false, true⟩, ⟨.int64, 4, false, true⟩, ⟨.float64, 0, false, true⟩, ⟨.string, 4096,
      false, true⟩] (some [makeColumnKey 0 false]) false,
    .rows none none none none false,
    .next (row "(0, 0, 0, 'zero')") false false false,
    .commit true,
    .close false false,
    .commit false],
  [.openTable (engineTableId + 1) [(I "col1"), (I "col2"), (I "col3"), (I "col4")] [⟨.int64, 4,
      false, true⟩, ⟨.int64, 4, false, true⟩, ⟨.float64, 0, false, true⟩, ⟨.string, 4096,
      false, true⟩] (some [makeColumnKey 0 false]) false,
    .select none (some (row "(6, 0, 0, '')")) none none (rows
      "\n\
      (6, 60, 6.6, 'six'),\n\
      (8, 80, 8.8, 'eight'),\n\
      (10, 100, 10.10, 'ten')")
      false,
    .commit false],
  [.openTable (engineTableId + 1) [(I "col1"), (I "col2"), (I "col3"), (I "col4")] [⟨.int64, 4,
      false, true⟩, ⟨.int64, 4, false, true⟩, ⟨.float64, 0, false, true⟩, ⟨.string, 4096,
      false, true⟩] (some [makeColumnKey 0 false]) false,
    .select none none (some (row "(4, 0, 0, '')")) none (rows
      "\n\
      (0, 0, 0, 'zero'),\n\
      (2, 20, 2.2, 'two'),\n\
      (4, 40, 4.4, 'four')")
      false,
    .commit false],
  [.openTable (engineTableId + 1) [(I "col1"), (I "col2"), (I "col3"), (I "col4")] [⟨.int64, 4,
      false, true⟩, ⟨.int64, 4, false, true⟩, ⟨.float64, 0, false, true⟩, ⟨.string, 4096,
      false, true⟩] (some [makeColumnKey 0 false]) false,
    .select none (some (row "(4, 0, 0, '')")) (some (row "(8, 0, 0, '')")) none (rows
      "\n\
      (4, 40, 4.4, 'four'),\n\
      (6, 60, 6.6, 'six'),\n\
      (8, 80, 8.8, 'eight')")
      false,
    .commit false],
  [.openTable (engineTableId + 1) [(I "col1"), (I "col2"), (I "col3"), (I "col4")] [⟨.int64, 4,
      false, true⟩, ⟨.int64, 4, false, true⟩, ⟨.float64, 0, false, true⟩, ⟨.string, 4096,
      false, true⟩] (some [makeColumnKey 0 false]) false,
    .select none (some (row "(3, 0, 0, '')")) (some (row "(9, 0, 0, '')")) none (rows
      "\n\
      (4, 40, 4.4, 'four'),\n\
      (6, 60, 6.6, 'six'),\n\
      (8, 80, 8.8, 'eight')")
      false,
    .commit false],
  [.openTable (engineTableId + 1) [(I "col1"), (I "col2"), (I "col3"), (I "col4")] [⟨.int64, 4,
      false, true⟩, ⟨.int64, 4, false, true⟩, ⟨.float64, 0, false, true⟩, ⟨.string, 4096,
      false, true⟩] (some [makeColumnKey 0 false]) false,
    .select (some [3, 1]) none none none (rows
      "\n\
      ('zero', 0),\n\
      ('two', 20),\n\
      ('four', 40),\n\
      ('six', 60),\n\
      ('eight', 80),\n\
      ('ten', 100)")
      false,
    .commit false],
  [.openTable (engineTableId + 1) [(I "col1"), (I "col2"), (I "col3"), (I "col4")] [⟨.int64, 4,
      false, true⟩, ⟨.int64, 4, false, true⟩, ⟨.float64, 0, false, true⟩, ⟨.string, 4096,
      false, true⟩] (some [makeColumnKey 0 false]) false,
    .select (some [3, 1]) (some (row "(3, 0, 0, '')")) (some (row "(9, 0, 0, '')")) none (rows
      "('four', 40), ('six', 60), ('eight', 80)") false,
    .commit false],
  [.createTable (engineTableId + 2) [(I "col1"), (I "col2"), (I "col3"), (I "col4"), (I "col5"),
      (I "col6")] [⟨.int64, 4, false, false⟩, ⟨.bool, 0, false, false⟩, ⟨.string, 1024, false,
      false⟩, ⟨.bytes, 1024, false, false⟩, ⟨.float64, 0, false, false⟩, ⟨.int64, 4, false,
      false⟩] (some [makeColumnKey 0 false]) false,
    .commit false],
  [.openTable (engineTableId + 2) [(I "col1"), (I "col2"), (I "col3"), (I "col4"), (I "col5"), (I
      "col6")] [⟨.int64, 4, false, false⟩, ⟨.bool, 0, false, false⟩, ⟨.string, 1024, false,
      false⟩, ⟨.bytes, 1024, false, false⟩, ⟨.float64, 0, false, false⟩, ⟨.int64, 4, false,
      false⟩] (some [makeColumnKey 0 false]) false,
    .insert (rows
      "\n\
      (1, true, 'true', '\\x0102', 1.1, 1),\n\
      (2, true, 'abc', '\\x01', 2.2, 2),\n\
      (3, false, '', '\\x010203', 3.3, 3),\n\
      (4, false, 'abc', '\\x0102', 1.1, 2),\n\
      (5, false, 'false', '\\x01', 3.3, 1),\n\
      (6, true, 'true', '\\x01', 2.2, 2)\n")
      false,
    .commit false],
  [.openTable (engineTableId + 2) [(I "col1"), (I "col2"), (I "col3"), (I "col4"), (I "col5"), (I
      "col6")] [⟨.int64, 4, false, false⟩, ⟨.bool, 0, false, false⟩, ⟨.string, 1024, false,
      false⟩, ⟨.bytes, 1024, false, false⟩, ⟨.float64, 0, false, false⟩, ⟨.int64, 4, false,
      false⟩] (some [makeColumnKey 0 false]) false,
    .select none none none none (rows
      "\n\
      (1, true, 'true', '\\x0102', 1.1, 1),\n\
      (2, true, 'abc', '\\x01', 2.2, 2),\n\
      (3, false, '', '\\x010203', 3.3, 3),\n\
      (4, false, 'abc', '\\x0102', 1.1, 2),\n\
      (5, false, 'false', '\\x01', 3.3, 1),\n\
      (6, true, 'true', '\\x01', 2.2, 2)")
      false,
    .commit false],
  [.openTable (engineTableId + 2) [(I "col1"), (I "col2"), (I "col3"), (I "col4"), (I "col5"), (I
      "col6")] [⟨.int64, 4, false, false⟩, ⟨.bool, 0, false, false⟩, ⟨.string, 1024, false,
      false⟩, ⟨.bytes, 1024, false, false⟩, ⟨.float64, 0, false, false⟩, ⟨.int64, 4, false,
      false⟩] (some [makeColumnKey 0 false]) false,
    .select none none none (some { column := 1, bool := some (fun b => b == true) }) (rows
      "\n\
      (1, true, 'true', '\\x0102', 1.1, 1),\n\
      (2, true, 'abc', '\\x01', 2.2, 2),\n\
      (6, true, 'true', '\\x01', 2.2, 2)")
      false,
    .commit false],
  [.openTable (engineTableId + 2) [(I "col1"), (I "col2"), (I "col3"), (I "col4"), (I "col5"), (I
      "col6")] [⟨.int64, 4, false, false⟩, ⟨.bool, 0, false, false⟩, ⟨.string, 1024, false,
      false⟩, ⟨.bytes, 1024, false, false⟩, ⟨.float64, 0, false, false⟩, ⟨.int64, 4, false,
      false⟩] (some [makeColumnKey 0 false]) false,
    .select none none none (some { column := 2, str := some (fun s => s == ascii "abc") }) (rows
      "\n\
      (2, true, 'abc', '\\x01', 2.2, 2),\n\
      (4, false, 'abc', '\\x0102', 1.1, 2)")
      false,
    .commit false],
  [.openTable (engineTableId + 2) [(I "col1"), (I "col2"), (I "col3"), (I "col4"), (I "col5"), (I
      "col6")] [⟨.int64, 4, false, false⟩, ⟨.bool, 0, false, false⟩, ⟨.string, 1024, false,
      false⟩, ⟨.bytes, 1024, false, false⟩, ⟨.float64, 0, false, false⟩, ⟨.int64, 4, false,
      false⟩] (some [makeColumnKey 0 false]) false,
    .select none none none (some { column := 3, bytes := some (fun b => bytesCompare b [1] == .eq)
      }) (rows
      "\n\
      (2, true, 'abc', '\\x01', 2.2, 2),\n\
      (5, false, 'false', '\\x01', 3.3, 1),\n\
      (6, true, 'true', '\\x01', 2.2, 2)")
      false,
    .commit false],
  [.openTable (engineTableId + 2) [(I "col1"), (I "col2"), (I "col3"), (I "col4"), (I "col5"), (I
      "col6")] [⟨.int64, 4, false, false⟩, ⟨.bool, 0, false, false⟩, ⟨.string, 1024, false,
      false⟩, ⟨.bytes, 1024, false, false⟩, ⟨.float64, 0, false, false⟩, ⟨.int64, 4, false,
      false⟩] (some [makeColumnKey 0 false]) false,
    .select none none none (some { column := 4, float := some (fun f => f ==
      0x400a666666666666#64) }) (rows
      "\n\
      (3, false, '', '\\x010203', 3.3, 3),\n\
      (5, false, 'false', '\\x01', 3.3, 1)")
      false,
    .commit false],
  [.openTable (engineTableId + 2) [(I "col1"), (I "col2"), (I "col3"), (I "col4"), (I "col5"), (I
      "col6")] [⟨.int64, 4, false, false⟩, ⟨.bool, 0, false, false⟩, ⟨.string, 1024, false,
      false⟩, ⟨.bytes, 1024, false, false⟩, ⟨.float64, 0, false, false⟩, ⟨.int64, 4, false,
      false⟩] (some [makeColumnKey 0 false]) false,
    .select none none none (some { column := 5, int := some (fun i => i == 2) }) (rows
      "\n\
      (2, true, 'abc', '\\x01', 2.2, 2),\n\
      (4, false, 'abc', '\\x0102', 1.1, 2),\n\
      (6, true, 'true', '\\x01', 2.2, 2)")
      false,
    .commit false],
  [.openTable (engineTableId + 2) [(I "col1"), (I "col2"), (I "col3"), (I "col4"), (I "col5"), (I
      "col6")] [⟨.int64, 4, false, false⟩, ⟨.bool, 0, false, false⟩, ⟨.string, 1024, false,
      false⟩, ⟨.bytes, 1024, false, false⟩, ⟨.float64, 0, false, false⟩, ⟨.int64, 4, false,
      false⟩] (some [makeColumnKey 0 false]) false,
    .select (some [4, 1, 0]) (some (row "(2, true, 'abc', '\\x01', 2.2, 2)")) (some (row
      "(5, false, 'false', '\\x01', 3.3, 1)")) (some { column := 5, int := some (fun i => i ==
      2) }) (rows "(2.2, true, 2), (1.1, false, 4)") false,
    .commit false]] = true := by decide +kernel

/-- storage/test/table.go:871 `TestDelete` -/
example : passes World.initial [
  [.createTable (engineTableId + 1) [(I "col1"), (I "col2"), (I "col3"), (I "col4")] [⟨.int64, 4,
      false, true⟩, ⟨.int64, 4, false, true⟩, ⟨.float64, 0, false, true⟩, ⟨.string, 4096,
      false, true⟩] (some [makeColumnKey 0 false]) false,
    .commit false],
  [.openTable (engineTableId + 1) [(I "col1"), (I "col2"), (I "col3"), (I "col4")] [⟨.int64, 4,
      false, true⟩, ⟨.int64, 4, false, true⟩, ⟨.float64, 0, false, true⟩, ⟨.string, 4096,
      false, true⟩] (some [makeColumnKey 0 false]) false,
    .insert (rows
      "\n\
      (0, 0, 0, 'zero'),\n\
      (2, 20, 2.2, 'two'),\n\
      (4, 40, 4.4, 'four'),\n\
      (6, 60, 6.6, 'six'),\n\
      (8, 80, 8.8, 'eight'),\n\
      (10, 100, 10.10, 'ten')")
      false,
    .commit false],
  [.openTable (engineTableId + 1) [(I "col1"), (I "col2"), (I "col3"), (I "col4")] [⟨.int64, 4,
      false, true⟩, ⟨.int64, 4, false, true⟩, ⟨.float64, 0, false, true⟩, ⟨.string, 4096,
      false, true⟩] (some [makeColumnKey 0 false]) false,
    .rows none none none none false,
    .next (row "(0, 0, 0, 'zero')") false false false,
    .next (row "(2, 20, 2.2, 'two')") false false false,
    .current false false,
    .delete false false,
    .close false false,
    .commit false],
  [.openTable (engineTableId + 1) [(I "col1"), (I "col2"), (I "col3"), (I "col4")] [⟨.int64, 4,
      false, true⟩, ⟨.int64, 4, false, true⟩, ⟨.float64, 0, false, true⟩, ⟨.string, 4096,
      false, true⟩] (some [makeColumnKey 0 false]) false,
    .select none none none none (rows
      "\n\
      (0, 0, 0, 'zero'),\n\
      (4, 40, 4.4, 'four'),\n\
      (6, 60, 6.6, 'six'),\n\
      (8, 80, 8.8, 'eight'),\n\
      (10, 100, 10.10, 'ten')")
      false,
    .rows none none none none false,
    .next (row "(0, 0, 0, 'zero')") false false false,
    .next (row "(4, 40, 4.4, 'four')") false false false,
    .next (row "(6, 60, 6.6, 'six')") false false false,
    .current false false,
    .close false false,
    .delete false false,
    .select none none none none (rows
      "\n\
      (0, 0, 0, 'zero'),\n\
      (4, 40, 4.4, 'four'),\n\
      (8, 80, 8.8, 'eight'),\n\
      (10, 100, 10.10, 'ten')")
      false,
    .commit false],
  [.openTable (engineTableId + 1) [(I "col1"), (I "col2"), (I "col3"), (I "col4")] [⟨.int64, 4,
      false, true⟩, ⟨.int64, 4, false, true⟩, ⟨.float64, 0, false, true⟩, ⟨.string, 4096,
      false, true⟩] (some [makeColumnKey 0 false]) false,
    .select none none none none (rows
      "\n\
      (0, 0, 0, 'zero'),\n\
      (4, 40, 4.4, 'four'),\n\
      (8, 80, 8.8, 'eight'),\n\
      (10, 100, 10.10, 'ten')")
      false,
    .rows none none none none false,
    .next (row "(0, 0, 0, 'zero')") false false false,
    .next (row "(4, 40, 4.4, 'four')") false false false,
    .current false false,
    .delete false false,
    .close false false,
    .select none none none none (rows
      "\n\
      (0, 0, 0, 'zero'),\n\
      (8, 80, 8.8, 'eight'),\n\
      (10, 100, 10.10, 'ten')")
      false,
    .rollback false],
  [.openTable (engineTableId + 1) [(I "col1"), (I "col2"), (I "col3"), (I "col4")] [⟨.int64, 4,
      false, true⟩, ⟨.int64, 4, false, true⟩, ⟨.float64, 0, false, true⟩, ⟨.string, 4096,
      false, true⟩] (some [makeColumnKey 0 false]) false,
    .select none none none none (rows
      "\n\
      (0, 0, 0, 'zero'),\n\
      (4, 40, 4.4, 'four'),\n\
      (8, 80, 8.8, 'eight'),\n\
      (10, 100, 10.10, 'ten')")
      false,
    .rollback false],
  [.openTable (engineTableId + 1) [(I "col1"), (I "col2"), (I "col3"), (I "col4")] [⟨.int64, 4,
      false, true⟩, ⟨.int64, 4, false, true⟩, ⟨.float64, 0, false, true⟩, ⟨.string, 4096,
      false, true⟩] (some [makeColumnKey 0 false]) false,
    .rows none none none none false,
    .next (row "(0, 0, 0, 'zero')") false false false,
    .current false false,
    .delete false false,
    .delete false true,
    .close false false,
    .rollback false]] = true := by decide +kernel

/-- storage/test/table.go:1028 `TestUpdate` -/
example : passes World.initial [
  [.createTable (engineTableId + 1) [(I "col1"), (I "col2"), (I "col3"), (I "col4")] [⟨.int64, 4,
      false, true⟩, ⟨.int64, 4, false, true⟩, ⟨.float64, 0, false, true⟩, ⟨.string, 4096,
      false, true⟩] (some [makeColumnKey 0 false]) false,
    .commit false],
  [.openTable (engineTableId + 1) [(I "col1"), (I "col2"), (I "col3"), (I "col4")] [⟨.int64, 4,
      false, true⟩, ⟨.int64, 4, false, true⟩, ⟨.float64, 0, false, true⟩, ⟨.string, 4096,
      false, true⟩] (some [makeColumnKey 0 false]) false,
    .insert (rows
      "\n\
      (0, 0, 0, 'zero'),\n\
      (2, 20, 2.2, 'two'),\n\
      (4, 40, 4.4, 'four'),\n\
      (6, 60, 6.6, 'six')")
      false,
    .commit false],
  [.openTable (engineTableId + 1) [(I "col1"), (I "col2"), (I "col3"), (I "col4")] [⟨.int64, 4,
      false, true⟩, ⟨.int64, 4, false, true⟩, ⟨.float64, 0, false, true⟩, ⟨.string, 4096,
      false, true⟩] (some [makeColumnKey 0 false]) false,
    .rows none none none none false,
    .next (row "(0, 0, 0, 'zero')") false false false,
    .next (row "(2, 20, 2.2, 'two')") false false false,
    .current false false,
    .update [3, 1] [(some (.str (ascii "two two"))), (some (.int 200))] false false,
    .close false false,
    .commit false],
  [.openTable (engineTableId + 1) [(I "col1"), (I "col2"), (I "col3"), (I "col4")] [⟨.int64, 4,
      false, true⟩, ⟨.int64, 4, false, true⟩, ⟨.float64, 0, false, true⟩, ⟨.string, 4096,
      false, true⟩] (some [makeColumnKey 0 false]) false,
    .select none none none none (rows
      "\n\
      (0, 0, 0, 'zero'),\n\
      (2, 200, 2.2, 'two two'),\n\
      (4, 40, 4.4, 'four'),\n\
      (6, 60, 6.6, 'six')")
      false,
    .rows none none none none false,
    .next (row "(0, 0, 0, 'zero')") false false false,
    .next (row "(2, 200, 2.2, 'two two')") false false false,
    .next (row "(4, 40, 4.4, 'four')") false false false,
    .current false false,
    .close false false,
    .update [0, 2] [(some (.int 1)), (some (.float 0x402199999999999a#64))] false false,
    .select none none none none (rows
      "\n\
      (0, 0, 0, 'zero'),\n\
      (1, 40, 8.8, 'four'),\n\
      (2, 200, 2.2, 'two two'),\n\
      (6, 60, 6.6, 'six')")
      false,
    .commit false],
  [.openTable (engineTableId + 1) [(I "col1"), (I "col2"), (I "col3"), (I "col4")] [⟨.int64, 4,
      false, true⟩, ⟨.int64, 4, false, true⟩, ⟨.float64, 0, false, true⟩, ⟨.string, 4096,
      false, true⟩] (some [makeColumnKey 0 false]) false,
    .select none none none none (rows
      "\n\
      (0, 0, 0, 'zero'),\n\
      (1, 40, 8.8, 'four'),\n\
      (2, 200, 2.2, 'two two'),\n\
      (6, 60, 6.6, 'six')")
      false,
    .rows none none none none false,
    .next (row "(0, 0, 0, 'zero')") false false false,
    .next (row "(1, 40, 8.8, 'four')") false false false,
    .current false false,
    .update [1] [(some (.int 400))] false false,
    .close false false,
    .select none none none none (rows
      "\n\
      (0, 0, 0, 'zero'),\n\
      (1, 400, 8.8, 'four'),\n\
      (2, 200, 2.2, 'two two'),\n\
      (6, 60, 6.6, 'six')")
      false,
    .rollback false],
  [.openTable (engineTableId + 1) [(I "col1"), (I "col2"), (I "col3"), (I "col4")] [⟨.int64, 4,
      false, true⟩, ⟨.int64, 4, false, true⟩, ⟨.float64, 0, false, true⟩, ⟨.string, 4096,
      false, true⟩] (some [makeColumnKey 0 false]) false,
    .select none none none none (rows
      "\n\
      (0, 0, 0, 'zero'),\n\
      (1, 40, 8.8, 'four'),\n\
      (2, 200, 2.2, 'two two'),\n\
      (6, 60, 6.6, 'six')")
      false,
    .rollback false],
  [.openTable (engineTableId + 1) [(I "col1"), (I "col2"), (I "col3"), (I "col4")] [⟨.int64, 4,
      false, true⟩, ⟨.int64, 4, false, true⟩, ⟨.float64, 0, false, true⟩, ⟨.string, 4096,
      false, true⟩] (some [makeColumnKey 0 false]) false,
    .rows none none none none false,
    .next (row "(0, 0, 0, 'zero')") false false false,
    .current false false,
    .update [1, 2] [(some (.int 100))] false true,
    .close false false,
    .rollback false],
  [.openTable (engineTableId + 1) [(I "col1"), (I "col2"), (I "col3"), (I "col4")] [⟨.int64, 4,
      false, true⟩, ⟨.int64, 4, false, true⟩, ⟨.float64, 0, false, true⟩, ⟨.string, 4096,
      false, true⟩] (some [makeColumnKey 0 false]) false,
    .rows none none none none false,
    .next (row "(0, 0, 0, 'zero')") false false false,
    .current false false,
    .update [0] [(some (.int 1))] true false,
    .close false false,
    .rollback false]] = true := by decide +kernel

/-- storage/test/table.go:1212 `TestTable` -/
example : passes World.initial [
  [.createTable (engineTableId + 1) [(I "col1"), (I "col2"), (I "col3"), (I "col4")] [⟨.int64, 4,
      false, false⟩, ⟨.bool, 0, false, false⟩, ⟨.string, 1024, false, false⟩, ⟨.int64, 4,
      false, false⟩] (some [makeColumnKey 0 false]) false,
    .commit false],
  [.openTable (engineTableId + 1) [(I "col1"), (I "col2"), (I "col3"), (I "col4")] [⟨.int64, 4,
      false, false⟩, ⟨.bool, 0, false, false⟩, ⟨.string, 1024, false, false⟩, ⟨.int64, 4,
      false, false⟩] (some [makeColumnKey 0 false]) false,
    .insert table0 false,
    .commit false],
  [.openTable (engineTableId + 1) [(I "col1"), (I "col2"), (I "col3"), (I "col4")] [⟨.int64, 4,
      false, false⟩, ⟨.bool, 0, false, false⟩, ⟨.string, 1024, false, false⟩, ⟨.int64, 4,
      false, false⟩] (some [makeColumnKey 0 false]) false,
    .select none none none none table0 false,
    .commit false],
  [.openTable (engineTableId + 1) [(I "col1"), (I "col2"), (I "col3"), (I "col4")] [⟨.int64, 4,
      false, false⟩, ⟨.bool, 0, false, false⟩, ⟨.string, 1024, false, false⟩, ⟨.int64, 4,
      false, false⟩] (some [makeColumnKey 0 false]) false,
    .updateSet none none (some { column := 1, bool := some (fun b => b == true) }) negated,
    .commit false],
  [.openTable (engineTableId + 1) [(I "col1"), (I "col2"), (I "col3"), (I "col4")] [⟨.int64, 4,
      false, false⟩, ⟨.bool, 0, false, false⟩, ⟨.string, 1024, false, false⟩, ⟨.int64, 4,
      false, false⟩] (some [makeColumnKey 0 false]) false,
    .select none none none none table1 false,
    .commit false],
  [.openTable (engineTableId + 1) [(I "col1"), (I "col2"), (I "col3"), (I "col4")] [⟨.int64, 4,
      false, false⟩, ⟨.bool, 0, false, false⟩, ⟨.string, 1024, false, false⟩, ⟨.int64, 4,
      false, false⟩] (some [makeColumnKey 0 false]) false,
    .deleteFrom none none (some { column := 1, bool := some (fun b => b == false) }),
    .commit false],
  [.openTable (engineTableId + 1) [(I "col1"), (I "col2"), (I "col3"), (I "col4")] [⟨.int64, 4,
      false, false⟩, ⟨.bool, 0, false, false⟩, ⟨.string, 1024, false, false⟩, ⟨.int64, 4,
      false, false⟩] (some [makeColumnKey 0 false]) false,
    .select none none none none table2 false,
    .commit false]] = true := by decide +kernel

end Maho.Replay
