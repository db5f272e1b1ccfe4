import Verif.Replay.EngineRun
/-
engine/engine_test.go on the model (written by tools/replay/engine.py).
-/
namespace Maho.Replay

/-- engine/engine_test.go:19 -/
example : sampleEngine.decodeDef (sampleEngine.encodeDef ⟨0, [], [], []⟩) = some ⟨0, [], [], []⟩
  := by decide +kernel

/-- engine/engine_test.go:20 -/
example : sampleEngine.decodeDef (sampleEngine.encodeDef ⟨123, [(E "col1"), (E "col2"), (E
  "col3"), (E "col4"), (E "col5"), (E "col6")], [⟨.string, 128, false, true⟩, ⟨.int64, 4, false,
  true⟩, ⟨.int64, 8, false, false⟩, ⟨.bool, 0, false, true⟩, ⟨.string, 4096, false, true⟩,
  ⟨.string, 4096, false, false⟩], [makeColumnKey 0 false, makeColumnKey 2 true, makeColumnKey 5
  false]⟩) = some ⟨123, [(E "col1"), (E "col2"), (E "col3"), (E "col4"), (E "col5"), (E "col6")],
  [⟨.string, 128, false, true⟩, ⟨.int64, 4, false, true⟩, ⟨.int64, 8, false, false⟩, ⟨.bool, 0,
  false, true⟩, ⟨.string, 4096, false, true⟩, ⟨.string, 4096, false, false⟩], [makeColumnKey 0
  false, makeColumnKey 2 true, makeColumnKey 5 false]⟩ := by decide +kernel

def columns1 : List Identifier × List ColumnType × List ColumnKey :=
  columns "c1 int, c2 char(64)"

def columns2 : List Identifier × List ColumnType × List ColumnKey :=
  columns "c1 bool, c2 int, c3 char(16), c4 binary(128)"

/-- engine/engine_test.go:94 `TestDatabase` -/
example : engineCases newEngine [
    (.createDatabase (E "db") 0, .ok),
    (.createDatabase (E "db") 0, .fail),
    (.listDatabases, (.ids (identifiers "system, maho, db"))),
    (.createDatabase (E "db2") 0, .ok),
    (.listDatabases, (.ids (identifiers "system, maho, db, db2"))),
    (.createDatabase (E "db3") 0, .ok),
    (.listDatabases, (.ids (identifiers "system, maho, db, db2, db3"))),
    (.dropDatabase (E "db2") false, .ok),
    (.listDatabases, (.ids (identifiers "system, maho, db, db3"))),
    (.dropDatabase (E "db2") false, .fail),
    (.listDatabases, (.ids (identifiers "system, maho, db, db3"))),
    (.dropDatabase (E "db2") true, .ok),
    (.listDatabases, (.ids (identifiers "system, maho, db, db3")))] = true := by decide +kernel

/-- engine/engine_test.go:177 `TestSchema` -/
example : engineCases newEngine [
    (.begin, .ok),
    (.createSchema ⟨(E "maho"), (E "test")⟩, .ok),
    (.commit, .ok),
    (.begin, .ok),
    (.createSchema ⟨(E "maho"), (E "test")⟩, .fail),
    (.rollback, .ok),
    (.begin, .ok),
    (.createSchema ⟨(E "not_a_db"), (E "test")⟩, .fail),
    (.rollback, .ok),
    (.begin, .ok),
    (.createSchema ⟨(E "maho"), (E "test2")⟩, .ok),
    (.createSchema ⟨(E "maho"), (E "test3")⟩, .ok),
    (.listSchemas (E "maho"), (.ids (identifiers "public, test, test2, test3"))),
    (.commit, .ok),
    (.begin, .ok),
    (.createSchema ⟨(E "maho"), (E "test4")⟩, .ok),
    (.listSchemas (E "maho"), (.ids (identifiers "public, test, test2, test3, test4"))),
    (.rollback, .ok),
    (.begin, .ok),
    (.listSchemas (E "maho"), (.ids (identifiers "public, test, test2, test3"))),
    (.rollback, .ok),
    (.begin, .ok),
    (.listSchemas (E "not_a_db"), .fail),
    (.rollback, .ok),
    (.begin, .ok),
    (.listSchemas (E "maho"), (.ids (identifiers "public, test, test2, test3"))),
    (.dropSchema ⟨(E "maho"), (E "test2")⟩ false, .ok),
    (.listSchemas (E "maho"), (.ids (identifiers "public, test, test3"))),
    (.commit, .ok),
    (.begin, .ok),
    (.listSchemas (E "maho"), (.ids (identifiers "public, test, test3"))),
    (.dropSchema ⟨(E "maho"), (E "test")⟩ false, .ok),
    (.listSchemas (E "maho"), (.ids (identifiers "public, test3"))),
    (.rollback, .ok),
    (.begin, .ok),
    (.listSchemas (E "maho"), (.ids (identifiers "public, test, test3"))),
    (.dropSchema ⟨(E "maho"), (E "test2")⟩ false, .fail),
    (.rollback, .ok),
    (.begin, .ok),
    (.listSchemas (E "maho"), (.ids (identifiers "public, test, test3"))),
    (.dropSchema ⟨(E "maho"), (E "test2")⟩ true, .ok),
    (.listSchemas (E "maho"), (.ids (identifiers "public, test, test3"))),
    (.rollback, .ok)] = true := by decide +kernel

/-- engine/engine_test.go:333 `TestTable` -/
example : engineCases newEngine [
    (.begin, .ok),
    (.createTable ⟨(E "maho"), (E "public"), (E "test")⟩ columns1.1 columns1.2.1 columns1.2.2,
      .ok),
    (.commit, .ok),
    (.begin, .ok),
    (.createTable ⟨(E "maho"), (E "public"), (E "test")⟩ columns2.1 columns2.2.1 columns2.2.2,
      .fail),
    (.rollback, .ok),
    (.begin, .ok),
    (.createTable ⟨(E "maho"), (E "no_schema"), (E "test")⟩ columns2.1 columns2.2.1 columns2.2.2,
      .fail),
    (.rollback, .ok),
    (.begin, .ok),
    (.createTable ⟨(E "no_schema"), (E "public"), (E "test")⟩ columns2.1 columns2.2.1
      columns2.2.2, .fail),
    (.rollback, .ok),
    (.begin, .ok),
    (.createTable ⟨(E "maho"), (E "public"), (E "test2")⟩ columns2.1 columns2.2.1 columns2.2.2,
      .ok),
    (.rollback, .ok),
    (.begin, .ok),
    (.createTable ⟨(E "maho"), (E "public"), (E "test2")⟩ columns2.1 columns2.2.1 columns2.2.2,
      .ok),
    (.commit, .ok),
    (.begin, .ok),
    (.openTable ⟨(E "maho"), (E "public"), (E "test99")⟩, .fail),
    (.rollback, .ok),
    (.begin, .ok),
    (.openTable ⟨(E "maho"), (E "not_schema"), (E "test")⟩, .fail),
    (.rollback, .ok),
    (.begin, .ok),
    (.openTable ⟨(E "maho"), (E "public"), (E "test")⟩, .table ⟨⟨(E "maho"), (E "public"), (E
      "test")⟩, ⟨1, columns1.1, columns1.2.1, columns1.2.2⟩, 512⟩),
    (.openTable ⟨(E "maho"), (E "public"), (E "test2")⟩, .table ⟨⟨(E "maho"), (E "public"), (E
      "test2")⟩, ⟨1, columns2.1, columns2.2.1, columns2.2.2⟩, 513⟩),
    (.commit, .ok)] = true := by decide +kernel

end Maho.Replay
