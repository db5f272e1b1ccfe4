import Verif.Model.Evaluate
/-
The engines of the repository's tests of evaluate, evaluate/evaluate_test.go and session_test.go,
without what they print.
-/
namespace Maho

/-- evaluate/evaluate_test.go:434-437 `evalTable`. -/
structure FakeTable where
  name : TableName
  columnNames : List Identifier
  columnTypes : List ColumnType
  key : List ColumnKey
  indexes : List IndexType
deriving DecidableEq

/-- evaluate/evaluate_test.go:428-432 `evalTx`. -/
structure FakeState where
  schemas : List SchemaName
  tables : List FakeTable
deriving DecidableEq

/-- `tx.tables[tn]`. -/
def FakeState.find (s : FakeState) (tn : TableName) : Option FakeTable :=
  s.tables.find? (fun t => t.name == tn)

/-- The change of a table that is there. -/
def FakeState.update (s : FakeState) (tn : TableName) (f : FakeTable → FakeTable) : FakeState :=
  { s with tables := s.tables.map (fun t => if t.name = tn then f t else t) }

/-- evaluate/evaluate_test.go:447-603: the methods of `evalTx`. It is one transaction; for sessions
it is made an engine that always hands out that transaction and has no databases. -/
def fakeEngine : AnyEngine FakeState Unit
  | .createDatabase _ _, s => (some (.ok ()), s)
  | .dropDatabase _ _, s => (some (.ok ()), s)
  | .begin, s => (some (.ok ()), s)
  | .tx () .commit, s => (some (.ok ()), s)
  | .tx () .rollback, s => (some (.ok ()), s)
  | .tx () (.createSchema sn), s =>
    if sn ∈ s.schemas then (some (.err .other), s)
    else (some (.ok ()), { s with schemas := sn :: s.schemas })
  | .tx () (.dropSchema sn ifExists), s =>
    if sn ∈ s.schemas then (some (.ok ()), { s with schemas := s.schemas.filter (· ≠ sn) })
    else if ifExists then (some (.ok ()), s)
    else (some (.err .other), s)
  | .tx () (.openTable tn), s =>
    match s.find tn with
    | none => (some (.err .other), s)
    | some t => (some (.ok (some ⟨t.columnNames, t.indexes⟩)), s)
  | .tx () (.createTable tn colNames colTypes primary), s =>
    if (s.find tn).isSome then (some (.err .other), s)
    else (some (.ok ()), { s with tables := ⟨tn, colNames, colTypes, primary, []⟩ :: s.tables })
  | .tx () (.dropTable tn), s =>
    if (s.find tn).isSome then
      (some (.ok ()), { s with tables := s.tables.filter (fun t => t.name ≠ tn) })
    else (some (.err .other), s)
  | .tx () (.createIndex tn index key), s =>
    match s.find tn with
    | none => (some .panic, s)
    | some t =>
      if t.indexes.any (fun it => it.name == index) then (some (.err .other), s)
      else
        (some (.ok ()), s.update tn (fun t => { t with indexes := t.indexes ++ [⟨index, key⟩] }))
  | .tx () (.dropIndex tn index), s =>
    match s.find tn with
    | none => (some (.err .other), s)
    | some t =>
      if t.indexes.any (fun it => it.name == index) then
        (some (.ok ()), s.update tn (fun t =>
          { t with indexes := t.indexes.filter (fun it => it.name ≠ index) }))
      else (some (.err .other), s)

/-- evaluate/session_test.go:231-319 `sesEngine` and `sesTx`. Tables are opened as nil. -/
def traceEngine : AnyEngine Unit Unit
  | .createDatabase _ _, s => (some (.ok ()), s)
  | .dropDatabase _ _, s => (some (.ok ()), s)
  | .begin, s => (some (.ok ()), s)
  | .tx () .commit, s => (some (.ok ()), s)
  | .tx () .rollback, s => (some (.ok ()), s)
  | .tx () (.createSchema _), s => (some (.ok ()), s)
  | .tx () (.dropSchema _ _), s => (some (.err .other), s)
  | .tx () (.openTable _), s => (some (.ok none), s)
  | .tx () (.createTable _ _ _ _), s => (some (.ok ()), s)
  | .tx () (.dropTable _), s => (some (.ok ()), s)
  | .tx () (.createIndex _ _ _), s => (some (.ok ()), s)
  | .tx () (.dropIndex _ _), s => (some (.ok ()), s)

end Maho
