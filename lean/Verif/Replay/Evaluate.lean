import Verif.Replay.Env
import Verif.Spec.Evaluate
import Verif.Lemmas.FakeEngine
/-
The tests of evaluate on the model: evaluate/session_test.go and evaluate/evaluate_test.go.
-/
namespace Maho.Replay
open Spec

/-- `fmt`'s `%v` of a list. -/
def goList (l : List Bytes) : Bytes := ascii "[" ++ List.intercalate (ascii " ") l ++ ascii "]"

/-- `fmt`'s `%v` of a boolean. -/
def goBool (b : Bool) : Bytes := ascii (if b then "true" else "false")

/-- `fmt`'s `%v` of a column key. -/
def goKey (k : ColumnKey) : Bytes :=
  if k.toInt < 0 then ascii "-" ++ natDigits k.toInt.natAbs else natDigits k.toInt.natAbs

/-- `fmt`'s `%v` of a column type. -/
def goType (ct : ColumnType) : Bytes :=
  match ct.print with
  | .ok s => s
  | _ => ascii "panic"

def tnText (tn : TableName) : Bytes := tn.print env

def snText (sn : SchemaName) : Bytes := sn.print env

/-- What the engines of the tests print for a request. A map is printed in the order of the
keys; in the test they are new in the order of the text. -/
def traced : Request Unit → Bytes
  | .createDatabase dn opts => ascii "CreateDatabase(" ++ string dn ++ ascii ", map" ++
      goList (opts.map (fun o => string o.1 ++ ascii ":" ++ o.2)) ++ ascii ")"
  | .dropDatabase dn ifExists => ascii "DropDatabase(" ++ string dn ++ ascii ", " ++
      goBool ifExists ++ ascii ")"
  | .begin => ascii "Begin()"
  | .tx _ .commit => ascii "Commit()"
  | .tx _ .rollback => ascii "Rollback()"
  | .tx _ (.createSchema sn) => ascii "CreateSchema(" ++ snText sn ++ ascii ")"
  | .tx _ (.dropSchema sn ifExists) => ascii "DropSchema(" ++ snText sn ++ ascii ", " ++
      goBool ifExists ++ ascii ")"
  | .tx _ (.openTable tn) => ascii "OpenTable(" ++ tnText tn ++ ascii ")"
  | .tx _ (.createTable tn colNames colTypes primary) => ascii "CreateTable(" ++ tnText tn ++
      ascii ", " ++ goList (colNames.map string) ++ ascii ", " ++ goList (colTypes.map goType) ++
      ascii ", " ++ goList (primary.map goKey) ++ ascii ")"
  | .tx _ (.dropTable tn) => ascii "DropTable(" ++ tnText tn ++ ascii ")"
  | .tx _ (.createIndex tn index key) => ascii "CreateIndex(" ++ tnText tn ++ ascii ", " ++
      string index ++ ascii ", " ++ goList (key.map goKey) ++ ascii ")"
  | .tx _ (.dropIndex tn index) => ascii "DropIndex(" ++ tnText tn ++ ascii ", " ++
      string index ++ ascii ")"

/-- What is expected of a call. -/
inductive Outcome where
  | ok | fail | panic
deriving DecidableEq

def outcome : Option (Res Unit) → Option Outcome
  | some (.ok _) => some .ok
  | some (.err _) => some .fail
  | some .panic => some .panic
  | none => none

/-- evaluate/session_test.go:20-26 `evaluateCase`. The functions of the cases list what there is
(evaluate/evaluate_test.go:97-137). -/
inductive EvaluateCase where
  | stmt (text : String) (o : Outcome) (trace : List String)
  | schemas (dn : Identifier) (ids : List Identifier)
  | tables (sn : SchemaName) (ids : List Identifier)
  | indexes (tn : TableName) (its : List IndexType)

/-- evaluate/evaluate_test.go:35-42 `mustParse`. -/
def mustParse (s : String) : Option Stmt :=
  match parsed s with
  | .stmt s => s
  | _ => none

/-- Whether the request was traced as expected. -/
def tracedAs (log : List (Asked Unit)) (trace : List String) : Bool :=
  log.map (fun a => traced a.request) == trace.map ascii

/-- The statements of session_test.go, each with what is printed for it. -/
def sessionLoop (ses : AnySession Unit) : List EvaluateCase → Bool
  | [] => true
  | .stmt text o trace :: cs =>
    match mustParse text with
    | none => false
    | some stmt =>
      match ses.evaluate (id · false) (logged traceEngine) ((), []) (some stmt) with
      | (r, (_, log), ses) => outcome r == some o && tracedAs log trace && sessionLoop ses cs
  | _ :: _ => false

/-- evaluate/session_test.go:141-171. -/
def sessionCases (cs : List EvaluateCase) : Bool :=
  sessionLoop (newAnySession Unit (I "maho") (I "public")) cs

/-- The same identifiers in any order. The tests sort them by name. -/
def sameIds (l m : List Identifier) : Bool :=
  l.length == m.length && l.all (m.contains ·) && m.all (l.contains ·)

/-- evaluate/evaluate_test.go:139-178 `testEvaluate`, with the resolver of :406-426, which is that
of a session. -/
def evaluateLoop (s : FakeState) : List EvaluateCase → Bool
  | [] => true
  | .stmt text o trace :: cs =>
    match mustParse text with
    | none => false
    | some stmt =>
      match evaluateAny (logged fakeEngine) () (s, [])
          (stmt.resolve (newAnySession Unit (I "db") (I "sn")).resolver) with
      | (r, s, log) => outcome r == some o && tracedAs log trace && evaluateLoop s cs
  | .schemas dn ids :: cs =>
    sameIds ((s.schemas.filter (·.database == dn)).map (·.schema)) ids && evaluateLoop s cs
  | .tables sn ids :: cs =>
    sameIds ((s.tables.filter (fun t => t.name.database == sn.database &&
      t.name.schema == sn.schema)).map (·.name.table)) ids && evaluateLoop s cs
  | .indexes tn its :: cs =>
    (s.find tn).map (·.indexes) == some its && evaluateLoop s cs

def evaluateCases (cs : List EvaluateCase) : Bool := evaluateLoop ⟨[], []⟩ cs

/-- evaluate/session_test.go:39-91 `TestSessionResolve`. -/
example :
    (newAnySession Unit (I "maho") (I "public")).resolver.table ⟨0, 0, I "tbl"⟩ =
      ⟨I "maho", (I "public"), I "tbl"⟩ ∧
    (newAnySession Unit (I "maho") (I "public")).resolver.schema ⟨0, I "scm"⟩ =
      ⟨I "maho", I "scm"⟩ ∧
    (let (rs, _, ses) := (newAnySession Unit (I "maho") (I "public")).run (id · false) traceEngine ()
        [mustParse "set database = 'db'", mustParse "set schema = 'test'"]
     rs.map outcome = [some .ok, some .ok] ∧
       ses.resolver.table ⟨0, 0, I "tbl"⟩ = ⟨I "db", I "test", I "tbl"⟩) := by
  decide +kernel

/-! ### The cases (written by tools/replay/evaluate.py) -/

/-- evaluate/session_test.go:93 `TestSessionBegin` -/
example : sessionCases [
    .stmt "begin" .ok ["Begin()"],
    .stmt "begin" .fail [],
    .stmt "commit" .ok ["Commit()"],
    .stmt "commit" .fail [],
    .stmt "rollback" .fail [],
    .stmt "begin" .ok ["Begin()"],
    .stmt "rollback" .ok ["Rollback()"],
    .stmt "set database = 'db'" .ok [],
    .stmt "create schema sn" .ok ["Begin()", "CreateSchema(db.sn)", "Commit()"],
    .stmt "drop schema sn2" .fail ["Begin()", "DropSchema(db.sn2, false)", "Rollback()"]] = true := by
  decide +kernel

/-- evaluate/session_test.go:174 `TestSessionEvaluate` -/
example : sessionCases [
    .stmt "create database db with this=123 that 'abcdef'" .ok
      ["CreateDatabase(db, map[this:123 that:abcdef])"],
    .stmt "drop database if exists db" .ok ["DropDatabase(db, true)"],
    .stmt "begin" .ok ["Begin()"],
    .stmt "create database db" .fail [],
    .stmt "drop database db" .fail []] = true := by
  decide +kernel

/-- evaluate/evaluate_test.go:44 `TestEvaluatePanic` -/
example : evaluateCases [
    .stmt "begin" .panic [],
    .stmt "commit" .panic [],
    .stmt "rollback" .panic [],
    .stmt "set database = 'test'" .panic [],
    .stmt "create database db" .panic [],
    .stmt "drop database db" .panic []] = true := by
  decide +kernel

/-- evaluate/evaluate_test.go:180 `TestEvaluateCreateSchema` -/
example : evaluateCases [
    .stmt "create schema s1" .ok ["CreateSchema(db.s1)"],
    .stmt "create schema s1" .fail ["CreateSchema(db.s1)"],
    .stmt "create schema s2" .ok ["CreateSchema(db.s2)"],
    .stmt "create schema s3" .ok ["CreateSchema(db.s3)"],
    .schemas (I "db") [I "s1", I "s2", I "s3"],
    .stmt "drop schema s1" .ok ["DropSchema(db.s1, false)"],
    .schemas (I "db") [I "s2", I "s3"],
    .stmt "drop schema s3" .ok ["DropSchema(db.s3, false)"],
    .schemas (I "db") [I "s2"]] = true := by
  decide +kernel

/-- evaluate/evaluate_test.go:229 `TestEvaluateCreateTable` -/
example : evaluateCases [
    .stmt "create table t1 (c1 int, c2 bool)" .ok ["OpenTable(db.sn.t1)",
      "CreateTable(db.sn.t1, [c1 c2], [INT BOOL], [])"],
    .stmt "create table t1 (c1 int, c2 bool)" .fail ["OpenTable(db.sn.t1)"],
    .stmt "create table t2 (c1 int primary key, c2 bool)" .ok ["OpenTable(db.sn.t2)",
      "CreateTable(db.sn.t2, [c1 c2], [INT BOOL], [1])"],
    .stmt "create table t3 (c1 int, c2 bool, primary key(c2, c1))" .ok ["OpenTable(db.sn.t3)",
      "CreateTable(db.sn.t3, [c1 c2], [INT BOOL], [2 1])"],
    .stmt "create table t4 (c1 int, c2 bool, primary key(c2, c1 desc))" .ok ["OpenTable(db.sn.t4)",
      "CreateTable(db.sn.t4, [c1 c2], [INT BOOL], [2 -1])"],
    .stmt "create table tf (c1 int, c2 bool, primary key(c2, c3))" .fail ["OpenTable(db.sn.tf)"],
    .tables ⟨I "db", I "sn"⟩ [I "t1", I "t2", I "t3", I "t4"],
    .stmt "drop table t1" .ok ["DropTable(db.sn.t1)"],
    .tables ⟨I "db", I "sn"⟩ [I "t2", I "t3", I "t4"],
    .stmt "drop table t3" .ok ["DropTable(db.sn.t3)"],
    .tables ⟨I "db", I "sn"⟩ [I "t2", I "t4"]] = true := by
  decide +kernel

/-- evaluate/evaluate_test.go:291 `TestEvaluateCreateIndex` -/
example : evaluateCases [
    .stmt "create table t1 (c1 int, c2 bool)" .ok ["OpenTable(db.sn.t1)",
      "CreateTable(db.sn.t1, [c1 c2], [INT BOOL], [])"],
    .stmt "create table t2 (c1 int, c2 bool)" .ok ["OpenTable(db.sn.t2)",
      "CreateTable(db.sn.t2, [c1 c2], [INT BOOL], [])"],
    .stmt "create index i1 on t1 (c1)" .ok ["OpenTable(db.sn.t1)",
      "CreateIndex(db.sn.t1, i1, [1])"],
    .stmt "create index i1 on t1 (c1)" .fail ["OpenTable(db.sn.t1)"],
    .stmt "create index i2 on t1 (c3)" .fail ["OpenTable(db.sn.t1)"],
    .stmt "create index i2 on t1 (c2, c1)" .ok ["OpenTable(db.sn.t1)",
      "CreateIndex(db.sn.t1, i2, [2 1])"],
    .indexes ⟨I "db", I "sn", I "t1"⟩ [⟨I "i1", [makeColumnKey 0 false]⟩, ⟨I "i2",
      [makeColumnKey 1 false, makeColumnKey 0 false]⟩],
    .stmt "create index i3 on t1 (c2)" .ok ["OpenTable(db.sn.t1)",
      "CreateIndex(db.sn.t1, i3, [2])"],
    .indexes ⟨I "db", I "sn", I "t1"⟩ [⟨I "i1", [makeColumnKey 0 false]⟩, ⟨I "i2",
      [makeColumnKey 1 false, makeColumnKey 0 false]⟩, ⟨I "i3", [makeColumnKey 1 false]⟩],
    .stmt "drop index i2 on t1" .ok ["DropIndex(db.sn.t1, i2)"],
    .stmt "drop index i2 on t1" .fail ["DropIndex(db.sn.t1, i2)"],
    .indexes ⟨I "db", I "sn", I "t1"⟩ [⟨I "i1", [makeColumnKey 0 false]⟩, ⟨I "i3",
      [makeColumnKey 1 false]⟩]] = true := by
  decide +kernel

end Maho.Replay
