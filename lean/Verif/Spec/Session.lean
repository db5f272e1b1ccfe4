import Verif.Model.Session
import Verif.Spec.Engine
/-
What sessions should do, on the catalog as sets of names (Spec/Engine.lean).
-/
namespace Maho.Spec
open Maho

/-- A statement of a session and what it returned; `none`: it still waits. -/
structure Event where
  session : Nat
  stmt : Option Stmt
  reply : Option (Res Unit)

/-- The statements of a history with their results. -/
def events (stmts : List (Nat × Option Stmt)) (replies : List (Option (Res Unit))) : List Event :=
  (stmts.zip replies).map (fun p => ⟨p.1.1, p.1.2, p.2⟩)

/-- Whether the session is in a transaction after one more event: BEGIN starts it, COMMIT and
ROLLBACK end it, each only if it succeeds. -/
def Event.after (e : Event) (i : Nat) (now : Bool) : Bool :=
  if e.session = i ∧ e.reply = some (.ok ()) then
    match e.stmt with
    | some .begin => true
    | some .commit | some .rollback => false
    | _ => now
  else now

/-- Whether session `i` is in a transaction after a history. -/
def inTransaction (i : Nat) (es : List Event) : Bool := es.foldl (fun now e => e.after i now) false

/-- The statements that the evaluator knows. -/
def Supported : Stmt → Prop
  | .begin | .commit | .rollback | .set _ _ | .createDatabase _ _ | .dropDatabase _ _ => True
  | .createIndex _ _ _ _ | .createSchema _ | .createTable _ | .dropIndex _ _ _
  | .dropSchema _ _ | .dropTable _ _ _ => True
  | _ => False

instance : DecidablePred Supported := fun s => by
  cases s <;> unfold Supported <;> infer_instance

/-- The key with the numbers of the columns; none if a column is not known. -/
def columnKey (columns : List Identifier) (key : IndexKey) : Option (List ColumnKey) :=
  (key.columns.zip key.reverse).mapM (fun p =>
    (columns.findIdx? (· == p.1)).map (fun i => makeColumnKey (BitVec.ofNat 32 i) p.2))

/-- The key of a new table: that of the first primary key constraint. -/
def primaryKey (s : CreateTable) : Option (List ColumnKey) :=
  match s.constraints.find? (fun c => c.type = .primary) with
  | none => some []
  | some c => columnKey s.columns c.key

/-- The table of the catalog. -/
def Catalog.table (env : SqlEnv) (c : Catalog) (tn : TableName) : Option CatalogTable :=
  c.find (env.name tn.database) (env.name tn.schema) (env.name tn.table)

/-- The effect of a statement with resolved names on the catalog, and whether it succeeds. -/
def effect (env : SqlEnv) (c : Catalog) : Stmt → Bool × Catalog
  | .createSchema sn => c.createSchema (env.name sn.database) (env.name sn.schema)
  | .dropSchema ifExists sn => c.dropSchema (env.name sn.database) (env.name sn.schema) ifExists
  | .createTable s =>
    if (c.table env s.table).isSome then (s.ifNotExists, c)
    else
      match primaryKey s with
      | none => (false, c)
      | some key =>
        c.createTable (env.name s.table.database) (env.name s.table.schema)
          (env.name s.table.table) ⟨1#32, s.columns, s.columnTypes, key⟩
  | .createIndex _ tn key _ =>
    match c.table env tn with
    | none => (false, c)
    | some e => ((columnKey (e.definition.columnNames.map env.storedId) key).isSome, c)
  | .dropIndex _ _ _ => (true, c)
  | .dropTable _ _ _ => (true, c)
  | .createDatabase d options =>
    if options.length > 0 then (false, c) else c.createDatabase (env.name d)
  | .dropDatabase ifExists d => c.dropDatabase (env.name d) ifExists
  | _ => (true, c)

/-- A key has a direction for every column, and the columns have names. -/
def KeyOk (key : IndexKey) : Prop := key.columns.length = key.reverse.length ∧ 0 ∉ key.columns

/-- The names of a table fit the catalog. -/
def ShortTable (env : SqlEnv) (tn : TableName) : Prop :=
  Short env.toEngineEnv tn.database ∧ Short env.toEngineEnv tn.schema ∧
    Short env.toEngineEnv tn.table

/-- The names and definitions in the statement, with names resolved, fit the catalog. -/
def SmallStmt (env : SqlEnv) : Stmt → Prop
  | .createSchema sn | .dropSchema _ sn =>
    Short env.toEngineEnv sn.database ∧ Short env.toEngineEnv sn.schema
  | .createTable s =>
    ShortTable env s.table ∧ (∀ c ∈ s.constraints, KeyOk c.key) ∧
      ∀ key, primaryKey s = some key →
        (env.encodeDef ⟨1#32, s.columns, s.columnTypes, key⟩).length ≤ 8192
  | .createIndex _ tn key _ => ShortTable env tn ∧ KeyOk key
  | .createDatabase d _ => Short env.toEngineEnv d
  | .dropDatabase _ d => Short env.toEngineEnv d
  | _ => True

/-- What a session is: its defaults and whether it is in a transaction. -/
structure Client where
  inTx : Bool
  database : Identifier
  schema : Identifier
deriving DecidableEq

/-- A table name as the client means it. -/
def Client.table (cl : Client) (tn : TableName) : TableName :=
  if tn.database ≠ 0 then tn
  else ⟨cl.database, if tn.schema ≠ 0 then tn.schema else cl.schema, tn.table⟩

/-- A schema name as the client means it. -/
def Client.schemaName (cl : Client) (sn : SchemaName) : SchemaName :=
  if sn.database ≠ 0 then sn else ⟨cl.database, sn.schema⟩

/-- The statement with the names as the client means them. -/
def Client.meaning (cl : Client) (stmt : Stmt) : Stmt := stmt.resolve ⟨cl.table, cl.schemaName⟩

/-- A statement of a client: what it returns (`none`: it waits), and what it changes. -/
def clientStep (env : SqlEnv) (s : CatalogState) (cl : Client) (stmt : Stmt) :
    Option (Res Unit) × CatalogState × Client :=
  match stmt with
  | .begin =>
    if cl.inTx then (some (.err .other), s, cl)
    else if s.active.isSome then (none, s, cl)
    else (some (.ok ()), ⟨s.committed, some s.committed⟩, { cl with inTx := true })
  | .commit =>
    if cl.inTx then (some (.ok ()), ⟨s.active.getD s.committed, none⟩, { cl with inTx := false })
    else (some (.err .other), s, cl)
  | .rollback =>
    if cl.inTx then (some (.ok ()), ⟨s.committed, none⟩, { cl with inTx := false })
    else (some (.err .other), s, cl)
  | .set var value =>
    if var = -19 then (some (.ok ()), s, { cl with database := env.unquoted value })
    else if var = -58 then (some (.ok ()), s, { cl with schema := env.unquoted value })
    else (some (.err .other), s, cl)
  | .createDatabase d options =>
    if cl.inTx ∨ options.length > 0 then (some (.err .other), s, cl)
    else if s.active.isSome then (none, s, cl)
    else
      let (b, c) := effect env s.committed (.createDatabase d options)
      (some (outcome b), ⟨if b then c else s.committed, none⟩, cl)
  | .dropDatabase ifExists d =>
    if cl.inTx then (some (.err .other), s, cl)
    else if s.active.isSome then (none, s, cl)
    else
      let (b, c) := effect env s.committed (.dropDatabase ifExists d)
      (some (outcome b), ⟨if b then c else s.committed, none⟩, cl)
  | stmt =>
    if cl.inTx then
      let (b, c) := effect env (s.active.getD s.committed) (cl.meaning stmt)
      (some (outcome b), ⟨s.committed, some c⟩, cl)
    else if s.active.isSome then (none, s, cl)
    else
      let (b, c) := effect env s.committed (cl.meaning stmt)
      (some (outcome b), ⟨if b then c else s.committed, none⟩, cl)

/-- One catalog and the clients of a server. -/
structure Clients where
  catalog : CatalogState
  clients : List Client

/-- A statement of client number `i`. -/
def Clients.step (env : SqlEnv) (s : Clients) (i : Nat) (stmt : Stmt) :
    Option (Res Unit) × Clients :=
  match s.clients[i]? with
  | none => (none, s)
  | some cl =>
    match clientStep env s.catalog cl stmt with
    | (r, catalog, cl) => (r, ⟨catalog, s.clients.set i cl⟩)

/-- A history. -/
def Clients.run (env : SqlEnv) (s : Clients) : List (Nat × Stmt) →
    List (Option (Res Unit)) × Clients
  | [] => ([], s)
  | (i, stmt) :: rest =>
    let (r, s) := s.step env i stmt
    let (rs, s) := s.run env rest
    (r :: rs, s)

/-- The clients of a new server. -/
def Clients.initial (env : SqlEnv) (defaults : List (Identifier × Identifier)) : Clients :=
  ⟨⟨Catalog.initial env.toEngineEnv, none⟩, defaults.map (fun d => ⟨false, d.1, d.2⟩)⟩

/-- Whenever a statement of the history is evaluated it is one that the evaluator knows and its
names and definitions fit the catalog. -/
def SmallHistory (env : SqlEnv) (s : Clients) : List (Nat × Stmt) → Prop
  | [] => True
  | (i, stmt) :: rest =>
    Supported stmt ∧ (∀ cl, s.clients[i]? = some cl → SmallStmt env (cl.meaning stmt)) ∧
      SmallHistory env (s.step env i stmt).2 rest

/-- The server and the replies after a history from the start. -/
def serverAfter (env : SqlEnv) (defaults : List (Identifier × Identifier))
    (ops : List (Nat × Option Stmt)) : Server :=
  ((Server.initial env defaults).run env ops).2

@[inherit_doc serverAfter]
def eventsAfter (env : SqlEnv) (defaults : List (Identifier × Identifier))
    (ops : List (Nat × Option Stmt)) : List Event :=
  events ops ((Server.initial env defaults).run env ops).1

/-- No statement outside a transaction panicked. -/
def NoPanicOutside (es : List Event) : Prop :=
  ∀ k e, es[k]? = some e → e.reply = some .panic → inTransaction e.session (es.take k) = true

/-- The tables that a statement names outside of queries and foreign keys. -/
def stmtTables : Stmt → List TableName
  | .createTable s => [s.table]
  | .createIndex _ tn _ _ | .alterTable tn _ | .dropIndex tn _ _ | .copy tn _ _ _ | .delete tn _
  | .insert tn _ _ | .update tn _ _ => [tn]
  | .dropTable _ _ tns => tns
  | _ => []

/-- The schemas that a statement names. -/
def stmtSchemas : Stmt → List SchemaName
  | .createSchema sn | .dropSchema _ sn => [sn]
  | _ => []

end Maho.Spec
