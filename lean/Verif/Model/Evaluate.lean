import Verif.Model.Session
/-
Model of evaluate/session.go and evaluate/evaluate.go with any engine: the code reaches the engine
only through the interfaces `Engine`, `Transaction` and `Table` (engine/engine.go:16-47), so an
engine is whatever answers the requests that these interfaces have. Model/Session.lean is the same
code with the engine of the repository.
-/
namespace Maho

/-- engine/engine.go:58-61 `IndexType`. -/
structure IndexType where
  name : Identifier
  key : List ColumnKey
deriving DecidableEq

/-- The fields of `TableType` that evaluate reads (engine/engine.go:49-56). -/
structure TableColumns where
  columnNames : List Identifier
  indexes : List IndexType
deriving DecidableEq

/-- The methods of `Transaction` that evaluate calls (engine/engine.go:23-40). `ListSchemas` and
`ListTables` are not called. -/
inductive TxRequest where
  | commit
  | rollback
  | createSchema (sn : SchemaName)
  | dropSchema (sn : SchemaName) (ifExists : Bool)
  | openTable (tn : TableName)
  | createTable (tn : TableName) (colNames : List Identifier) (colTypes : List ColumnType)
      (primary : List ColumnKey)
  | dropTable (tn : TableName)
  | createIndex (tn : TableName) (index : Identifier) (key : List ColumnKey)
  | dropIndex (tn : TableName) (index : Identifier)
deriving DecidableEq

/-- The methods of `Engine` that evaluate calls (engine/engine.go:16-21), and those of a
transaction `tx`. -/
inductive Request (τ : Type) where
  | createDatabase (dn : Identifier) (opts : List (Identifier × Bytes))
  | dropDatabase (dn : Identifier) (ifExists : Bool)
  | begin
  | tx (tx : τ) (r : TxRequest)
deriving DecidableEq

/-- What a method of a transaction returns besides an error. `none` from `OpenTable`: a nil table,
or a table with a nil type. -/
@[reducible] def TxRequest.Answer : TxRequest → Type
  | .openTable _ => Option TableColumns
  | _ => Unit

/-- What a method returns besides an error. -/
@[reducible] def Request.Answer {τ : Type} : Request τ → Type
  | .begin => τ
  | .tx _ r => r.Answer
  | _ => Unit

/-- An engine with states `σ` and transactions `τ`. The reply `none`: the call does not return.
`Begin` returns no error; an error of it would be taken for a panic. -/
abbrev AnyEngine (σ τ : Type) : Type := (r : Request τ) → σ → Option (Res r.Answer) × σ

/-- evaluate/evaluate.go:68-94 `EvaluateCreateIndex`. -/
def anyCreateIndex {σ τ : Type} (e : AnyEngine σ τ) (tx : τ) (s : σ) (index : Identifier)
    (table : TableName) (key : IndexKey) (ifNotExists : Bool) : Option (Res Unit) × σ :=
  match e (.tx tx (.openTable table)) s with
  | (none, s) => (none, s)
  | (some .panic, s) => (some .panic, s)
  | (some (.err x), s) => (some (.err x), s)
  | (some (.ok none), s) => (some .panic, s)
  | (some (.ok (some tt)), s) =>
    if tt.indexes.any (fun it => it.name == index) then
      if ifNotExists then (some (.ok ()), s) else (some (.err .other), s)
    else
      match indexKeyToColumnKey tt.columnNames [] key.columns key.reverse with
      | .panic => (some .panic, s)
      | .err x => (some (.err x), s)
      | .ok (key, col) =>
        if col ≠ 0 then (some (.err .other), s)
        else e (.tx tx (.createIndex table index key)) s

/-- evaluate/evaluate.go:96-122 `EvaluateCreateTable`. -/
def anyCreateTable {σ τ : Type} (e : AnyEngine σ τ) (tx : τ) (s : σ) (stmt : CreateTable) :
    Option (Res Unit) × σ :=
  match e (.tx tx (.openTable stmt.table)) s with
  | (none, s) => (none, s)
  | (some .panic, s) => (some .panic, s)
  | (some (.ok _), s) => if stmt.ifNotExists then (some (.ok ()), s) else (some (.err .other), s)
  | (some (.err _), s) =>
    match primaryColumnKey stmt.columns stmt.constraints with
    | .panic => (some .panic, s)
    | .err x => (some (.err x), s)
    | .ok (primary, col) =>
      if col ≠ 0 then (some (.err .other), s)
      else e (.tx tx (.createTable stmt.table stmt.columns stmt.columnTypes primary)) s

/-- evaluate/evaluate.go:131-143 `EvaluateDropTable`. -/
def anyDropTables {σ τ : Type} (e : AnyEngine σ τ) (tx : τ) (s : σ) :
    List TableName → Option (Res Unit) × σ
  | [] => (some (.ok ()), s)
  | tn :: tns =>
    match e (.tx tx (.dropTable tn)) s with
    | (some (.ok ()), s) => anyDropTables e tx s tns
    | (r, s) => (r, s)

/-- evaluate/evaluate.go:13-42 `Evaluate`. -/
def evaluateAny {σ τ : Type} (e : AnyEngine σ τ) (tx : τ) (s : σ) : Stmt → Option (Res Unit) × σ
  | .createIndex index table key ifNotExists => anyCreateIndex e tx s index table key ifNotExists
  | .createSchema schema => e (.tx tx (.createSchema schema)) s
  | .createTable stmt => anyCreateTable e tx s stmt
  | .dropIndex table index _ => e (.tx tx (.dropIndex table index)) s
  | .dropSchema ifExists schema => e (.tx tx (.dropSchema schema ifExists)) s
  | .dropTable _ _ tables => anyDropTables e tx s tables
  | _ => (some .panic, s)

/-- evaluate/session.go:17-23 `Session`. -/
structure AnySession (τ : Type) where
  tx : Option τ
  defaultDatabase : Identifier
  defaultSchema : Identifier
deriving DecidableEq

/-- evaluate/session.go:25-32 `NewSession`. -/
def newAnySession (τ : Type) (defaultDatabase defaultSchema : Identifier) : AnySession τ :=
  ⟨none, defaultDatabase, defaultSchema⟩

/-- The session without what its transaction is. -/
def AnySession.plain {τ : Type} (ses : AnySession τ) : Session :=
  ⟨ses.tx.isSome, ses.defaultDatabase, ses.defaultSchema⟩

/-- evaluate/session.go:34-49 `ResolveTable` and `ResolveSchema`. -/
def AnySession.resolver {τ : Type} (ses : AnySession τ) : Resolver := ses.plain.resolver

/-- evaluate/session.go:108-118 `set`; `unquoted` is `types.ID(s, false)`. -/
def AnySession.set {τ : Type} (unquoted : Bytes → Identifier) (ses : AnySession τ)
    (id : Identifier) (val : Bytes) : Res Unit × AnySession τ :=
  if id = idDATABASE then (.ok (), { ses with defaultDatabase := unquoted val })
  else if id = idSCHEMA then (.ok (), { ses with defaultSchema := unquoted val })
  else (.err .other, ses)

/-- evaluate/session.go:95-103: a statement outside a transaction. What `Rollback` answers is
ignored, but it must return. -/
def anyAutocommit {σ τ : Type} (e : AnyEngine σ τ) (s : σ) (stmt : Stmt) :
    Option (Res Unit) × σ :=
  match e .begin s with
  | (none, s) => (none, s)
  | (some .panic, s) => (some .panic, s)
  | (some (.err _), s) => (some .panic, s)
  | (some (.ok tx), s) =>
    match evaluateAny e tx s stmt with
    | (none, s) => (none, s)
    | (some .panic, s) => (some .panic, s)
    | (some (.err x), s) =>
      match e (.tx tx .rollback) s with
      | (none, s) => (none, s)
      | (some .panic, s) => (some .panic, s)
      | (some _, s) => (some (.err x), s)
    | (some (.ok ()), s) => e (.tx tx .commit) s

/-- evaluate/session.go:66-68 and 88-90: what follows the end of the session's transaction. It is
forgotten when the call returns, also with an error. -/
def AnySession.ended {σ τ : Type} (ses : AnySession τ) :
    Option (Res Unit) × σ → Option (Res Unit) × σ × AnySession τ
  | (none, s) => (none, s, ses)
  | (some .panic, s) => (some .panic, s, ses)
  | (some r, s) => (some r, s, { ses with tx := none })

/-- evaluate/session.go:51-106 `Session.Evaluate`; `none` is the nil statement. -/
def AnySession.evaluate {σ τ : Type} (unquoted : Bytes → Identifier) (e : AnyEngine σ τ) (s : σ)
    (ses : AnySession τ) : Option Stmt → Option (Res Unit) × σ × AnySession τ
  | none => (some .panic, s, ses)
  | some stmt =>
    match stmt.resolve ses.resolver with
    | .begin =>
      match ses.tx with
      | some _ => (some (.err .other), s, ses)
      | none =>
        match e .begin s with
        | (none, s) => (none, s, ses)
        | (some .panic, s) => (some .panic, s, ses)
        | (some (.err _), s) => (some .panic, s, ses)
        | (some (.ok tx), s) => (some (.ok ()), s, { ses with tx := some tx })
    | .commit =>
      match ses.tx with
      | none => (some (.err .other), s, ses)
      | some tx => ses.ended (e (.tx tx .commit) s)
    | .createDatabase database options =>
      match ses.tx with
      | some _ => (some (.err .other), s, ses)
      | none =>
        match e (.createDatabase database options) s with
        | (r, s) => (r, s, ses)
    | .dropDatabase ifExists database =>
      match ses.tx with
      | some _ => (some (.err .other), s, ses)
      | none =>
        match e (.dropDatabase database ifExists) s with
        | (r, s) => (r, s, ses)
    | .rollback =>
      match ses.tx with
      | none => (some (.err .other), s, ses)
      | some tx => ses.ended (e (.tx tx .rollback) s)
    | .set var value =>
      match ses.set unquoted var value with
      | (r, ses) => (some r, s, ses)
    | stmt =>
      match ses.tx with
      | none =>
        match anyAutocommit e s stmt with
        | (r, s) => (r, s, ses)
      | some tx =>
        match evaluateAny e tx s stmt with
        | (r, s) => (r, s, ses)

/-- One statement after the other, until one does not return: then the session is stuck in it. -/
def AnySession.run {σ τ : Type} (unquoted : Bytes → Identifier) (e : AnyEngine σ τ) (s : σ)
    (ses : AnySession τ) : List (Option Stmt) → List (Option (Res Unit)) × σ × AnySession τ
  | [] => ([], s, ses)
  | stmt :: stmts =>
    match ses.evaluate unquoted e s stmt with
    | (none, s, ses) => ([none], s, ses)
    | (some r, s, ses) =>
      match ses.run unquoted e s stmts with
      | (rs, s, ses) => (some r :: rs, s, ses)

/-- The engine of the repository (Model/Engine.lean). It has one lock and so at most one
transaction, the one that was begun last. -/
def repoEngine (env : EngineEnv) : AnyEngine EngineState Unit
  | .createDatabase dn opts, s => Maho.createDatabase env s dn opts.length
  | .dropDatabase dn ifExists, s => Maho.dropDatabase env s dn ifExists
  | .begin, s =>
    match s.begin with
    | none => (none, s)
    | some s => (some (.ok ()), s)
  | .tx () .commit, s =>
    match s.commit with
    | (r, s) => (some r, s)
  | .tx () .rollback, s =>
    match s.rollback with
    | (r, s) => (some r, s)
  | .tx () (.createSchema sn), s =>
    match s.inTx (fun t => Maho.createSchema env t sn) with
    | (r, s) => (some r, s)
  | .tx () (.dropSchema sn ifExists), s =>
    match s.inTx (fun t => Maho.dropSchema env t sn ifExists) with
    | (r, s) => (some r, s)
  | .tx () (.openTable tn), s =>
    match s.inTx (fun t => (openEngineTable env t tn, t)) with
    | (.ok tbl, s) => (some (.ok (some ⟨tbl.tt.columnNames, []⟩)), s)
    | (.err x, s) => (some (.err x), s)
    | (.panic, s) => (some .panic, s)
  | .tx () (.createTable tn colNames colTypes primary), s =>
    match s.inTx (fun t => createEngineTable env t tn colNames colTypes primary) with
    | (r, s) => (some r, s)
  | .tx () (.dropTable tn), s =>
    match s.inTx (fun t => dropEngineTable t tn) with
    | (r, s) => (some r, s)
  | .tx () (.createIndex tn index key), s =>
    match s.inTx (fun t => Maho.createIndex t tn index key) with
    | (r, s) => (some r, s)
  | .tx () (.dropIndex tn index), s =>
    match s.inTx (fun t => Maho.dropIndex t tn index) with
    | (r, s) => (some r, s)

/-- The session of Model/Session.lean as a session with the repository's engine. -/
def Session.any (ses : Session) : AnySession Unit :=
  ⟨if ses.tx then some () else none, ses.defaultDatabase, ses.defaultSchema⟩

end Maho
