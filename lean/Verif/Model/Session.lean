import Verif.Model.Sql
/-
Model of evaluate/session.go and evaluate/evaluate.go.
-/
namespace Maho

/-! types/identifier.go:84 and 123: the identifiers of two keywords. -/
def idDATABASE : Identifier := -19
def idSCHEMA : Identifier := -58

/-- The engine's parameters and `types.ID(s, false)`, the identifier of a name that is not
quoted (types/identifier.go:301-320; see the remark at `EngineEnv`). -/
structure SqlEnv extends EngineEnv where
  unquoted : Bytes → Identifier

/-- evaluate/session.go:17-23 `Session`. `tx`: the session has a transaction. The store has one
lock, so there is at most one transaction in all sessions together, and its tree is the active
one of the engine's state. -/
structure Session where
  tx : Bool
  defaultDatabase : Identifier
  defaultSchema : Identifier
deriving DecidableEq

/-- evaluate/session.go:25-32 `NewSession`. -/
def newSession (defaultDatabase defaultSchema : Identifier) : Session :=
  ⟨false, defaultDatabase, defaultSchema⟩

/-- evaluate/session.go:34-42 `ResolveTable`. -/
def Session.resolveTable (ses : Session) (tn : TableName) : TableName :=
  if tn.database = 0 then
    { database := ses.defaultDatabase
      schema := if tn.schema = 0 then ses.defaultSchema else tn.schema
      table := tn.table }
  else tn

/-- evaluate/session.go:44-49 `ResolveSchema`. -/
def Session.resolveSchema (ses : Session) (sn : SchemaName) : SchemaName :=
  if sn.database = 0 then { sn with database := ses.defaultDatabase } else sn

/-- The session as a `Resolver`. -/
def Session.resolver (ses : Session) : Resolver := ⟨ses.resolveTable, ses.resolveSchema⟩

/-- evaluate/session.go:108-118 `set`. -/
def Session.set (env : SqlEnv) (ses : Session) (id : Identifier) (val : Bytes) :
    Res Unit × Session :=
  if id = idDATABASE then (.ok (), { ses with defaultDatabase := env.unquoted val })
  else if id = idSCHEMA then (.ok (), { ses with defaultSchema := env.unquoted val })
  else (.err .other, ses)

/-- evaluate/evaluate.go:44-51 `columnNumber`, counting from `num`. -/
def columnNumber (nam : Identifier) : Nat → List Identifier → Option ColumnNum
  | _, [] => none
  | num, col :: cols =>
    if nam = col then some (BitVec.ofNat 32 num) else columnNumber nam (num + 1) cols

/-- evaluate/evaluate.go:53-66 `indexKeyToColumnKey`: the key and 0, or no key and the first
column that is not known (which is taken for success if that identifier is 0). `Reverse[cdx]` out
of range panics. -/
def indexKeyToColumnKey (colNames : List Identifier) (key : List ColumnKey) :
    List Identifier → List Bool → Res (List ColumnKey × Identifier)
  | [], _ => .ok (key, 0)
  | col :: cols, reverse =>
    match columnNumber col 0 colNames with
    | none => .ok ([], col)
    | some num =>
      match reverse with
      | [] => .panic
      | rev :: reverse =>
        indexKeyToColumnKey colNames (key ++ [makeColumnKey num rev]) cols reverse

/-- evaluate/evaluate.go:68-94 `EvaluateCreateIndex`. The table's `Indexes` are empty (see
`Definition`), so the index never exists. -/
def evaluateCreateIndex (env : SqlEnv) (t : Tree) (index : Identifier) (table : TableName)
    (key : IndexKey) : Res Unit × Tree :=
  match openEngineTable env.toEngineEnv t table with
  | .panic => (.panic, t)
  | .err e => (.err e, t)
  | .ok tbl =>
    match indexKeyToColumnKey tbl.tt.columnNames [] key.columns key.reverse with
    | .panic => (.panic, t)
    | .err e => (.err e, t)
    | .ok (key, col) => if col ≠ 0 then (.err .other, t) else createIndex t table index key

/-- evaluate/evaluate.go:104-115: the key columns of the first primary key constraint. -/
def primaryColumnKey (columns : List Identifier) :
    List Constraint → Res (List ColumnKey × Identifier)
  | [] => .ok ([], 0)
  | con :: cons =>
    if con.type = .primary then indexKeyToColumnKey columns [] con.key.columns con.key.reverse
    else primaryColumnKey columns cons

/-- evaluate/evaluate.go:96-122 `EvaluateCreateTable`. Any error of `OpenTable` is taken to mean
that there is no such table. -/
def evaluateCreateTable (env : SqlEnv) (t : Tree) (stmt : CreateTable) : Res Unit × Tree :=
  match openEngineTable env.toEngineEnv t stmt.table with
  | .panic => (.panic, t)
  | .ok _ => if stmt.ifNotExists then (.ok (), t) else (.err .other, t)
  | .err _ =>
    match primaryColumnKey stmt.columns stmt.constraints with
    | .panic => (.panic, t)
    | .err e => (.err e, t)
    | .ok (primary, col) =>
      if col ≠ 0 then (.err .other, t)
      else createEngineTable env.toEngineEnv t stmt.table stmt.columns stmt.columnTypes primary

/-- evaluate/evaluate.go:131-143 `EvaluateDropTable`. -/
def evaluateDropTables (t : Tree) : List TableName → Res Unit × Tree
  | [] => (.ok (), t)
  | tn :: tns =>
    match dropEngineTable t tn with
    | (.ok (), t) => evaluateDropTables t tns
    | (.err e, t) => (.err e, t)
    | (.panic, t) => (.panic, t)

/-- evaluate/evaluate.go:13-42 `Evaluate`, in a transaction with the tree `t`. -/
def evaluate (env : SqlEnv) (t : Tree) : Stmt → Res Unit × Tree
  | .createIndex index table key _ => evaluateCreateIndex env t index table key
  | .createSchema schema => createSchema env.toEngineEnv t schema
  | .createTable stmt => evaluateCreateTable env t stmt
  | .dropIndex table index _ => dropIndex t table index
  | .dropSchema ifExists schema => dropSchema env.toEngineEnv t schema ifExists
  | .dropTable _ _ tables => evaluateDropTables t tables
  | .begin => (.panic, t)
  | .commit => (.panic, t)
  | .createDatabase _ _ => (.panic, t)
  | .dropDatabase _ _ => (.panic, t)
  | .rollback => (.panic, t)
  | .set _ _ => (.panic, t)
  | .explain _ _ => (.panic, t)
  | .query _ => (.panic, t)
  | .alterTable _ _ => (.panic, t)
  | .copy _ _ _ _ => (.panic, t)
  | .delete _ _ => (.panic, t)
  | .insert _ _ _ => (.panic, t)
  | .update _ _ _ => (.panic, t)

/-- evaluate/session.go:94-104: a statement outside a transaction. `none`: the session waits for
the lock. After a panic nobody ends the transaction. -/
def autocommit (env : SqlEnv) (st : EngineState) (stmt : Stmt) : Option (Res Unit) × EngineState :=
  match st.begin with
  | none => (none, st)
  | some st =>
    match st.inTx (fun t => evaluate env t stmt) with
    | (.panic, st) => (some .panic, st)
    | (.err e, st) =>
      match st.rollback with
      | (_, st) => (some (.err e), st)
    | (.ok (), st) =>
      match st.commit with
      | (r, st) => (some r, st)

/-- evaluate/session.go:51-106 `Session.Evaluate`. `none` for the statement: nil, which the
parser returns for an empty statement; calling its method panics. `none` in the result: the
session waits for the lock of the store. -/
def Session.evaluate (env : SqlEnv) (st : EngineState) (ses : Session) :
    Option Stmt → Option (Res Unit) × EngineState × Session
  | none => (some .panic, st, ses)
  | some stmt =>
    match stmt.resolve ses.resolver with
    | .begin =>
      if ses.tx then (some (.err .other), st, ses)
      else
        match st.begin with
        | none => (none, st, ses)
        | some st => (some (.ok ()), st, { ses with tx := true })
    | .commit =>
      if ses.tx then
        match st.commit with
        | (r, st) => (some r, st, { ses with tx := false })
      else (some (.err .other), st, ses)
    | .createDatabase database options =>
      if ses.tx then (some (.err .other), st, ses)
      else
        match createDatabase env.toEngineEnv st database options.length with
        | (r, st) => (r, st, ses)
    | .dropDatabase ifExists database =>
      if ses.tx then (some (.err .other), st, ses)
      else
        match dropDatabase env.toEngineEnv st database ifExists with
        | (r, st) => (r, st, ses)
    | .rollback =>
      if ses.tx then
        match st.rollback with
        | (r, st) => (some r, st, { ses with tx := false })
      else (some (.err .other), st, ses)
    | .set var value =>
      match ses.set env var value with
      | (r, ses) => (some r, st, ses)
    | stmt =>
      if ses.tx then
        match st.inTx (fun t => Maho.evaluate env t stmt) with
        | (r, st) => (some r, st, ses)
      else
        match autocommit env st stmt with
        | (r, st) => (r, st, ses)

/-- A server: one engine and its sessions. -/
structure Server where
  engine : EngineState
  sessions : List Session
deriving DecidableEq

/-- Session number `i` evaluates a statement; `none`: there is no such session, or it waits. -/
def Server.step (env : SqlEnv) (s : Server) (i : Nat) (stmt : Option Stmt) :
    Option (Res Unit) × Server :=
  match s.sessions[i]? with
  | none => (none, s)
  | some ses =>
    match ses.evaluate env s.engine stmt with
    | (r, engine, ses) => (r, ⟨engine, s.sessions.set i ses⟩)

/-- A history of statements of the sessions of a server and their results. -/
def Server.run (env : SqlEnv) (s : Server) : List (Nat × Option Stmt) →
    List (Option (Res Unit)) × Server
  | [] => ([], s)
  | (i, stmt) :: rest =>
    let (r, s) := s.step env i stmt
    let (rs, s) := s.run env rest
    (r :: rs, s)

/-- A server with a new, initialised store and sessions with the given defaults. -/
def Server.initial (env : SqlEnv) (defaults : List (Identifier × Identifier)) : Server :=
  ⟨EngineState.initial env.toEngineEnv, defaults.map (fun d => newSession d.1 d.2)⟩

end Maho
