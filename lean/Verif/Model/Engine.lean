import Verif.Model.Typed
/-
Model of engine/engine.go and engine/init.go. The operations of a transaction are functions on
the tree of the store's transaction (Model/World.lean shows that a transaction works on its own
tree and that commit makes it the committed one).
-/
namespace Maho

/-! types/identifier.go:16-63: the identifiers of the system names. -/
def idDatabases : Identifier := 16
def idInfo : Identifier := 22
def idMaho : Identifier := 28
def idPublic : Identifier := 33
def idSchemas : Identifier := 37
def idSequences : Identifier := 38
def idSystem : Identifier := 41
def idTables : Identifier := 42

/-- types/name.go:13-16 `SchemaName`. -/
structure SchemaName where
  database : Identifier
  schema : Identifier
deriving DecidableEq

/-! engine/engine.go:81-89: the ids of the system tables. -/
def sequencesTableId : TableId := engineTableId
def databasesTableId : TableId := engineTableId + 1#32
def schemasTableId : TableId := engineTableId + 2#32
def tablesTableId : TableId := engineTableId + 3#32

/-- engine/engine.go:87 `maxReservedTableId`. -/
def maxReservedTableId : TableId := 511#32

/-- engine/engine.go:88 `nextTableIdSequence`. -/
def nextTableIdSequence : Bytes := ascii "next_table_id"

/-- The tag of the name columns in engine/engine.go:108-126. -/
def nameTag : Bytes := ascii "size=128,primary"

/-- engine/engine.go:108-111 `sequencesRow`. -/
def sequencesFields : List Field :=
  [⟨ascii "Sequence", nameTag, false, .string⟩, ⟨ascii "Current", [], false, .int64⟩]

/-- engine/engine.go:113-115 `databasesRow`. -/
def databasesFields : List Field := [⟨ascii "Database", nameTag, false, .string⟩]

/-- engine/engine.go:117-120 `schemasRow`. -/
def schemasFields : List Field :=
  [⟨ascii "Database", nameTag, false, .string⟩, ⟨ascii "Schema", nameTag, false, .string⟩]

/-- engine/engine.go:122-128 `tablesRow`. -/
def tablesFields : List Field :=
  [⟨ascii "Database", nameTag, false, .string⟩, ⟨ascii "Schema", nameTag, false, .string⟩,
   ⟨ascii "Table", nameTag, false, .string⟩, ⟨ascii "TableId", [], false, .int64⟩,
   ⟨ascii "Type", ascii "size=8192,notnull", false, .bytes⟩]

/-- The value of a package variable initialised with `MakeTypedInfo`; a panic would stop the
program. -/
def infoOf : Res TypedInfo → TypedInfo
  | .ok ti => ti
  | _ => default

/-! engine/engine.go:97-106: the system tables. -/
def sequencesInfo (env : EngineEnv) : TypedInfo :=
  infoOf (makeTypedInfo env sequencesTableId ⟨idSystem, idInfo, idSequences⟩ sequencesFields)
def databasesInfo (env : EngineEnv) : TypedInfo :=
  infoOf (makeTypedInfo env databasesTableId ⟨idSystem, idInfo, idDatabases⟩ databasesFields)
def schemasInfo (env : EngineEnv) : TypedInfo :=
  infoOf (makeTypedInfo env schemasTableId ⟨idSystem, idInfo, idSchemas⟩ schemasFields)
def tablesInfo (env : EngineEnv) : TypedInfo :=
  infoOf (makeTypedInfo env tablesTableId ⟨idSystem, idInfo, idTables⟩ tablesFields)

/-! Values of the row structs. -/
def sequencesRow (sequence : Bytes) (current : BitVec 64) : Struct :=
  ⟨sequencesFields, [.plain (.str sequence), .plain (.int current)]⟩
def databasesRow (database : Bytes) : Struct := ⟨databasesFields, [.plain (.str database)]⟩
def schemasRow (database schema : Bytes) : Struct :=
  ⟨schemasFields, [.plain (.str database), .plain (.str schema)]⟩
def tablesRow (database schema table : Bytes) (tableId : BitVec 64) (type : Option Bytes) : Struct :=
  ⟨tablesFields, [.plain (.str database), .plain (.str schema), .plain (.str table),
    .plain (.int tableId), .slice type]⟩

/-- engine/engine.go:151-154: what `CreateDatabase` does in its transaction. -/
def createDatabaseTx (env : EngineEnv) (t : Tree) (dn : Identifier) : Res Unit × Tree :=
  typedInsert env t (databasesInfo env) [databasesRow (env.name dn)]

/-- engine/engine.go:166-169 and 257-260: the callback of the two `Drop` functions. -/
def dropRow (_ : Row) (_ : Bool) : Res Bool × Bool := (.ok true, true)

/-- engine/engine.go:161-180: what `DropDatabase` does in its transaction. -/
def dropDatabaseTx (env : EngineEnv) (t : Tree) (dn : Identifier) (ifExists : Bool) :
    Res Unit × Tree :=
  let dr := databasesRow (env.name dn)
  match typedDelete env (databasesInfo env) (some dr) (some dr) dropRow (false, t) with
  | (.panic, (_, t)) => (.panic, t)
  | (.err e, (_, t)) => (.err e, t)
  | (.ok (), (deleted, t)) =>
    if deleted then (.ok (), t)
    else if ifExists then (.ok (), t)
    else (.err .other, t)

/-- A string field of a struct; the callers know that it is one. -/
def Struct.strField (st : Struct) (i : Nat) : Bytes :=
  match st.vals[i]? with
  | some (.plain (.str s)) => s
  | _ => []

/-- An integer field of a struct. -/
def Struct.intField (st : Struct) (i : Nat) : BitVec 64 :=
  match st.vals[i]? with
  | some (.plain (.int n)) => n
  | _ => 0#64

/-- A slice field of a struct. -/
def Struct.bytesField (st : Struct) (i : Nat) : Bytes :=
  match st.vals[i]? with
  | some (.slice v) => v.getD []
  | _ => []

/-- engine/engine.go:190-196: the callback of `ListDatabases`. -/
def listDatabaseRow (env : EngineEnv) (row : Row) (s : List Identifier × Tree) :
    Res Unit × (List Identifier × Tree) :=
  match (databasesInfo env).rowToStruct env row with
  | .panic => (.panic, s)
  | .err e => (.err e, s)
  | .ok dr => (.ok (), (s.1 ++ [env.ident (dr.strField 0)], s.2))

/-- engine/engine.go:188-205: what `ListDatabases` does in its transaction. -/
def listDatabasesTx (env : EngineEnv) (t : Tree) : Res (List Identifier) × Tree :=
  match typedSelect env (databasesInfo env) none none
      (fun _ _ row s => listDatabaseRow env row s) ([], t) with
  | (.panic, (_, t)) => (.panic, t)
  | (.err e, (_, t)) => (.err e, t)
  | (.ok (), (databases, t)) => (.ok databases, t)

/-- engine/engine.go:232-248 `CreateSchema`. -/
def createSchema (env : EngineEnv) (t : Tree) (sn : SchemaName) : Res Unit × Tree :=
  match typedLookup env t (databasesInfo env) (databasesRow (env.name sn.database)) with
  | .panic => (.panic, t)
  | .err .eof => (.err .other, t)
  | .err .other => (.err .other, t)
  | .ok _ =>
    typedInsert env t (schemasInfo env)
      [schemasRow (env.name sn.database) (env.name sn.schema)]

/-- engine/engine.go:250-272 `DropSchema`. -/
def dropSchema (env : EngineEnv) (t : Tree) (sn : SchemaName) (ifExists : Bool) :
    Res Unit × Tree :=
  let sr := schemasRow (env.name sn.database) (env.name sn.schema)
  match typedDelete env (schemasInfo env) (some sr) (some sr) dropRow (false, t) with
  | (.panic, (_, t)) => (.panic, t)
  | (.err e, (_, t)) => (.err e, t)
  | (.ok (), (deleted, t)) =>
    if deleted then (.ok (), t)
    else if ifExists then (.ok (), t)
    else (.err .other, t)

/-- engine/engine.go:291-301: the callback of `ListSchemas`; `io.EOF` ends the scan. -/
def listSchemaRow (env : EngineEnv) (dn : Identifier) (row : Row) (s : List Identifier × Tree) :
    Res Unit × (List Identifier × Tree) :=
  match (schemasInfo env).rowToStruct env row with
  | .panic => (.panic, s)
  | .err e => (.err e, s)
  | .ok sr =>
    if sr.strField 0 ≠ env.name dn then (.err .eof, s)
    else (.ok (), (s.1 ++ [env.ident (sr.strField 1)], s.2))

/-- engine/engine.go:274-306 `ListSchemas`. -/
def listSchemas (env : EngineEnv) (t : Tree) (dn : Identifier) : Res (List Identifier) :=
  match typedLookup env t (databasesInfo env) (databasesRow (env.name dn)) with
  | .panic => .panic
  | .err .eof => .err .other
  | .err .other => .err .other
  | .ok _ =>
    match typedSelect env (schemasInfo env) (some (schemasRow (env.name dn) [])) none
        (fun _ _ row s => listSchemaRow env dn row s) ([], t) with
    | (.panic, _) => .panic
    | (.err e, _) => .err e
    | (.ok (), (schemas, _)) => .ok schemas

/-- engine/engine.go:75-79 `table`. -/
structure EngineTable where
  tn : TableName
  tt : Definition
  tid : TableId
deriving DecidableEq

/-- engine/engine.go:308-331 `OpenTable`; the table id is cut to 32 bits. -/
def openEngineTable (env : EngineEnv) (t : Tree) (tn : TableName) : Res EngineTable :=
  match typedLookup env t (tablesInfo env)
      (tablesRow (env.name tn.database) (env.name tn.schema) (env.name tn.table) 0#64 none) with
  | .panic => .panic
  | .err .eof => .err .other
  | .err .other => .err .other
  | .ok tr =>
    match env.decodeDef (tr.bytesField 4) with
    | none => .err .other
    | some tt => .ok ⟨tn, tt, (tr.intField 3).setWidth 32⟩

/-- engine/engine.go:359-368: the callback of `nextTableId`; the captured variable is `tid`. -/
def nextTableIdRow (env : EngineEnv) (row : Row) (tid : BitVec 64) : Res (Option Struct) × BitVec 64 :=
  match (sequencesInfo env).rowToStruct env row with
  | .panic => (.panic, tid)
  | .err e => (.err e, tid)
  | .ok sr =>
    let tid := sr.intField 1
    (.ok (some ⟨[⟨ascii "Current", [], false, .int64⟩], [.plain (.int (tid + 1#64))]⟩), tid)

/-- engine/engine.go:353-374 `nextTableId`. -/
def nextTableId (env : EngineEnv) (t : Tree) : Res (BitVec 64) × Tree :=
  let sr := sequencesRow nextTableIdSequence 0#64
  match typedUpdate env (sequencesInfo env) (some sr) (some sr) (nextTableIdRow env) (0#64, t) with
  | (.panic, (_, t)) => (.panic, t)
  | (.err e, (_, t)) => (.err e, t)
  | (.ok (), (tid, t)) => (.ok tid, t)

/-- engine/engine.go:376-414 `CreateTable`. -/
def createEngineTable (env : EngineEnv) (t : Tree) (tn : TableName) (colNames : List Identifier)
    (colTypes : List ColumnType) (primary : List ColumnKey) : Res Unit × Tree :=
  match typedLookup env t (schemasInfo env)
      (schemasRow (env.name tn.database) (env.name tn.schema)) with
  | .panic => (.panic, t)
  | .err .eof => (.err .other, t)
  | .err .other => (.err .other, t)
  | .ok _ =>
    let buf := env.encodeDef ⟨1#32, colNames, colTypes, primary⟩
    match nextTableId env t with
    | (.panic, t) => (.panic, t)
    | (.err e, t) => (.err e, t)
    | (.ok tid, t) =>
      typedInsert env t (tablesInfo env)
        [tablesRow (env.name tn.database) (env.name tn.schema) (env.name tn.table) tid (some buf)]

/-- engine/engine.go:416-419 `DropTable`: does nothing. -/
def dropEngineTable (t : Tree) (_ : TableName) : Res Unit × Tree := (.ok (), t)

/-- engine/engine.go:421-426 `ListTables`: always empty. -/
def listTables (_ : Tree) (_ : SchemaName) : Res (List Identifier) := .ok []

/-- engine/engine.go:428-433 `CreateIndex`: does nothing. -/
def createIndex (t : Tree) (_ : TableName) (_ : Identifier) (_ : List ColumnKey) :
    Res Unit × Tree := (.ok (), t)

/-- engine/engine.go:435-440 `DropIndex`: does nothing. -/
def dropIndex (t : Tree) (_ : TableName) (_ : Identifier) : Res Unit × Tree := (.ok (), t)

/-- engine/init.go:11-53 `initTables`. -/
def initTables (env : EngineEnv) : List (TypedInfo × List Struct) :=
  [(sequencesInfo env,
     [sequencesRow nextTableIdSequence ((maxReservedTableId + 1#32).zeroExtend 64)]),
   (databasesInfo env, [databasesRow (env.name idSystem), databasesRow (env.name idMaho)]),
   (schemasInfo env, [schemasRow (env.name idSystem) (env.name idInfo),
     schemasRow (env.name idMaho) (env.name idPublic)]),
   (tablesInfo env, [])]

/-- engine/init.go:55-69: the first loop of `initStore`. -/
def initLoop (env : EngineEnv) : List (TypedInfo × List Struct) → Tree → Res Unit × Tree
  | [], t => (.ok (), t)
  | (ti, structs) :: its, t =>
    match createTypedTable env t ti with
    | .panic => (.panic, t)
    | .err e => (.err e, t)
    | .ok t =>
      if structs.length = 0 then initLoop env its t
      else
        match typedInsert env t ti structs with
        | (.panic, t) => (.panic, t)
        | (.err e, t) => (.err e, t)
        | (.ok (), t) => initLoop env its t

/-- engine/init.go:73-86: the row of a system table in the table of tables. -/
def initTableRow (env : EngineEnv) (ti : TypedInfo) : Struct :=
  tablesRow (env.name ti.tn.database) (env.name ti.tn.schema) (env.name ti.tn.table)
    (ti.tid.zeroExtend 64) (some (env.encodeDef ti.definition))

/-- engine/init.go:54-89 `initStore`. -/
def initStore (env : EngineEnv) (t : Tree) : Res Unit × Tree :=
  match initLoop env (initTables env) t with
  | (.panic, t) => (.panic, t)
  | (.err e, t) => (.err e, t)
  | (.ok (), t) =>
    typedInsert env t (tablesInfo env) ((initTables env).map (fun it => initTableRow env it.1))

/-- The store as the engine sees it: the committed tree and the tree of the transaction that
holds the store's lock, if there is one. -/
structure EngineState where
  committed : Tree
  active : Option Tree
deriving DecidableEq

/-- engine/engine.go:130-142 `withTransaction`, and engine/init.go:91-100 `Init`. `none`: the
caller waits for the lock. After a panic nobody releases the lock. -/
def withTransaction {α : Type} (s : EngineState) (fn : Tree → Res α × Tree) :
    Option (Res α) × EngineState :=
  match s.active with
  | some _ => (none, s)
  | none =>
    match fn s.committed with
    | (.ok a, t) => (some (.ok a), ⟨t, none⟩)
    | (.err e, _) => (some (.err e), s)
    | (.panic, t) => (some .panic, ⟨s.committed, some t⟩)

/-- engine/init.go:91-100 `Init`. -/
def engineInit (env : EngineEnv) (s : EngineState) : Option (Res Unit) × EngineState :=
  withTransaction s (initStore env)

/-- engine/engine.go:144-156 `CreateDatabase`; `opts` is the number of options. -/
def createDatabase (env : EngineEnv) (s : EngineState) (dn : Identifier) (opts : Nat) :
    Option (Res Unit) × EngineState :=
  if opts > 0 then (some (.err .other), s)
  else withTransaction s (fun t => createDatabaseTx env t dn)

/-- engine/engine.go:158-182 `DropDatabase`. -/
def dropDatabase (env : EngineEnv) (s : EngineState) (dn : Identifier) (ifExists : Bool) :
    Option (Res Unit) × EngineState :=
  withTransaction s (fun t => dropDatabaseTx env t dn ifExists)

/-- engine/engine.go:184-206 `ListDatabases`. -/
def listDatabases (env : EngineEnv) (s : EngineState) :
    Option (Res (List Identifier)) × EngineState :=
  withTransaction s (listDatabasesTx env)

/-- engine/engine.go:208-212 `Begin`. `none`: the caller waits for the lock. -/
def EngineState.begin (s : EngineState) : Option EngineState :=
  match s.active with
  | some _ => none
  | none => some ⟨s.committed, some s.committed⟩

/-- engine/engine.go:214-221 `Commit` of the transaction that was begun last. -/
def EngineState.commit (s : EngineState) : Res Unit × EngineState :=
  match s.active with
  | some t => (.ok (), ⟨t, none⟩)
  | none => (.err .other, s)

/-- engine/engine.go:223-230 `Rollback` of the transaction that was begun last. -/
def EngineState.rollback (s : EngineState) : Res Unit × EngineState :=
  match s.active with
  | some _ => (.ok (), ⟨s.committed, none⟩)
  | none => (.err .other, s)

/-- A method of the transaction that was begun last; if it is completed its store transaction is
nil and the method panics. -/
def EngineState.inTx {α : Type} (s : EngineState) (fn : Tree → Res α × Tree) :
    Res α × EngineState :=
  match s.active with
  | none => (.panic, s)
  | some t =>
    let (r, t) := fn t
    (r, ⟨s.committed, some t⟩)

/-- The operations of the interfaces `Engine` and `Transaction` (engine/engine.go:16-40). -/
inductive EngineOp where
  | createDatabase (dn : Identifier) (opts : Nat)
  | dropDatabase (dn : Identifier) (ifExists : Bool)
  | listDatabases
  | begin
  | commit
  | rollback
  | createSchema (sn : SchemaName)
  | dropSchema (sn : SchemaName) (ifExists : Bool)
  | listSchemas (dn : Identifier)
  | openTable (tn : TableName)
  | createTable (tn : TableName) (colNames : List Identifier) (colTypes : List ColumnType)
      (primary : List ColumnKey)
  | dropTable (tn : TableName)
  | listTables (sn : SchemaName)
  | createIndex (tn : TableName) (iname : Identifier) (key : List ColumnKey)
  | dropIndex (tn : TableName) (iname : Identifier)

/-- What an operation returns. -/
inductive EngineReply where
  | done (r : Res Unit)
  | ids (r : Res (List Identifier))
  | table (r : Res EngineTable)
  /-- the caller waits for the lock of the store -/
  | blocked
deriving DecidableEq

/-- The reply of a call that may have to wait. -/
def replyOf {α : Type} (f : Res α → EngineReply) : Option (Res α) → EngineReply
  | none => .blocked
  | some r => f r

/-- One operation. `DropTable`, `ListTables`, `CreateIndex` and `DropIndex` do not use the store's
transaction, so they also succeed if it is completed. Nothing recovers from a panic of
`CreateDatabase`, `DropDatabase` and `ListDatabases`: it ends the program, and what the model says
about operations after it is of no interest. -/
def engineStep (env : EngineEnv) (s : EngineState) : EngineOp → EngineReply × EngineState
  | .createDatabase dn opts =>
    let (r, s) := createDatabase env s dn opts
    (replyOf .done r, s)
  | .dropDatabase dn ifExists =>
    let (r, s) := dropDatabase env s dn ifExists
    (replyOf .done r, s)
  | .listDatabases =>
    let (r, s) := listDatabases env s
    (replyOf .ids r, s)
  | .begin =>
    match s.begin with
    | none => (.blocked, s)
    | some s => (.done (.ok ()), s)
  | .commit =>
    let (r, s) := s.commit
    (.done r, s)
  | .rollback =>
    let (r, s) := s.rollback
    (.done r, s)
  | .createSchema sn =>
    let (r, s) := s.inTx (fun t => createSchema env t sn)
    (.done r, s)
  | .dropSchema sn ifExists =>
    let (r, s) := s.inTx (fun t => dropSchema env t sn ifExists)
    (.done r, s)
  | .listSchemas dn =>
    let (r, s) := s.inTx (fun t => (listSchemas env t dn, t))
    (.ids r, s)
  | .openTable tn =>
    let (r, s) := s.inTx (fun t => (openEngineTable env t tn, t))
    (.table r, s)
  | .createTable tn colNames colTypes primary =>
    let (r, s) := s.inTx (fun t => createEngineTable env t tn colNames colTypes primary)
    (.done r, s)
  | .dropTable tn => (.done (dropEngineTable s.committed tn).1, s)
  | .listTables sn => (.ids (listTables s.committed sn), s)
  | .createIndex tn iname key => (.done (createIndex s.committed tn iname key).1, s)
  | .dropIndex tn iname => (.done (dropIndex s.committed tn iname).1, s)

/-- A history of operations and their replies. -/
def engineRun (env : EngineEnv) (s : EngineState) : List EngineOp → List EngineReply × EngineState
  | [] => ([], s)
  | op :: ops =>
    let (r, s) := engineStep env s op
    let (rs, s) := engineRun env s ops
    (r :: rs, s)

/-- A new store, initialised. -/
def EngineState.initial (env : EngineEnv) : EngineState := (engineInit env ⟨[], none⟩).2

end Maho
