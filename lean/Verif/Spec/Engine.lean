import Verif.Model.Engine
import Verif.Spec.Storage
/-
What the catalog should be: a set of database names, a set of schemas, a set of tables and the
next table id, with the operations of the engine as operations on these sets.
-/
namespace Maho.Spec
open Maho

/-- A table of the catalog. -/
structure CatalogTable where
  database : Bytes
  schema : Bytes
  table : Bytes
  id : Nat
  definition : Definition

/-- The catalog. The lists are read as sets, newest first. -/
structure Catalog where
  databases : List Bytes
  schemas : List (Bytes × Bytes)
  tables : List CatalogTable
  next : Nat

/-- Put a name in its place in an ascending list, once. -/
def insertName (s : Bytes) : List Bytes → List Bytes
  | [] => [s]
  | x :: xs =>
    match bytesCompare s x with
    | .lt => s :: x :: xs
    | .eq => x :: xs
    | .gt => x :: insertName s xs

/-- The names in ascending order, each once. -/
def sortNames (l : List Bytes) : List Bytes := l.foldr insertName []

/-- The name of the table. -/
def CatalogTable.named (e : CatalogTable) (d s n : Bytes) : Bool :=
  e.database == d && e.schema == s && e.table == n

/-- The table with the name. -/
def Catalog.find (c : Catalog) (d s n : Bytes) : Option CatalogTable :=
  c.tables.find? (fun e => e.named d s n)

/-- Create a database: refused if it exists. -/
def Catalog.createDatabase (c : Catalog) (d : Bytes) : Bool × Catalog :=
  if d ∈ c.databases then (false, c) else (true, { c with databases := d :: c.databases })

/-- Drop a database: refused if it does not exist. -/
def Catalog.dropDatabase (c : Catalog) (d : Bytes) (ifExists : Bool) : Bool × Catalog :=
  if d ∈ c.databases then (true, { c with databases := c.databases.filter (· != d) })
  else (ifExists, c)

/-- Create a schema: the database must exist and the schema must not. -/
def Catalog.createSchema (c : Catalog) (d s : Bytes) : Bool × Catalog :=
  if d ∉ c.databases then (false, c)
  else if (d, s) ∈ c.schemas then (false, c)
  else (true, { c with schemas := (d, s) :: c.schemas })

/-- Drop a schema: refused if it does not exist. -/
def Catalog.dropSchema (c : Catalog) (d s : Bytes) (ifExists : Bool) : Bool × Catalog :=
  if (d, s) ∈ c.schemas then (true, { c with schemas := c.schemas.filter (· != (d, s)) })
  else (ifExists, c)

/-- The schemas of a database in ascending order. -/
def Catalog.schemasOf (c : Catalog) (d : Bytes) : List Bytes :=
  sortNames ((c.schemas.filter (fun p => p.1 == d)).map (·.2))

/-- Create a table: the schema must exist and the name must be free. An id is used up also if the
name is not free. -/
def Catalog.createTable (c : Catalog) (d s n : Bytes) (df : Definition) : Bool × Catalog :=
  if (d, s) ∉ c.schemas then (false, c)
  else if (c.find d s n).isSome then (false, { c with next := c.next + 1 })
  else (true, { c with tables := ⟨d, s, n, c.next, df⟩ :: c.tables, next := c.next + 1 })

/-- The committed catalog and the catalog of the open transaction. -/
structure CatalogState where
  committed : Catalog
  active : Option Catalog

/-- Success or an error. -/
def outcome (b : Bool) : Res Unit := if b then .ok () else .err .other

/-- An operation in its own transaction: its effect is committed if it succeeds. Waits while a
transaction is open. -/
def CatalogState.auto (s : CatalogState) (f : Catalog → Bool × Catalog) :
    EngineReply × CatalogState :=
  match s.active with
  | some _ => (.blocked, s)
  | none =>
    let (b, c) := f s.committed
    (.done (outcome b), if b then ⟨c, none⟩ else s)

/-- An operation in the open transaction. Without one it panics. -/
def CatalogState.write (s : CatalogState) (f : Catalog → Bool × Catalog) :
    EngineReply × CatalogState :=
  match s.active with
  | none => (.done .panic, s)
  | some c =>
    let (b, c) := f c
    (.done (outcome b), ⟨s.committed, some c⟩)

/-- A read in the open transaction. Without one it panics. -/
def CatalogState.read {α : Type} (s : CatalogState) (mk : Res α → EngineReply)
    (f : Catalog → Res α) : EngineReply × CatalogState :=
  match s.active with
  | none => (mk .panic, s)
  | some c => (mk (f c), s)

/-- The operations on the catalog. Names are compared as texts. -/
def catalogStep (env : EngineEnv) (s : CatalogState) : EngineOp → EngineReply × CatalogState
  | .createDatabase dn opts =>
    if opts > 0 then (.done (.err .other), s)
    else s.auto (fun c => c.createDatabase (env.name dn))
  | .dropDatabase dn ifExists => s.auto (fun c => c.dropDatabase (env.name dn) ifExists)
  | .listDatabases =>
    match s.active with
    | some _ => (.blocked, s)
    | none => (.ids (.ok ((sortNames s.committed.databases).map env.ident)), s)
  | .begin =>
    match s.active with
    | some _ => (.blocked, s)
    | none => (.done (.ok ()), ⟨s.committed, some s.committed⟩)
  | .commit =>
    match s.active with
    | some c => (.done (.ok ()), ⟨c, none⟩)
    | none => (.done (.err .other), s)
  | .rollback =>
    match s.active with
    | some _ => (.done (.ok ()), ⟨s.committed, none⟩)
    | none => (.done (.err .other), s)
  | .createSchema sn =>
    s.write (fun c => c.createSchema (env.name sn.database) (env.name sn.schema))
  | .dropSchema sn ifExists =>
    s.write (fun c => c.dropSchema (env.name sn.database) (env.name sn.schema) ifExists)
  | .listSchemas dn =>
    s.read .ids (fun c =>
      if env.name dn ∈ c.databases then .ok ((c.schemasOf (env.name dn)).map env.ident)
      else .err .other)
  | .openTable tn =>
    s.read .table (fun c =>
      match c.find (env.name tn.database) (env.name tn.schema) (env.name tn.table) with
      | none => .err .other
      | some e => .ok ⟨tn, e.definition.mapIds env.storedId, BitVec.ofNat 32 e.id⟩)
  | .createTable tn colNames colTypes primary =>
    s.write (fun c => c.createTable (env.name tn.database) (env.name tn.schema)
      (env.name tn.table) ⟨1#32, colNames, colTypes, primary⟩)
  | .dropTable _ => (.done (.ok ()), s)
  | .listTables _ => (.ids (.ok []), s)
  | .createIndex _ _ _ => (.done (.ok ()), s)
  | .dropIndex _ _ => (.done (.ok ()), s)

/-- A history of operations and their replies. -/
def catalogRun (env : EngineEnv) (s : CatalogState) : List EngineOp →
    List EngineReply × CatalogState
  | [] => ([], s)
  | op :: ops =>
    let (r, s) := catalogStep env s op
    let (rs, s) := catalogRun env s ops
    (r :: rs, s)

/-- The definitions of the four system tables. A name column is a string of at most 128 bytes. -/
def nameColumn : ColumnType := ⟨.string, 128#32, false, true⟩
@[inherit_doc nameColumn]
def numberColumn : ColumnType := ⟨.int64, 8#32, false, true⟩
@[inherit_doc nameColumn]
def systemDefinition (env : EngineEnv) (cols : List (String × ColumnType)) (keys : Nat) : Definition :=
  ⟨1#32, cols.map (fun c => env.ident (ascii c.1)), cols.map (·.2),
    (List.range keys).map (fun i => makeColumnKey (BitVec.ofNat 32 i) false)⟩

/-- The system tables: name, id and definition. -/
def systemTables (env : EngineEnv) : List (String × Nat × Definition) :=
  [("sequences", 16, systemDefinition env [("sequence", nameColumn), ("current", numberColumn)] 1),
   ("databases", 17, systemDefinition env [("database", nameColumn)] 1),
   ("schemas", 18, systemDefinition env [("database", nameColumn), ("schema", nameColumn)] 2),
   ("tables", 19, systemDefinition env [("database", nameColumn), ("schema", nameColumn),
      ("table", nameColumn), ("table_id", numberColumn), ("type", ⟨.bytes, 8192#32, false, true⟩)] 3)]

/-- The catalog of a new system. -/
def Catalog.initial (env : EngineEnv) : Catalog where
  databases := [ascii "system", ascii "maho"]
  schemas := [(ascii "system", ascii "info"), (ascii "maho", ascii "public")]
  tables := ((systemTables env).map
    (fun p => ⟨ascii "system", ascii "info", ascii p.1, p.2.1, p.2.2⟩)).reverse
  next := 512

/-- The encoded definitions of the system tables fit their column. -/
def SystemFits (env : EngineEnv) : Prop :=
  ∀ p ∈ systemTables env, (env.encodeDef p.2.2).length ≤ 8192

/-- A name fits its column. -/
def Short (env : EngineEnv) (id : Identifier) : Prop := (env.name id).length ≤ 128

/-- The names and definitions in the operation fit their columns. -/
def SmallOp (env : EngineEnv) : EngineOp → Prop
  | .createDatabase dn _ | .dropDatabase dn _ | .listSchemas dn => Short env dn
  | .createSchema sn | .dropSchema sn _ => Short env sn.database ∧ Short env sn.schema
  | .openTable tn => Short env tn.database ∧ Short env tn.schema ∧ Short env tn.table
  | .createTable tn colNames colTypes primary =>
    (Short env tn.database ∧ Short env tn.schema ∧ Short env tn.table) ∧
      (env.encodeDef ⟨1#32, colNames, colTypes, primary⟩).length ≤ 8192
  | _ => True

/-! ### Go structs -/

/-- A value of a Go type that is neither a pointer nor a slice. -/
def ScalarOf (env : EngineEnv) : Kind → Scalar → Prop
  | .bool, .bool _ | .string, .str _ | .float64, .float _ | .int, .int _ | .int64, .int _ => True
  | .int8, .int i => -2 ^ 7 ≤ i.toInt ∧ i.toInt < 2 ^ 7
  | .int16, .int i => -2 ^ 15 ≤ i.toInt ∧ i.toInt < 2 ^ 15
  | .int32, .int i => -2 ^ 31 ≤ i.toInt ∧ i.toInt < 2 ^ 31
  | .float32, .float f => env.float32 f = f
  | _, _ => False

/-- A value of the type of the field. -/
def FieldOf (env : EngineEnv) (fld : Field) : FieldVal → Prop
  | .plain v => fld.pointer = false ∧ ScalarOf env fld.kind v
  | .pointer none => fld.pointer = true
  | .pointer (some v) => fld.pointer = true ∧ ScalarOf env fld.kind v
  | .slice _ => fld.pointer = false ∧ fld.kind = .bytes

/-- A Go struct with fields of the right types. -/
def Struct.Valid (env : EngineEnv) (st : Struct) : Prop := All2 (FieldOf env) st.typ st.vals

/-- The name of the field begins with an upper case letter. -/
def FieldExported (fld : Field) : Prop :=
  ∃ b, fld.name.head? = some b ∧ 65 ≤ b.toNat ∧ b.toNat ≤ 90

/-- The fields and values that can be read back: exported fields, and pointers only to bool,
string, float64 and int64. -/
def Recoverable (fld : Field) (v : FieldVal) : Prop :=
  FieldExported fld ∧
    ∀ s, v = .pointer (some s) → fld.kind ∈ [Kind.bool, .string, .float64, .int64]

/-- Every field can be read back. -/
def RecoverableStruct (st : Struct) : Prop :=
  ∀ (i : Nat) fld v, st.typ[i]? = some fld → st.vals[i]? = some v → Recoverable fld v

/-- The same value of a field, where a nil slice and an empty slice are the same in a column that
is not null. -/
def SameField (ct : ColumnType) (v w : FieldVal) : Prop :=
  v = w ∨ ct.notNull = true ∧ v = .slice none ∧ w = .slice (some [])

/-- The same struct, where nil slices and empty slices are the same in columns that are not
null. -/
def SameStruct (ti : TypedInfo) (st st' : Struct) : Prop :=
  st.typ = st'.typ ∧ st.vals.length = st'.vals.length ∧
    ∀ (i : Nat) ct v w, ti.colTypes[i]? = some ct → st.vals[i]? = some v → st'.vals[i]? = some w →
      SameField ct v w

end Maho.Spec
