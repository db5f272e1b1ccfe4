import Verif.Spec.Print
/-
Which statements can be printed and read back. Nothing here refers to how they are printed or read,
except for the text of names and of numbers.
-/
namespace Maho.Spec
open Maho

/-- The name of a schema that needs no quotes. -/
def PlainSchema (env : ParseEnv) (sn : SchemaName) : Prop :=
  Plain env sn.schema ∧ (sn.database = 0 ∨ Plain env sn.database)

/-- A key with at least one column, without repetition, and a direction for every column. -/
def PlainKey (env : ParseEnv) (k : IndexKey) : Prop :=
  k.columns ≠ [] ∧ k.columns.Nodup ∧ (∀ c ∈ k.columns, Plain env c) ∧
    k.reverse.length = k.columns.length

/-- A type that its printed name stands for: `BOOL`, `BYTES`, `DOUBLE` and `INT`. -/
def PlainType (ct : ColumnType) : Prop :=
  ct.fixed = false ∧
    ((ct.type = .bool ∧ ct.size = 1) ∨ (ct.type = .bytes ∧ ct.size = BitVec.ofNat 32 (2 ^ 32 - 2)) ∨
      (ct.type = .float64 ∧ ct.size = 8) ∨ (ct.type = .int64 ∧ ct.size = 4))

/-- A column. -/
def PrintableColumn (env : ParseEnv) (col : Identifier × ColumnType × Option Expr) : Prop :=
  Plain env col.1 ∧ PlainType col.2.1 ∧ PrintableOpt env col.2.2

/-- A constraint of the whole table, with a name. -/
def PrintableConstraint (env : ParseEnv) (c : Constraint) : Prop :=
  c.name ≠ 0 ∧ Plain env c.name ∧ c.colNum = -1 ∧
    match c.type with
    | .primary => PlainKey env c.key ∧ c.key.unique = true ∧ c.check.isNone = true
    | .unique => PlainKey env c.key ∧ c.key.unique = true ∧ c.check.isNone = true
    | .check => c.key = ⟨false, [], []⟩ ∧ c.check.isSome = true ∧ PrintableOpt env c.check
    | _ => False

/-- A key constraint after another constraint has another name and another key, and is not the
second primary key. -/
def Compatible (d c : Constraint) : Prop :=
  c.type ≠ .check → d.name ≠ c.name ∧ ¬ (d.type = .primary ∧ c.type = .primary) ∧
    ¬ (d.key.columns = c.key.columns ∧ d.key.reverse = c.key.reverse)

/-- A foreign key with a name and without actions. -/
def PlainForeignKey (env : ParseEnv) (fk : ForeignKey) : Prop :=
  fk.name ≠ 0 ∧ Plain env fk.name ∧ fk.fkCols ≠ [] ∧ (∀ c ∈ fk.fkCols, Plain env c) ∧
    PlainTable env fk.refTable ∧ (∀ c ∈ fk.refCols, Plain env c) ∧
    fk.onDelete = .noAction ∧ fk.onUpdate = .noAction

/-- The definition of a table. -/
structure PrintableTable (env : ParseEnv) (s : CreateTable) : Prop where
  table : PlainTable env s.table
  nonempty : s.columns ≠ []
  distinct : s.columns.Nodup
  types : s.columnTypes.length = s.columns.length
  defaults : s.columnDefaults.length = s.columns.length
  columns : ∀ col ∈ s.columns.zip (s.columnTypes.zip s.columnDefaults), PrintableColumn env col
  constraints : ∀ c ∈ s.constraints, PrintableConstraint env c
  compatible : s.constraints.Pairwise Compatible
  foreignKeys : ∀ fk ∈ s.foreignKeys, PlainForeignKey env fk

/-- An action of `ALTER TABLE`. -/
def PlainAction (env : ParseEnv) : AlterAction → Prop
  | .addForeignKey fk => PlainForeignKey env fk
  | .dropConstraint name ifExists column type =>
    (name ≠ 0 ∧ Plain env name ∧ column = 0 ∧ type = .none) ∨
      (name = 0 ∧ ifExists = false ∧ Plain env column ∧ (type = .default ∨ type = .notNull))

/-- The value of a variable is the text of a constant that is not a string. -/
def PlainSetting (env : ParseEnv) (value : Bytes) : Prop :=
  value = ascii "true" ∨ value = ascii "false" ∨
    (∃ i : BitVec 64, i.toInt ≠ -2 ^ 63 ∧ value = formatInt i.toInt) ∨
    ∃ f l, (∀ r ∈ l, r < 128) ∧ text l = env.formatFloat f ∧ Spells env.toScanEnv (.float f) l ∧
      value = env.formatFloat f

/-- An option of `CREATE DATABASE`: the value is a name or an integer. -/
def PlainOption (env : ParseEnv) (o : Identifier × Bytes) : Prop :=
  Plain env o.1 ∧ ((∃ id, Plain env id ∧ o.2 = env.string id) ∨
    ∃ i : BitVec 64, i.toInt ≠ -2 ^ 63 ∧ o.2 = formatInt i.toInt)

/-- The statement can be printed and read back. There is no `DEFAULT` as a value, no `VERBOSE`, and
`COPY` has columns. -/
def PrintableStmt (env : ParseEnv) : Stmt → Prop
  | .begin => True
  | .commit => True
  | .rollback => True
  | .set var value => (var = Kw.DATABASE ∨ var = Kw.SCHEMA ∨ 0 ≤ var) ∧ Legible env var ∧
      PlainSetting env value
  | .explain q verbose => (∃ rs f c g h o, q = .select rs f c g h o) ∧ PrintableQuery env q ∧
      verbose = false
  | .query q => PrintableQuery env q
  | .createTable s => PrintableTable env s
  | .createIndex index table key _ => Plain env index ∧ PlainTable env table ∧ PlainKey env key
  | .createDatabase database options => Plain env database ∧ (∀ o ∈ options, PlainOption env o) ∧
      (options.map (·.1)).Nodup
  | .createSchema schema => PlainSchema env schema
  | .alterTable table actions => PlainTable env table ∧ actions ≠ [] ∧
      ∀ a ∈ actions, PlainAction env a
  | .dropTable _ _ tables => tables ≠ [] ∧ ∀ t ∈ tables, PlainTable env t
  | .dropIndex table index _ => PlainTable env table ∧ Plain env index
  | .dropDatabase _ database => Plain env database
  | .dropSchema _ schema => PlainSchema env schema
  | .copy table columns input delimiter => PlainTable env table ∧ columns ≠ [] ∧ columns.Nodup ∧
      (∀ c ∈ columns, Plain env c) ∧ input = [] ∧ delimiter < 128 ∧ delimiter ≠ 39
  | .delete table cond => PlainTable env table ∧ PrintableOpt env cond
  | .insert table columns rows => PlainTable env table ∧ columns.Nodup ∧
      (∀ c ∈ columns, Plain env c) ∧ rows ≠ [] ∧
      ∀ row ∈ rows, row ≠ [] ∧ ∀ o ∈ row, o.isSome = true ∧ PrintableOpt env o
  | .update table updates cond => PlainTable env table ∧ updates ≠ [] ∧
      (∀ u ∈ updates, Plain env u.1 ∧ u.2.isSome = true ∧ PrintableOpt env u.2) ∧
      PrintableOpt env cond

/-- A change of all expressions and queries in a statement. -/
def changeStmt (f : Expr → Expr) (g : Query → Query) : Stmt → Stmt
  | .explain q verbose => .explain (g q) verbose
  | .query q => .query (g q)
  | .createTable s => .createTable { s with
      columnDefaults := s.columnDefaults.map (·.map f)
      constraints := s.constraints.map fun c => { c with check := c.check.map f } }
  | .delete table cond => .delete table (cond.map f)
  | .insert table columns rows => .insert table columns (rows.map fun row => row.map (·.map f))
  | .update table updates cond =>
    .update table (updates.map fun u => (u.1, u.2.map f)) (cond.map f)
  | s => s

/-- The statement with a node for parentheses around every operation, and no other. -/
def parensStmt : Stmt → Stmt := changeStmt parens parensQuery

/-- The statement without the nodes that stand for parentheses. -/
def bareStmt : Stmt → Stmt := changeStmt bare bareQuery

end Maho.Spec
