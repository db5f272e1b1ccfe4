import Verif.Model.Engine
/-
Model of the syntax trees in parser/sql. Interfaces become inductive types; a nil interface
becomes `none`. Positions in the source text are not kept (the trees do not contain them).
-/
namespace Maho

/-- parser/sql/expr.go:26-50 `Op`. -/
inductive SqlOp where
  | add | and | binaryAnd | binaryOr | concat | divide | equal | greaterEqual | greaterThan
  | lessEqual | lessThan | lShift | modulo | multiply | negate | noOp | notEqual | not | or
  | rShift | subtract
deriving DecidableEq

/-- parser/sql/expr.go:89-96 `SubqueryOp`. -/
inductive SubqueryOp where
  | scalar | exists | any | all
deriving DecidableEq

/-- parser/sql/query.go:298-308 `JoinType`; `NoJoin` is never stored. -/
inductive JoinType where
  | join | leftJoin | rightJoin | fullJoin | crossJoin
deriving DecidableEq

mutual

/-- parser/sql/expr.go:10-103: the implementations of `Expr`. A `Ref` has at least one
identifier. -/
inductive Expr where
  /-- `Literal` -/
  | lit (v : Option Value)
  /-- `Ref` -/
  | ref (id : Identifier) (ids : List Identifier)
  /-- `SExpr` -/
  | call (name : Identifier) (args : List Expr)
  /-- `UnaryExpr` -/
  | unary (op : SqlOp) (e : Expr)
  /-- `BinaryExpr` -/
  | binary (op : SqlOp) (l r : Expr)
  /-- `Subquery`; the zero value of `ExprOp` is `AddOp` -/
  | subquery (op : SubqueryOp) (exprOp : SqlOp) (e : Option Expr) (q : Query)

/-- parser/sql/query.go:11-44 and 318-324: the implementations of `FromItem`. The alias 0 means
that there is none. A nil and an empty `ColumnAliases` or `Using` are not distinguished: the parser
never makes an empty one that is not nil. -/
inductive FromItem where
  /-- `FromTableAlias` -/
  | table (tn : TableName) (alias : Identifier)
  /-- `FromIndexAlias` -/
  | index (tn : TableName) (index alias : Identifier)
  /-- `FromStmt` -/
  | stmt (q : Query) (alias : Identifier) (columns : List Identifier)
  /-- `FromJoin` -/
  | join (l r : FromItem) (type : JoinType) (on : Option Expr) (cols : List Identifier)

/-- parser/sql/query.go:212-223: the implementations of `SelectResult`. -/
inductive SelectResult where
  | table (t : Identifier)
  | expr (e : Expr) (alias : Identifier)

/-- The statements that can be subqueries: `Select` (parser/sql/query.go:230-237), `Values`
(query.go:184-186) and `Show` (stmt.go:54-56). No results means `*`. The expression of an
`OrderBy` is always a reference with one identifier (parser/parser.go:1501), so it is that
identifier here, with the flag `Reverse`. -/
inductive Query where
  | select (results : List SelectResult) (fromItem : Option FromItem) (cond : Option Expr)
      (groupBy : List Expr) (having : Option Expr) (orderBy : List (Identifier × Bool))
  | values (rows : List (List Expr))
  | show (var : Identifier)

end

/-- parser/sql/datadef.go:10-14 `IndexKey`. -/
structure IndexKey where
  unique : Bool
  columns : List Identifier
  reverse : List Bool
deriving DecidableEq

/-- The zero value of `IndexKey`. -/
def IndexKey.zero : IndexKey := ⟨false, [], []⟩

/-- parser/sql/datadef.go:47-55 `ConstraintType`. `none` is the zero value, which the parser
leaves in `DropConstraint.Type`. -/
inductive ConstraintType where
  | none | default | notNull | primary | unique | check
deriving DecidableEq

/-- parser/sql/datadef.go:74-80 `Constraint`. -/
structure Constraint where
  type : ConstraintType
  name : Identifier
  colNum : Int
  key : IndexKey
  check : Option Expr

/-- parser/sql/datadef.go:99-107 `RefAction`. -/
inductive RefAction where
  | noAction | restrict | cascade | setNull | setDefault
deriving DecidableEq

/-- parser/sql/datadef.go:109-117 `ForeignKey`; `FKTable` is never set. -/
structure ForeignKey where
  name : Identifier
  fkCols : List Identifier
  refTable : TableName
  refCols : List Identifier
  onDelete : RefAction
  onUpdate : RefAction
deriving DecidableEq

/-- parser/sql/datadef.go:145-153 `CreateTable`. -/
structure CreateTable where
  table : TableName
  columns : List Identifier
  columnTypes : List ColumnType
  columnDefaults : List (Option Expr)
  ifNotExists : Bool
  constraints : List Constraint
  foreignKeys : List ForeignKey

/-- parser/sql/datadef.go:248-261: the implementations of `AlterAction`. -/
inductive AlterAction where
  | addForeignKey (fk : ForeignKey)
  | dropConstraint (name : Identifier) (ifExists : Bool) (column : Identifier)
      (type : ConstraintType)
deriving DecidableEq

/-- The implementations of `Stmt`. `none` in a row of `insert` and in `update` is `DEFAULT`. The
reader of `Copy` is the input that is left; `Options` of `DropDatabase` is never set. -/
inductive Stmt where
  | begin
  | commit
  | rollback
  | set (var : Identifier) (value : Bytes)
  | explain (q : Query) (verbose : Bool)
  | query (q : Query)
  | createTable (s : CreateTable)
  | createIndex (index : Identifier) (table : TableName) (key : IndexKey) (ifNotExists : Bool)
  | createDatabase (database : Identifier) (options : List (Identifier × Bytes))
  | createSchema (schema : SchemaName)
  | alterTable (table : TableName) (actions : List AlterAction)
  | dropTable (ifExists cascade : Bool) (tables : List TableName)
  | dropIndex (table : TableName) (index : Identifier) (ifExists : Bool)
  | dropDatabase (ifExists : Bool) (database : Identifier)
  | dropSchema (ifExists : Bool) (schema : SchemaName)
  | copy (table : TableName) (columns : List Identifier) (input : List Nat) (delimiter : Nat)
  | delete (table : TableName) (cond : Option Expr)
  | insert (table : TableName) (columns : List Identifier) (rows : List (List (Option Expr)))
  | update (table : TableName) (updates : List (Identifier × Option Expr)) (cond : Option Expr)

/-- parser/sql/stmt.go:9-12 `Resolver`. -/
structure Resolver where
  table : TableName → TableName
  schema : SchemaName → SchemaName

/-- The methods `Resolve` in parser/sql/stmt.go, datadef.go and query.go. `Explain` passes it on
to a `Select`, which does nothing. -/
def Stmt.resolve (r : Resolver) : Stmt → Stmt
  | .createTable s => .createTable { s with table := r.table s.table }
  | .createIndex index table key ifNotExists => .createIndex index (r.table table) key ifNotExists
  | .createSchema schema => .createSchema (r.schema schema)
  | .alterTable table actions => .alterTable (r.table table) actions
  | .dropTable ifExists cascade tables => .dropTable ifExists cascade (tables.map r.table)
  | .dropIndex table index ifExists => .dropIndex (r.table table) index ifExists
  | .dropSchema ifExists schema => .dropSchema ifExists (r.schema schema)
  | .copy table columns input delimiter => .copy (r.table table) columns input delimiter
  | .delete table cond => .delete (r.table table) cond
  | .insert table columns rows => .insert (r.table table) columns rows
  | .update table updates cond => .update (r.table table) updates cond
  | .begin => .begin
  | .commit => .commit
  | .rollback => .rollback
  | .set var value => .set var value
  | .explain q verbose => .explain q verbose
  | .query q => .query q
  | .createDatabase database options => .createDatabase database options
  | .dropDatabase ifExists database => .dropDatabase ifExists database

end Maho
