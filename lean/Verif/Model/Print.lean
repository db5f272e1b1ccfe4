import Verif.Model.Parse
/-
Model of the methods `String`: types/column.go, types/value.go and parser/sql.
-/
namespace Maho

/-- types/column.go:36-85 `ColumnType.String`. -/
def ColumnType.print (ct : ColumnType) : Res Bytes :=
  let sized (name : String) := .ok (ascii name ++ ascii "(" ++ natDigits ct.size.toNat ++ ascii ")")
  match ct.type with
  | .unknown => .ok (ascii "UNKNOWN")
  | .bool => .ok (ascii "BOOL")
  | .string =>
    if ct.size = 0 then .panic
    else if ct.fixed then sized "CHAR"
    else if ct.size.toNat = maxColumnSize then .ok (ascii "TEXT")
    else sized "VARCHAR"
  | .bytes =>
    if ct.size = 0 then .panic
    else if ct.fixed then sized "BINARY"
    else if ct.size.toNat = maxColumnSize then .ok (ascii "BYTES")
    else sized "VARBINARY"
  | .float64 => .ok (ascii "DOUBLE")
  | .int64 =>
    if ct.size = 2 then .ok (ascii "SMALLINT")
    else if ct.size = 4 then .ok (ascii "INT")
    else if ct.size = 8 then .ok (ascii "BIGINT")
    else .panic
  | .invalid _ => .panic

/-- parser/sql/expr.go:52-76 `opNames`. -/
def SqlOp.name : SqlOp → Bytes
  | .add => ascii "+"
  | .and => ascii "AND"
  | .binaryAnd => ascii "&"
  | .binaryOr => ascii "|"
  | .concat => ascii "||"
  | .divide => ascii "/"
  | .equal => ascii "=="
  | .greaterEqual => ascii ">="
  | .greaterThan => ascii ">"
  | .lessEqual => ascii "<="
  | .lessThan => ascii "<"
  | .lShift => ascii "<<"
  | .modulo => ascii "%"
  | .multiply => ascii "*"
  | .negate => ascii "-"
  | .noOp => []
  | .notEqual => ascii "!="
  | .not => ascii "NOT"
  | .or => ascii "OR"
  | .rShift => ascii ">>"
  | .subtract => ascii "-"

/-- parser/sql/query.go:310-316 `joinType`. -/
def JoinType.name : JoinType → Bytes
  | .join => ascii "JOIN"
  | .leftJoin => ascii "LEFT JOIN"
  | .rightJoin => ascii "RIGHT JOIN"
  | .fullJoin => ascii "FULL JOIN"
  | .crossJoin => ascii "CROSS JOIN"

/-- The loops that write ", " before every element but the first. -/
def commas : List Bytes → Bytes
  | [] => []
  | [a] => a
  | a :: l => a ++ ascii ", " ++ commas l

/-- The format `%s` of a nil interface (Go standard library, package fmt). -/
def nilString : Bytes := ascii "%!s(<nil>)"

/-- types/name.go:18-26 `TableName.String`. -/
def TableName.print (env : ParseEnv) (tn : TableName) : Bytes :=
  if tn.database = 0 then
    if tn.schema = 0 then env.string tn.table
    else env.string tn.schema ++ ascii "." ++ env.string tn.table
  else env.string tn.database ++ ascii "." ++ env.string tn.schema ++ ascii "." ++
    env.string tn.table

/-- types/name.go:32-37 `SchemaName.String`. -/
def SchemaName.print (env : ParseEnv) (sn : SchemaName) : Bytes :=
  if sn.database = 0 then env.string sn.schema
  else env.string sn.database ++ ascii "." ++ env.string sn.schema

/-- parser/sql/query.go:280-292: the clause `ORDER BY`. -/
def printOrder (env : ParseEnv) (by_ : Identifier × Bool) : Bytes :=
  env.string by_.1 ++ ascii (if by_.2 then " DESC" else " ASC")

mutual

/-- parser/sql/expr.go:105-167: the methods `String` of the implementations of `Expr`. -/
def Expr.print (env : ParseEnv) : Expr → Bytes
  | .lit none => ascii "NULL"
  | .lit (some v) => env.valueString v
  | .ref id ids => env.string id ++ ids.flatMap (fun i => ascii "." ++ env.string i)
  | .call name args => env.string name ++ ascii "(" ++ commas (Expr.printAll env args) ++ ascii ")"
  | .unary op e =>
    if op = .noOp then e.print env
    else ascii "(" ++ op.name ++ ascii " " ++ e.print env ++ ascii ")"
  | .binary op l r =>
    ascii "(" ++ l.print env ++ ascii " " ++ op.name ++ ascii " " ++ r.print env ++ ascii ")"
  | .subquery op exprOp e q =>
    match op with
    | .scalar => ascii "(" ++ q.print env ++ ascii ")"
    | .exists => ascii "EXISTS(" ++ q.print env ++ ascii ")"
    | .any => Expr.printOpt env e ++ ascii " " ++ exprOp.name ++ ascii " ANY(" ++ q.print env ++
        ascii ")"
    | .all => Expr.printOpt env e ++ ascii " " ++ exprOp.name ++ ascii " ALL(" ++ q.print env ++
        ascii ")"

/-- The format `%s` of an `Expr`. -/
def Expr.printOpt (env : ParseEnv) : Option Expr → Bytes
  | none => nilString
  | some e => e.print env

/-- The elements of a list of expressions. -/
def Expr.printAll (env : ParseEnv) : List Expr → List Bytes
  | [] => []
  | e :: l => e.print env :: Expr.printAll env l

/-- parser/sql/query.go:20-60 and 326-348: the methods `String` of the implementations of
`FromItem`. -/
def FromItem.print (env : ParseEnv) : FromItem → Bytes
  | .table tn a => if a = 0 then tn.print env else tn.print env ++ ascii " AS " ++ env.string a
  | .index tn i a =>
    if a = 0 then tn.print env ++ ascii "@" ++ env.string i
    else tn.print env ++ ascii "@" ++ env.string i ++ ascii " AS " ++ env.string a
  | .stmt q a cols =>
    ascii "(" ++ q.print env ++ ascii ") AS " ++ env.string a ++
      (if cols = [] then [] else ascii " (" ++ commas (cols.map env.string) ++ ascii ")")
  | .join l r jt on cols =>
    ascii "(" ++ l.print env ++ ascii " " ++ jt.name ++ ascii " " ++ r.print env ++
      Expr.printClause env (ascii " ON ") on ++
      (if cols = [] then [] else ascii " USING (" ++ commas (cols.map env.string) ++ ascii ")") ++
      ascii ")"

/-- A clause that is left out if its expression is nil. -/
def Expr.printClause (env : ParseEnv) (word : Bytes) : Option Expr → Bytes
  | none => []
  | some e => word ++ e.print env

/-- parser/sql/query.go:239-248: the methods `String` of the implementations of `SelectResult`. -/
def SelectResult.print (env : ParseEnv) : SelectResult → Bytes
  | .table t => env.string t ++ ascii ".*"
  | .expr e a => if a ≠ 0 then e.print env ++ ascii " AS " ++ env.string a else e.print env

/-- The elements of a list of results. -/
def SelectResult.printAll (env : ParseEnv) : List SelectResult → List Bytes
  | [] => []
  | r :: l => r.print env :: SelectResult.printAll env l

/-- The rows of `VALUES`. -/
def Expr.printRows (env : ParseEnv) : List (List Expr) → List Bytes
  | [] => []
  | row :: l => (ascii "(" ++ commas (Expr.printAll env row) ++ ascii ")") :: Expr.printRows env l

/-- The format `%s` of a `FromItem`. -/
def FromItem.printOpt (env : ParseEnv) : Option FromItem → Bytes
  | none => nilString
  | some f => f.print env

/-- parser/sql/query.go:188-208 and 250-294 and stmt.go:58-60: the methods `String` of `Select`,
`Values` and `Show`. -/
def Query.print (env : ParseEnv) : Query → Bytes
  | .select results fromItem cond groupBy having orderBy =>
    ascii "SELECT " ++
      (if results.isEmpty then ascii "*" else commas (SelectResult.printAll env results)) ++
      ascii " FROM " ++ FromItem.printOpt env fromItem ++ Expr.printClause env (ascii " WHERE ") cond ++
      (if groupBy.isEmpty then []
       else ascii " GROUP BY " ++ commas (Expr.printAll env groupBy) ++
        Expr.printClause env (ascii " HAVING ") having) ++
      (if orderBy.isEmpty then [] else ascii " ORDER BY " ++ commas (orderBy.map (printOrder env)))
  | .values rows =>
    ascii "VALUES" ++ (if rows.isEmpty then [] else ascii " " ++ commas (Expr.printRows env rows))
  | .show v => ascii "SHOW " ++ env.string v

end

/-- types/value.go:32-49 `ValueType.String`, in the format `%s`: package fmt (Go standard library)
prints a panic of a method `String`. -/
def ValueType.print : ValueType → Bytes
  | .unknown => ascii "UNKNOWN"
  | .bool => ascii "BOOL"
  | .string => ascii "STRING"
  | .bytes => ascii "BYTES"
  | .float64 => ascii "DOUBLE"
  | .int64 => ascii "INT"
  | .invalid n =>
    ascii "%!s(PANIC=String method: unexpected datatype; got " ++ formatInt n ++ ascii ")"

/-- parser/sql/datadef.go:16-32 `IndexKey.String`, in the format `%s`: package fmt prints the panic
for the index of a missing direction. -/
def IndexKey.print (env : ParseEnv) (k : IndexKey) : Bytes :=
  if k.reverse.length < k.columns.length then
    ascii "%!s(PANIC=String method: runtime error: index out of range [" ++
      formatInt k.reverse.length ++ ascii "] with length " ++ formatInt k.reverse.length ++ ascii ")"
  else ascii "(" ++ commas ((k.columns.zip k.reverse).map (printOrder env)) ++ ascii ")"

/-- parser/sql/datadef.go:82-97 `Constraint.String`. -/
def Constraint.print (env : ParseEnv) (c : Constraint) : Res Bytes :=
  match c.type with
  | .none => .panic
  | .default => .ok []
  | .notNull => .ok []
  | .primary =>
    .ok (ascii ", CONSTRAINT " ++ env.string c.name ++ ascii " PRIMARY KEY " ++ c.key.print env)
  | .unique =>
    .ok (ascii ", CONSTRAINT " ++ env.string c.name ++ ascii " UNIQUE " ++ c.key.print env)
  | .check =>
    .ok (ascii ", CONSTRAINT " ++ env.string c.name ++ ascii " CHECK (" ++
      Expr.printOpt env c.check ++ ascii ")")

/-- parser/sql/datadef.go:119-143 `ForeignKey.String`. -/
def ForeignKey.print (env : ParseEnv) (fk : ForeignKey) : Bytes :=
  ascii "CONSTRAINT " ++ (if fk.name = 0 then [] else env.string fk.name ++ ascii " ") ++
    ascii "FOREIGN KEY (" ++ commas (fk.fkCols.map env.string) ++ ascii ") REFERENCES " ++
    fk.refTable.print env ++
    (if fk.refCols = [] then [] else ascii " (" ++ commas (fk.refCols.map env.string) ++ ascii ")")

/-- The elements of a list that can panic, one after the other. -/
def printEach {α : Type} (f : α → Res Bytes) : List α → Res (List Bytes)
  | [] => .ok []
  | a :: l => do
    let b ← f a
    let bs ← printEach f l
    pure (b :: bs)

/-- parser/sql/datadef.go:163-175: one column. -/
def printColumn (env : ParseEnv) : Identifier × ColumnType × Option Expr → Bytes
  | (col, ct, dflt) =>
    env.string col ++ ascii " " ++ ct.type.print ++ (if ct.notNull then ascii " NOT NULL" else []) ++
      Expr.printClause env (ascii " DEFAULT ") dflt

/-- parser/sql/datadef.go:155-185 `CreateTable.String`. The index of a missing column or default
panics. -/
def CreateTable.print (env : ParseEnv) (s : CreateTable) : Res Bytes :=
  if s.columns.length < s.columnTypes.length ∨ s.columnDefaults.length < s.columnTypes.length
  then .panic
  else do
    let constraints ← printEach (Constraint.print env) s.constraints
    pure (ascii "CREATE TABLE" ++ (if s.ifNotExists then ascii " IF NOT EXISTS" else []) ++
      ascii " " ++ s.table.print env ++ ascii " (" ++
      commas ((s.columns.zip (s.columnTypes.zip s.columnDefaults)).map (printColumn env)) ++
      constraints.flatten ++
      s.foreignKeys.flatMap (fun fk => ascii ", " ++ fk.print env) ++ ascii ")")

/-- parser/sql/datadef.go:57-72 `ConstraintType.String`, in the format `%s`: package fmt prints the
panic. -/
def ConstraintType.print : ConstraintType → Bytes
  | .none => ascii "%!s(PANIC=String method: unexpected constraint type: 0)"
  | .default => ascii "DEFAULT"
  | .notNull => ascii "NOT NULL"
  | .primary => ascii "PRIMARY KEY"
  | .unique => ascii "UNIQUE"
  | .check => ascii "CHECK"

/-- parser/sql/datadef.go:270-283: the methods `String` of the implementations of `AlterAction`. -/
def AlterAction.print (env : ParseEnv) : AlterAction → Bytes
  | .addForeignKey fk => ascii "ADD " ++ fk.print env
  | .dropConstraint name ifExists column type =>
    if name ≠ 0 then
      ascii "DROP CONSTRAINT " ++ (if ifExists then ascii "IF EXISTS " else []) ++ env.string name
    else ascii "ALTER COLUMN " ++ env.string column ++ ascii " DROP " ++ type.print

/-- The method `String` of an interface; a nil interface panics. -/
def printPresent (env : ParseEnv) : Option Expr → Res Bytes
  | some e => .ok (Expr.print env e)
  | none => .panic

/-- parser/sql/query.go:130-145: one row of `INSERT`. -/
def printRow (env : ParseEnv) (row : List (Option Expr)) : Res Bytes := do
  let es ← printEach (printPresent env) row
  pure (ascii "(" ++ commas es ++ ascii ")")

/-- The methods `String` of the implementations of `Stmt` in parser/sql/stmt.go:20-75,
datadef.go:155-384 and query.go:70-208. Go goes through the options of `CREATE DATABASE` in any
order; here it is the order of the list. -/
def Stmt.print (env : ParseEnv) : Stmt → Res Bytes
  | .begin => .ok (ascii "BEGIN")
  | .commit => .ok (ascii "COMMIT")
  | .rollback => .ok (ascii "ROLLBACK")
  | .set var value => .ok (ascii "SET " ++ env.string var ++ ascii " TO " ++ value)
  | .explain q _ => .ok (ascii "EXPLAIN " ++ q.print env)
  | .query q => .ok (q.print env)
  | .createTable s => s.print env
  | .createIndex index table key ifNotExists =>
    .ok (ascii "CREATE" ++ (if key.unique then ascii " UNIQUE" else []) ++ ascii " INDEX" ++
      (if ifNotExists then ascii " IF NOT EXISTS" else []) ++ ascii " " ++ env.string index ++
      ascii " ON " ++ table.print env ++ ascii " " ++ key.print env)
  | .createDatabase database options =>
    .ok (ascii "CREATE DATABASE " ++ env.string database ++
      (if options = [] then []
       else ascii " WITH" ++ options.flatMap (fun o =>
        ascii " " ++ env.string o.1 ++ ascii " = " ++ o.2)))
  | .createSchema schema => .ok (ascii "CREATE SCHEMA " ++ schema.print env)
  | .alterTable table actions =>
    .ok (ascii "ALTER TABLE " ++ table.print env ++ ascii " " ++
      commas (actions.map (AlterAction.print env)))
  | .dropTable ifExists cascade tables =>
    .ok (ascii "DROP TABLE " ++ (if ifExists then ascii "IF EXISTS " else []) ++
      commas (tables.map (TableName.print env)) ++ (if cascade then ascii " CASCADE" else []))
  | .dropIndex table index ifExists =>
    .ok (ascii "DROP INDEX " ++ (if ifExists then ascii "IF EXISTS " else []) ++
      env.string index ++ ascii " ON " ++ table.print env)
  | .dropDatabase ifExists database =>
    .ok (ascii "DROP DATABASE " ++ (if ifExists then ascii "IF EXISTS " else []) ++
      env.string database)
  | .dropSchema ifExists schema =>
    .ok (ascii "DROP SCHEMA " ++ (if ifExists then ascii "IF EXISTS " else []) ++ schema.print env)
  | .copy table columns _ delimiter =>
    .ok (ascii "COPY " ++ table.print env ++ ascii " (" ++ commas (columns.map env.string) ++
      ascii ") FROM STDIN" ++
      (if delimiter = 9 then [] else ascii " DELIMITER '" ++ runeBytes delimiter ++ ascii "'"))
  | .delete table cond =>
    .ok (ascii "DELETE FROM " ++ table.print env ++ Expr.printClause env (ascii " WHERE ") cond)
  | .insert table columns rows => do
    let rs ← printEach (printRow env) rows
    pure (ascii "INSERT INTO " ++ table.print env ++ ascii " " ++
      (if columns = [] then [] else ascii "(" ++ commas (columns.map env.string) ++ ascii ") ") ++
      ascii "VALUES" ++ (if rs = [] then [] else ascii " " ++ commas rs))
  | .update table updates cond =>
    .ok (ascii "UPDATE " ++ table.print env ++ ascii " SET " ++
      commas (updates.map fun u => env.string u.1 ++ ascii " = " ++ Expr.printOpt env u.2) ++
      Expr.printClause env (ascii " WHERE ") cond)

end Maho
