import Verif.Model.Parse
/-
Tokens and statements with other contents in their bytes literals: what they hold when the memory of
the literals has been written to.
-/
namespace Maho

/-- A token with other bytes. -/
def tokenWith (f : Bytes → Bytes) : Token → Token
  | .bytes b => .bytes (f b)
  | t => t

/-- A literal with other bytes. -/
def valueWith (f : Bytes → Bytes) : Value → Value
  | .bytes b => .bytes (f b)
  | v => v

mutual

/-- An expression with other bytes in its literals. -/
def exprWith (f : Bytes → Bytes) : Expr → Expr
  | .lit v => .lit (v.map (valueWith f))
  | .ref id ids => .ref id ids
  | .call name args => .call name (exprsWith f args)
  | .unary op e => .unary op (exprWith f e)
  | .binary op l r => .binary op (exprWith f l) (exprWith f r)
  | .subquery op exprOp e q => .subquery op exprOp (condWith f e) (queryWith f q)

def exprsWith (f : Bytes → Bytes) : List Expr → List Expr
  | [] => []
  | e :: es => exprWith f e :: exprsWith f es

def condWith (f : Bytes → Bytes) : Option Expr → Option Expr
  | none => none
  | some e => some (exprWith f e)

/-- An item of FROM with other bytes in its literals. -/
def fromWith (f : Bytes → Bytes) : FromItem → FromItem
  | .table tn alias => .table tn alias
  | .index tn index alias => .index tn index alias
  | .stmt q alias columns => .stmt (queryWith f q) alias columns
  | .join l r type on cols => .join (fromWith f l) (fromWith f r) type (condWith f on) cols

def maybeFromWith (f : Bytes → Bytes) : Option FromItem → Option FromItem
  | none => none
  | some fi => some (fromWith f fi)

/-- A result of SELECT with other bytes in its literals. -/
def resultWith (f : Bytes → Bytes) : SelectResult → SelectResult
  | .table t => .table t
  | .expr e alias => .expr (exprWith f e) alias

def resultsWith (f : Bytes → Bytes) : List SelectResult → List SelectResult
  | [] => []
  | r :: rs => resultWith f r :: resultsWith f rs

def rowsWith (f : Bytes → Bytes) : List (List Expr) → List (List Expr)
  | [] => []
  | r :: rs => exprsWith f r :: rowsWith f rs

/-- A query with other bytes in its literals. -/
def queryWith (f : Bytes → Bytes) : Query → Query
  | .select results fromItem cond groupBy having orderBy =>
    .select (resultsWith f results) (maybeFromWith f fromItem) (condWith f cond)
      (exprsWith f groupBy) (condWith f having) orderBy
  | .values rows => .values (rowsWith f rows)
  | .show var => .show var

end

/-- A constraint with other bytes in its literals. -/
def constraintWith (f : Bytes → Bytes) (c : Constraint) : Constraint :=
  { c with check := condWith f c.check }

/-- The parts of CREATE TABLE with other bytes in their literals. -/
def createWith (f : Bytes → Bytes) (s : CreateTable) : CreateTable :=
  { s with
    columnDefaults := s.columnDefaults.map (condWith f)
    constraints := s.constraints.map (constraintWith f) }

/-- A statement with other bytes in its literals. -/
def stmtWith (f : Bytes → Bytes) : Stmt → Stmt
  | .explain q verbose => .explain (queryWith f q) verbose
  | .query q => .query (queryWith f q)
  | .createTable s => .createTable (createWith f s)
  | .delete table cond => .delete table (condWith f cond)
  | .insert table columns rows => .insert table columns (rows.map (·.map (condWith f)))
  | .update table updates cond =>
    .update table (updates.map fun u => (u.1, condWith f u.2)) (condWith f cond)
  | s => s

end Maho
