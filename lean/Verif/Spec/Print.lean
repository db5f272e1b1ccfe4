import Verif.Model.Parse
import Verif.Spec.Scan
import Verif.Spec.Parse
import Verif.Spec.Grammar
/-
Which trees can be printed and read back. Nothing here refers to how they are printed or read,
except for the text of names and of numbers.
-/
namespace Maho.Spec
open Maho

/-- The bytes are the UTF-8 encoding of the runes. -/
def Encodes (l : List Nat) (b : Bytes) : Prop := (∀ r ∈ l, IsScalar r) ∧ text l = b

/-- `types.ID` finds the keywords, in capital letters, and `true` and `false`. -/
structure KnowsWords (env : ScanEnv) : Prop where
  keywords : KnowsKeywords env
  true : env.id (ascii "true") false = Kw.TRUE
  false : env.id (ascii "false") false = Kw.FALSE

/-- The text of the identifier needs no quotes, and the identifier is found again. The first letter is
not white space, as it is with the letters of Unicode. -/
def Legible (env : ParseEnv) (id : Identifier) : Prop :=
  env.id (env.string id) false = id ∧
    ∃ l, PlainName env.toScanEnv l ∧ (∀ r, l.head? = some r → isSpace r = false) ∧
      Encodes l (env.string id)

/-- A name that needs no quotes. -/
def Plain (env : ParseEnv) (id : Identifier) : Prop := 0 ≤ id ∧ Legible env id

/-- A constant that is read back: no bytes, not the least integer, no string with a quote, and no
floating point number that is printed as an integer or with an exponent. -/
def PlainValue (env : ParseEnv) : Option Value → Prop
  | none => True
  | some (.bool _) => True
  | some (.int i) => i.toInt ≠ -2 ^ 63
  | some (.float f) => ∃ l, (∀ r ∈ l, r < 128) ∧ text l = env.formatFloat f ∧
      Spells env.toScanEnv (.float f) l
  | some (.str s) => ∃ l, Encodes l s ∧ 39 ∉ l
  | some (.bytes _) => False

/-- The name of a table that needs no quotes. -/
def PlainTable (env : ParseEnv) (tn : TableName) : Prop :=
  Plain env tn.table ∧
    ((tn.database = 0 ∧ tn.schema = 0) ∨ (tn.database = 0 ∧ tn.schema ≠ 0 ∧ Plain env tn.schema) ∨
      (tn.database ≠ 0 ∧ Plain env tn.database ∧ Plain env tn.schema))

/-- An alias that needs no quotes, or none. -/
def PlainAlias (env : ParseEnv) (a : Identifier) : Prop := a = 0 ∨ Plain env a

/-- Not a test with `ANY` or `ALL`. -/
def NoTest : Expr → Prop
  | .unary .noOp e => NoTest e
  | .subquery .any _ _ _ => False
  | .subquery .all _ _ _ => False
  | _ => True

mutual

/-- The expression can be printed and read back. A test with `ANY` or `ALL` is not the left operand
of an operator. -/
def Printable (env : ParseEnv) : Expr → Prop
  | .lit v => PlainValue env v
  | .ref id ids => Plain env id ∧ ∀ i ∈ ids, Plain env i
  | .call name args => Plain env name ∧ PrintableAll env args
  | .unary op e => (IsPrefix op ∨ op = .noOp) ∧ Printable env e
  | .binary op l r => IsInfix op ∧ NoTest l ∧ Printable env l ∧ Printable env r
  | .subquery op exprOp e q =>
    PrintableQuery env q ∧
      match op with
      | .scalar => exprOp = .add ∧ e = none
      | .exists => exprOp = .add ∧ e = none
      | .any => IsBoolean exprOp ∧ PrintableOperand env e
      | .all => IsBoolean exprOp ∧ PrintableOperand env e

/-- The left side of a test. -/
def PrintableOperand (env : ParseEnv) : Option Expr → Prop
  | none => False
  | some e => NoTest e ∧ Printable env e

/-- An expression that can be left out. -/
def PrintableOpt (env : ParseEnv) : Option Expr → Prop
  | none => True
  | some e => Printable env e

def PrintableAll (env : ParseEnv) : List Expr → Prop
  | [] => True
  | e :: l => Printable env e ∧ PrintableAll env l

/-- An item of `FROM`. A subquery has an alias; a join other than `CROSS JOIN` has either a
condition or columns. -/
def PrintableFrom (env : ParseEnv) : FromItem → Prop
  | .table tn a => PlainTable env tn ∧ PlainAlias env a
  | .index tn i a => PlainTable env tn ∧ Plain env i ∧ PlainAlias env a
  | .stmt q a cols => PrintableQuery env q ∧ Plain env a ∧ ∀ c ∈ cols, Plain env c
  | .join l r jt on cols =>
    PrintableFrom env l ∧ PrintableFrom env r ∧ PrintableOpt env on ∧
      cols.Nodup ∧ (∀ c ∈ cols, Plain env c) ∧
      (jt = .crossJoin ↔ on.isSome = false ∧ cols = []) ∧ (on.isSome = true → cols = [])

/-- `FROM` cannot be left out. -/
def PrintableOptFrom (env : ParseEnv) : Option FromItem → Prop
  | none => False
  | some f => PrintableFrom env f

def PrintableResult (env : ParseEnv) : SelectResult → Prop
  | .table t => Plain env t
  | .expr e a => Printable env e ∧ PlainAlias env a

def PrintableResults (env : ParseEnv) : List SelectResult → Prop
  | [] => True
  | r :: l => PrintableResult env r ∧ PrintableResults env l

/-- Rows that have all the length `n`. -/
def PrintableRows (env : ParseEnv) (n : Nat) : List (List Expr) → Prop
  | [] => True
  | row :: l => row.length = n ∧ PrintableAll env row ∧ PrintableRows env n l

/-- A query. There is no `HAVING` without `GROUP BY`. -/
def PrintableQuery (env : ParseEnv) : Query → Prop
  | .select results fromItem cond groupBy having orderBy =>
    PrintableResults env results ∧ PrintableOptFrom env fromItem ∧ PrintableOpt env cond ∧
      PrintableAll env groupBy ∧ PrintableOpt env having ∧
      (groupBy = [] → having.isSome = false) ∧ ∀ o ∈ orderBy, Plain env o.1
  | .values rows => rows ≠ [] ∧ ∃ n, 0 < n ∧ PrintableRows env n rows
  | .show v => v ∉ showQueries ∧ Legible env v

end

mutual

/-- The expression without the nodes that stand for parentheses. -/
def bare : Expr → Expr
  | .lit v => .lit v
  | .ref id ids => .ref id ids
  | .call name args => .call name (bareAll args)
  | .unary op e => if op = .noOp then bare e else .unary op (bare e)
  | .binary op l r => .binary op (bare l) (bare r)
  | .subquery op exprOp e q => .subquery op exprOp (bareOpt e) (bareQuery q)

def bareOpt : Option Expr → Option Expr
  | none => none
  | some e => some (bare e)

def bareAll : List Expr → List Expr
  | [] => []
  | e :: l => bare e :: bareAll l

def bareFrom : FromItem → FromItem
  | .table tn a => .table tn a
  | .index tn i a => .index tn i a
  | .stmt q a cols => .stmt (bareQuery q) a cols
  | .join l r jt on cols => .join (bareFrom l) (bareFrom r) jt (bareOpt on) cols

def bareOptFrom : Option FromItem → Option FromItem
  | none => none
  | some f => some (bareFrom f)

def bareResult : SelectResult → SelectResult
  | .table t => .table t
  | .expr e a => .expr (bare e) a

def bareResults : List SelectResult → List SelectResult
  | [] => []
  | r :: l => bareResult r :: bareResults l

def bareRows : List (List Expr) → List (List Expr)
  | [] => []
  | row :: l => bareAll row :: bareRows l

def bareQuery : Query → Query
  | .select results fromItem cond groupBy having orderBy =>
    .select (bareResults results) (bareOptFrom fromItem) (bareOpt cond) (bareAll groupBy)
      (bareOpt having) orderBy
  | .values rows => .values (bareRows rows)
  | .show v => .show v

end

mutual

/-- The expression with a node for parentheses around every operation, and no other. -/
def parens : Expr → Expr
  | .lit v => .lit v
  | .ref id ids => .ref id ids
  | .call name args => .call name (parensAll args)
  | .unary op e => if op = .noOp then parens e else .unary .noOp (.unary op (parens e))
  | .binary op l r => .unary .noOp (.binary op (parens l) (parens r))
  | .subquery op exprOp e q => .subquery op exprOp (parensOpt e) (parensQuery q)

def parensOpt : Option Expr → Option Expr
  | none => none
  | some e => some (parens e)

def parensAll : List Expr → List Expr
  | [] => []
  | e :: l => parens e :: parensAll l

def parensFrom : FromItem → FromItem
  | .table tn a => .table tn a
  | .index tn i a => .index tn i a
  | .stmt q a cols => .stmt (parensQuery q) a cols
  | .join l r jt on cols => .join (parensFrom l) (parensFrom r) jt (parensOpt on) cols

def parensOptFrom : Option FromItem → Option FromItem
  | none => none
  | some f => some (parensFrom f)

def parensResult : SelectResult → SelectResult
  | .table t => .table t
  | .expr e a => .expr (parens e) a

def parensResults : List SelectResult → List SelectResult
  | [] => []
  | r :: l => parensResult r :: parensResults l

def parensRows : List (List Expr) → List (List Expr)
  | [] => []
  | row :: l => parensAll row :: parensRows l

def parensQuery : Query → Query
  | .select results fromItem cond groupBy having orderBy =>
    .select (parensResults results) (parensOptFrom fromItem) (parensOpt cond) (parensAll groupBy)
      (parensOpt having) orderBy
  | .values rows => .values (parensRows rows)
  | .show v => .show v

end

end Maho.Spec
