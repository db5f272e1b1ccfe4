import Verif.Model.Token
import Verif.Spec.Expr
/-
How queries and their expressions are written, as tokens. Nothing here refers to the parser.
-/
namespace Maho.Spec
open Maho

/-- The operators between operands, as they are written. -/
def infixTokens : List (Token × SqlOp) :=
  [(.reserved Kw.OR, .or), (.reserved Kw.AND, .and),
   (.rune 61, .equal), (.equalEqual, .equal), (.bangEqual, .notEqual), (.lessGreater, .notEqual),
   (.rune 60, .lessThan), (.lessEqual, .lessEqual), (.rune 62, .greaterThan),
   (.greaterEqual, .greaterEqual),
   (.rune 38, .binaryAnd), (.rune 124, .binaryOr), (.lessLess, .lShift), (.greaterGreater, .rShift),
   (.rune 43, .add), (.rune 45, .subtract),
   (.rune 42, .multiply), (.rune 47, .divide), (.rune 37, .modulo), (.barBar, .concat)]

/-- The prefix operators, as they are written. -/
def prefixTokens : List (Token × SqlOp) := [(.reserved Kw.NOT, .not), (.rune 45, .negate)]

/-- The operators with a boolean result. -/
def IsBoolean (op : SqlOp) : Prop :=
  op ∈ [.or, .and, .equal, .notEqual, .lessThan, .lessEqual, .greaterThan, .greaterEqual]

/-- A list with commas; not empty. -/
inductive Separated {α : Type} (R : α → List Token → Prop) : List α → List Token → Prop
  | one {a : α} {ts : List Token} : R a ts → Separated R [a] ts
  | cons {a : α} {l : List α} {ts us : List Token} : R a ts → Separated R l us →
    Separated R (a :: l) (ts ++ Tok.comma :: us)

/-- A name. -/
inductive Name : Identifier → List Token → Prop
  | mk (id : Identifier) : Name id [.identifier id]

/-- `ts` in parentheses. -/
def inParens (ts : List Token) : List Token := Tok.lparen :: (ts ++ [Tok.rparen])

/-- The name of a table. -/
inductive TableText : TableName → List Token → Prop
  | one (t : Identifier) : TableText ⟨0, 0, t⟩ [.identifier t]
  | two (s t : Identifier) : TableText ⟨0, s, t⟩ [.identifier s, Tok.dot, .identifier t]
  | three (d s t : Identifier) :
    TableText ⟨d, s, t⟩ [.identifier d, Tok.dot, .identifier s, Tok.dot, .identifier t]

/-- An alias. -/
inductive AliasText : Identifier → List Token → Prop
  | as (a : Identifier) : AliasText a [.reserved Kw.AS, .identifier a]
  | bare (a : Identifier) : AliasText a [.identifier a]

/-- An alias that can be left out. -/
inductive OptAlias : Identifier → List Token → Prop
  | none : OptAlias 0 []
  | some {a : Identifier} {ts : List Token} : AliasText a ts → OptAlias a ts

/-- Columns in parentheses, or nothing. -/
inductive OptColumns : List Identifier → List Token → Prop
  | none : OptColumns [] []
  | some {l : List Identifier} {ts : List Token} : Separated Name l ts → OptColumns l (inParens ts)

/-- The words of a join. -/
inductive JoinWords : JoinType → List Token → Prop
  | join : JoinWords .join [.reserved Kw.JOIN]
  | inner : JoinWords .join [.reserved Kw.INNER, .reserved Kw.JOIN]
  | left : JoinWords .leftJoin [.reserved Kw.LEFT, .reserved Kw.JOIN]
  | leftOuter : JoinWords .leftJoin [.reserved Kw.LEFT, .reserved Kw.OUTER, .reserved Kw.JOIN]
  | right : JoinWords .rightJoin [.reserved Kw.RIGHT, .reserved Kw.JOIN]
  | rightOuter : JoinWords .rightJoin [.reserved Kw.RIGHT, .reserved Kw.OUTER, .reserved Kw.JOIN]
  | full : JoinWords .fullJoin [.reserved Kw.FULL, .reserved Kw.JOIN]
  | fullOuter : JoinWords .fullJoin [.reserved Kw.FULL, .reserved Kw.OUTER, .reserved Kw.JOIN]
  | cross : JoinWords .crossJoin [.reserved Kw.CROSS, .reserved Kw.JOIN]

/-- A column of `ORDER BY`. -/
inductive OrderText : Identifier × Bool → List Token → Prop
  | plain (id : Identifier) : OrderText (id, false) [.identifier id]
  | asc (id : Identifier) : OrderText (id, false) [.identifier id, .reserved Kw.ASC]
  | desc (id : Identifier) : OrderText (id, true) [.identifier id, .reserved Kw.DESC]

/-- `ORDER BY`, or nothing. -/
inductive OptOrder : List (Identifier × Bool) → List Token → Prop
  | none : OptOrder [] []
  | some {l : List (Identifier × Bool)} {ts : List Token} : Separated OrderText l ts →
    OptOrder l (.reserved Kw.ORDER :: .reserved Kw.BY :: ts)

mutual

/-- The left side of every operator is a single operand, in parentheses and in calls as well. -/
def Settled : Expr → Prop
  | .binary _ l r => Settled l ∧ Settled r ∧ pieces l = [.operand l]
  | .unary _ e => Settled e
  | .call _ args => SettledList args
  | .lit _ => True
  | .ref _ _ => True
  | .subquery _ _ _ _ => True

def SettledList : List Expr → Prop
  | [] => True
  | e :: l => Settled e ∧ SettledList l

end

/-- The variables of `SHOW` that stand for a query of their own (parser/parser.go:1720-1838):
`COLUMNS`, `CONFIG`, `CONSTRAINTS`, `DATABASES`, `SCHEMAS` and `TABLES`. -/
def showQueries : List Identifier :=
  [Kw.COLUMNS, Kw.CONFIG, Kw.CONSTRAINTS, Kw.DATABASES, Kw.SCHEMAS, Kw.TABLES]

/-- What the grammar takes from elsewhere: the name of the function that tests for `NULL`, and what
can follow `SHOW`, with the query that it stands for. -/
structure Words where
  isNull : Identifier
  shows : Query → List Token → Prop

mutual

/-- What can stand on both sides of operators. -/
inductive Operand (words : Words) : Expr → List Token → Prop
  | true : Operand words (.lit (some (.bool true))) [.reserved Kw.TRUE]
  | false : Operand words (.lit (some (.bool false))) [.reserved Kw.FALSE]
  | null : Operand words (.lit none) [.reserved Kw.NULL]
  | string (s : Bytes) : Operand words (.lit (some (.str s))) [.string s]
  | bytes (b : Bytes) : Operand words (.lit (some (.bytes b))) [.bytes b]
  | integer (i : BitVec 64) : Operand words (.lit (some (.int i))) [.integer i]
  | float (f : F64) : Operand words (.lit (some (.float f))) [.float f]
  | ref (id : Identifier) (ids : List Identifier) :
    Operand words (.ref id ids) (.identifier id :: ids.flatMap fun i => [Tok.dot, .identifier i])
  | callEmpty (id : Identifier) : Operand words (.call id []) (.identifier id :: inParens [])
  | countAll : Operand words (.call Kw.COUNT_ALL []) (.identifier Kw.COUNT :: inParens [Tok.star])
  | call (id : Identifier) {es : List Expr} {ts : List Token} :
    Separated (Written words) es ts → Operand words (.call id es) (.identifier id :: inParens ts)
  | paren {e : Expr} {ts : List Token} : Written words e ts →
    Operand words (.unary .noOp e) (inParens ts)
  | scalar {q : Query} {ts : List Token} : QueryText words q ts →
    Operand words (.subquery .scalar .add none q) (inParens ts)
  | exists {q : Query} {ts : List Token} : QueryText words q ts →
    Operand words (.subquery .exists .add none q) (.reserved Kw.EXISTS :: inParens ts)

/-- The pieces of an expression. A test with `IS`, `IN`, `ANY`, `SOME` or `ALL` comes last. The left
side of a test with a query is settled. -/
inductive PiecesText (words : Words) : List Part → List Token → Prop
  | one {e : Expr} {ts : List Token} : Operand words e ts → PiecesText words [.operand e] ts
  | pre {p : SqlOp} {t : Token} {its : List Part} {ts : List Token} : (t, p) ∈ prefixTokens →
    PiecesText words its ts → PiecesText words (.pre p :: its) (t :: ts)
  | infix {e : Expr} {op : SqlOp} {t : Token} {its : List Part} {ts us : List Token} :
    Operand words e ts → (t, op) ∈ infixTokens → PiecesText words its us →
    PiecesText words (.operand e :: .infix op :: its) (ts ++ t :: us)
  | isNull {e : Expr} {ts : List Token} : Operand words e ts →
    PiecesText words [.operand (.call words.isNull [e])]
      (ts ++ [.reserved Kw.IS, .reserved Kw.NULL])
  | isNotNull {e : Expr} {ts : List Token} : Operand words e ts →
    PiecesText words [.pre .not, .operand (.call words.isNull [e])]
      (ts ++ [.reserved Kw.IS, .reserved Kw.NOT, .reserved Kw.NULL])
  | inQuery {e : Expr} {q : Query} {ts us : List Token} : Operand words e ts → Settled e →
    QueryText words q us →
    PiecesText words [.operand (.subquery .any .equal (some e) q)]
      (ts ++ .reserved Kw.IN :: inParens us)
  | notIn {e : Expr} {q : Query} {ts us : List Token} : Operand words e ts → Settled e →
    QueryText words q us →
    PiecesText words [.operand (.subquery .all .notEqual (some e) q)]
      (ts ++ .reserved Kw.NOT :: .reserved Kw.IN :: inParens us)
  | any {e : Expr} {op : SqlOp} {t : Token} {q : Query} {ts us : List Token} {w : Identifier} :
    Operand words e ts → Settled e → (t, op) ∈ infixTokens → IsBoolean op →
    w ∈ [Kw.ANY, Kw.SOME] → QueryText words q us →
    PiecesText words [.operand (.subquery .any op (some e) q)]
      (ts ++ t :: .reserved w :: inParens us)
  | all {e : Expr} {op : SqlOp} {t : Token} {q : Query} {ts us : List Token} :
    Operand words e ts → Settled e → (t, op) ∈ infixTokens → IsBoolean op →
    QueryText words q us →
    PiecesText words [.operand (.subquery .all op (some e) q)]
      (ts ++ t :: .reserved Kw.ALL :: inParens us)

/-- An expression, as the tree of its pieces in which tighter operators are inside of looser ones. -/
inductive Written (words : Words) : Expr → List Token → Prop
  | mk {e : Expr} {ts : List Token} : WellNested e → PiecesText words (pieces e) ts →
    Written words e ts

/-- A word and an expression, or nothing. -/
inductive OptExpr (words : Words) : Identifier → Option Expr → List Token → Prop
  | none (w : Identifier) : OptExpr words w none []
  | some (w : Identifier) {e : Expr} {ts : List Token} : Written words e ts →
    OptExpr words w (some e) (.reserved w :: ts)

/-- `GROUP BY`, or nothing. -/
inductive OptGroup (words : Words) : List Expr → List Token → Prop
  | none : OptGroup words [] []
  | some {es : List Expr} {ts : List Token} : Separated (Written words) es ts →
    OptGroup words es (.reserved Kw.GROUP :: .reserved Kw.BY :: ts)

/-- A row of `VALUES`. -/
inductive RowText (words : Words) : List Expr → List Token → Prop
  | mk {es : List Expr} {ts : List Token} : Separated (Written words) es ts →
    RowText words es (inParens ts)

/-- A result of `SELECT`. -/
inductive ResultText (words : Words) : SelectResult → List Token → Prop
  | table (t : Identifier) : ResultText words (.table t) [.identifier t, Tok.dot, Tok.star]
  | expr {e : Expr} {a : Identifier} {ts us : List Token} : Written words e ts → OptAlias a us →
    ResultText words (.expr e a) (ts ++ us)

/-- The results of `SELECT`. -/
inductive ResultsText (words : Words) : List SelectResult → List Token → Prop
  | star : ResultsText words [] [Tok.star]
  | list {l : List SelectResult} {ts : List Token} : Separated (ResultText words) l ts →
    ResultsText words l ts

/-- A query. -/
inductive QueryText (words : Words) : Query → List Token → Prop
  | select {results : List SelectResult} {fromItem : Option FromItem} {cond : Option Expr}
      {group : List Expr} {having : Option Expr} {order : List (Identifier × Bool)}
      {ts fs ws gs hs os : List Token} : ResultsText words results ts → OptFrom words fromItem fs →
    OptExpr words Kw.WHERE cond ws → OptGroup words group gs → OptExpr words Kw.HAVING having hs →
    OptOrder order os →
    QueryText words (.select results fromItem cond group having order)
      (.reserved Kw.SELECT :: (ts ++ (fs ++ (ws ++ (gs ++ (hs ++ os))))))
  | values {rows : List (List Expr)} {ts : List Token} (n : Nat) : (∀ row ∈ rows, row.length = n) →
    Separated (RowText words) rows ts → QueryText words (.values rows) (.reserved Kw.VALUES :: ts)
  | table {tn : TableName} {ts : List Token} : TableText tn ts →
    QueryText words (.select [] (some (.table tn 0)) none [] none []) (.reserved Kw.TABLE :: ts)
  | showReserved (v : Identifier) : v ∉ showQueries →
    QueryText words (.show v) [.reserved Kw.SHOW, .reserved v]
  | showVariable (v : Identifier) : v ∉ showQueries →
    QueryText words (.show v) [.reserved Kw.SHOW, .identifier v]
  | shows {q : Query} {ts : List Token} : words.shows q ts → QueryText words q (.reserved Kw.SHOW :: ts)

/-- `FROM`, or nothing. -/
inductive OptFrom (words : Words) : Option FromItem → List Token → Prop
  | none : OptFrom words none []
  | some {f : FromItem} {ts : List Token} : FromListText words f ts →
    OptFrom words (some f) (.reserved Kw.FROM :: ts)

/-- A list of items of `FROM`. -/
inductive FromListText (words : Words) : FromItem → List Token → Prop
  | one {f : FromItem} {b : Bool} {ts : List Token} : FromText words b f ts →
    FromListText words f ts
  | comma {l r : FromItem} {b : Bool} {ts us : List Token} : FromListText words l ts →
    FromText words b r us →
    FromListText words (.join l r .crossJoin none []) (ts ++ Tok.comma :: us)

/-- An item of `FROM`. Joins associate to the right. The flag is false if the item ends with a
`CROSS JOIN`, after which no condition can follow. -/
inductive FromText (words : Words) : Bool → FromItem → List Token → Prop
  | plain {f : FromItem} {ts : List Token} : FromPart words f ts → FromText words true f ts
  | on {l r : FromItem} {jt : JoinType} {e : Expr} {ts ws us vs : List Token} :
    FromPart words l ts → JoinWords jt ws → jt ≠ .crossJoin → FromText words true r us →
    Written words e vs →
    FromText words true (.join l r jt (some e) []) (ts ++ (ws ++ (us ++ .reserved Kw.ON :: vs)))
  | using {l r : FromItem} {jt : JoinType} {cols : List Identifier} {ts ws us vs : List Token} :
    FromPart words l ts → JoinWords jt ws → jt ≠ .crossJoin → FromText words true r us →
    Separated Name cols vs → cols.Nodup →
    FromText words true (.join l r jt none cols)
      (ts ++ (ws ++ (us ++ .reserved Kw.USING :: inParens vs)))
  | cross {l r : FromItem} {b : Bool} {ts ws us : List Token} :
    FromPart words l ts → JoinWords .crossJoin ws → FromText words b r us →
    FromText words false (.join l r .crossJoin none []) (ts ++ (ws ++ us))

/-- An item of `FROM` that is not a join. -/
inductive FromPart (words : Words) : FromItem → List Token → Prop
  | table {tn : TableName} {a : Identifier} {ts us : List Token} : TableText tn ts →
    OptAlias a us → FromPart words (.table tn a) (ts ++ us)
  | index {tn : TableName} {a : Identifier} {ts us : List Token} (i : Identifier) :
    TableText tn ts → OptAlias a us →
    FromPart words (.index tn i a) (ts ++ Tok.atSign :: .identifier i :: us)
  | stmt {q : Query} {a : Identifier} {cols : List Identifier} {ts us vs : List Token} :
    QueryText words q ts → AliasText a us → OptColumns cols vs →
    FromPart words (.stmt q a cols) (inParens ts ++ (us ++ vs))
  | paren {f : FromItem} {ts : List Token} : FromListText words f ts →
    FromPart words f (inParens ts)

end

/-- No expression goes on with these tokens. -/
def Stops : List Token → Prop
  | [] => True
  | .identifier _ :: _ => True
  | .reserved id :: _ => id ∉ [Kw.AND, Kw.OR, Kw.IN, Kw.NOT, Kw.IS, Kw.ANY, Kw.SOME, Kw.ALL]
  | t :: _ => t ∈ [.endOfStatement, Tok.comma, Tok.rparen]

/-- No query goes on with these tokens. -/
def QueryStops : List Token → Prop
  | [] => True
  | t :: _ => t = .endOfStatement ∨ t = Tok.rparen

end Maho.Spec
