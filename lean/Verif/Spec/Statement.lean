import Verif.Model.Parse
import Verif.Spec.Grammar
/-
How statements are written, as tokens: the grammar in the comments of parser/parser.go. The names
of the relations for expressions and queries are parameters, so that the same grammar can be used
with the strict ones of Spec/Grammar.lean and with the loose ones below. Of the parser only the
environment is used, for the names of columns and the text of values.
-/
namespace Maho.Spec
open Maho

/-- A word and something, or nothing. -/
inductive Optional {α : Type} (w : Identifier) (R : α → List Token → Prop) :
    Option α → List Token → Prop
  | none : Optional w R none []
  | some {a : α} {ts : List Token} : R a ts → Optional w R (some a) (.reserved w :: ts)

/-- Something with commas that changes a state; not empty. -/
inductive Changes {σ : Type} (R : σ → List Token → σ → Prop) : σ → List Token → σ → Prop
  | one {s s' : σ} {ts : List Token} : R s ts s' → Changes R s ts s'
  | cons {s s' s'' : σ} {ts us : List Token} : R s ts s' → Changes R s' us s'' →
    Changes R s (ts ++ Tok.comma :: us) s''

/-- A repetition that changes a state; can be empty. -/
inductive Repeated {σ : Type} (R : σ → List Token → σ → Prop) : σ → List Token → σ → Prop
  | nil (s : σ) : Repeated R s [] s
  | cons {s s' s'' : σ} {ts us : List Token} : R s ts s' → Repeated R s' us s'' →
    Repeated R s (ts ++ us) s''

/-- The name of a schema. -/
inductive SchemaForm : SchemaName → List Token → Prop
  | one (s : Identifier) : SchemaForm ⟨0, s⟩ [.identifier s]
  | two (d s : Identifier) : SchemaForm ⟨d, s⟩ [.identifier d, Tok.dot, .identifier s]

/-- `IF EXISTS`, or nothing. -/
inductive IfExists : Bool → List Token → Prop
  | no : IfExists false []
  | yes : IfExists true [.reserved Kw.IF, .reserved Kw.EXISTS]

/-- `IF NOT EXISTS`, or nothing. -/
inductive IfNotExists : Bool → List Token → Prop
  | no : IfNotExists false []
  | yes : IfNotExists true [.reserved Kw.IF, .reserved Kw.NOT, .reserved Kw.EXISTS]

/-! ### SHOW -/

/-- A reference to a column. -/
def columnNamed (env : ParseEnv) (s : String) : Expr := .ref (env.id (ascii s) false) []

/-- The name of a column is a given text. -/
def columnIs (env : ParseEnv) (s : String) (text : Bytes) : Expr :=
  .binary .equal (columnNamed env s) (.lit (some (.str text)))

/-- The schema is the current one, or the one that is given. -/
def schemaIs (env : ParseEnv) (schema : Identifier) : Expr :=
  if schema = 0 then
    .binary .equal (columnNamed env "schema_name") (.subquery .scalar .add none (.show Kw.SCHEMA))
  else columnIs env "schema_name" (env.string schema)

/-- All columns of a table with information. -/
def infoQuery (d s t : Identifier) (cond : Option Expr) : Query :=
  .select [] (some (.table ⟨d, s, t⟩ 0)) cond [] none []

/-- A variable of `SHOW`. -/
inductive ShowName : Identifier → List Token → Prop
  | word (v : Identifier) : ShowName v [.reserved v]
  | name (v : Identifier) : ShowName v [.identifier v]

/-- What follows `SHOW`, and the query that it stands for. -/
inductive ShowForm (env : ParseEnv) : Query → List Token → Prop
  | fromTable {w : Identifier} {tn : TableName} {ns ts : List Token} :
    w ∈ [Kw.COLUMNS, Kw.CONSTRAINTS] → ShowName w ns → TableText tn ts →
    ShowForm env (infoQuery tn.database Kw.METADATA w
      (some (.binary .and (columnIs env "table_name" (env.string tn.table)) (schemaIs env tn.schema))))
      (ns ++ .reserved Kw.FROM :: ts)
  | config {ns : List Token} : ShowName Kw.CONFIG ns →
    ShowForm env (.select [.expr (columnNamed env "name") 0, .expr (columnNamed env "value") 0,
        .expr (columnNamed env "by") 0]
      (some (.table ⟨Kw.SYSTEM, Kw.INFO, Kw.CONFIG⟩ 0))
      (some (.binary .equal (columnNamed env "hidden") (.lit (some (.bool false))))) [] none []) ns
  | databases {ns : List Token} : ShowName Kw.DATABASES ns →
    ShowForm env (infoQuery Kw.SYSTEM Kw.INFO Kw.DATABASES none) ns
  | schemas {ns fs : List Token} {d : Option Identifier} : ShowName Kw.SCHEMAS ns →
    Optional Kw.FROM Name d fs →
    ShowForm env (infoQuery (d.getD 0) Kw.METADATA Kw.SCHEMAS none) (ns ++ fs)
  | tables {ns : List Token} : ShowName Kw.TABLES ns →
    ShowForm env (infoQuery 0 Kw.METADATA Kw.TABLES (some (schemaIs env 0))) ns
  | tablesFrom {ns ts : List Token} {sn : SchemaName} : ShowName Kw.TABLES ns → SchemaForm sn ts →
    ShowForm env (infoQuery sn.database Kw.METADATA Kw.TABLES
      (some (columnIs env "schema_name" (env.string sn.schema)))) (ns ++ .reserved Kw.FROM :: ts)
  | variable {v : Identifier} {ns : List Token} : v ∉ showQueries → ShowName v ns →
    ShowForm env (.show v) ns

/-- The grammar of Spec/Grammar.lean with these names and with `SHOW`. -/
abbrev _root_.Maho.ParseEnv.words (env : ParseEnv) : Words :=
  ⟨env.id (ascii "is_null") false, ShowForm env⟩

/-! ### Expressions and queries, without precedence -/

mutual

/-- The tokens of an expression in source order. Nothing is said about how operators nest. -/
inductive ExprForm (env : ParseEnv) : Expr → List Token → Prop
  | true : ExprForm env (.lit (some (.bool true))) [.reserved Kw.TRUE]
  | false : ExprForm env (.lit (some (.bool false))) [.reserved Kw.FALSE]
  | null : ExprForm env (.lit none) [.reserved Kw.NULL]
  | string (s : Bytes) : ExprForm env (.lit (some (.str s))) [.string s]
  | bytes (b : Bytes) : ExprForm env (.lit (some (.bytes b))) [.bytes b]
  | integer (i : BitVec 64) : ExprForm env (.lit (some (.int i))) [.integer i]
  | float (f : F64) : ExprForm env (.lit (some (.float f))) [.float f]
  | ref (id : Identifier) (ids : List Identifier) :
    ExprForm env (.ref id ids) (.identifier id :: ids.flatMap fun i => [Tok.dot, .identifier i])
  | callEmpty (id : Identifier) : ExprForm env (.call id []) (.identifier id :: inParens [])
  | countAll : ExprForm env (.call Kw.COUNT_ALL []) (.identifier Kw.COUNT :: inParens [Tok.star])
  | call (id : Identifier) {es : List Expr} {ts : List Token} : Separated (ExprForm env) es ts →
    ExprForm env (.call id es) (.identifier id :: inParens ts)
  | paren {e : Expr} {ts : List Token} : ExprForm env e ts →
    ExprForm env (.unary .noOp e) (inParens ts)
  | scalar {q : Query} {ts : List Token} : QueryForm env q ts →
    ExprForm env (.subquery .scalar .add none q) (inParens ts)
  | exists {q : Query} {ts : List Token} : QueryForm env q ts →
    ExprForm env (.subquery .exists .add none q) (.reserved Kw.EXISTS :: inParens ts)
  | pre {p : SqlOp} {t : Token} {e : Expr} {ts : List Token} : (t, p) ∈ prefixTokens →
    ExprForm env e ts → ExprForm env (.unary p e) (t :: ts)
  | infix {op : SqlOp} {t : Token} {l r : Expr} {ts us : List Token} : (t, op) ∈ infixTokens →
    ExprForm env l ts → ExprForm env r us → ExprForm env (.binary op l r) (ts ++ t :: us)
  | isNull {e : Expr} {ts : List Token} : ExprForm env e ts →
    ExprForm env (.call (env.id (ascii "is_null") false) [e])
      (ts ++ [.reserved Kw.IS, .reserved Kw.NULL])
  | isNotNull {e : Expr} {ts : List Token} : ExprForm env e ts →
    ExprForm env (.unary .not (.call (env.id (ascii "is_null") false) [e]))
      (ts ++ [.reserved Kw.IS, .reserved Kw.NOT, .reserved Kw.NULL])
  | inQuery {e : Expr} {q : Query} {ts us : List Token} : ExprForm env e ts → QueryForm env q us →
    ExprForm env (.subquery .any .equal (some e) q) (ts ++ .reserved Kw.IN :: inParens us)
  | notIn {e : Expr} {q : Query} {ts us : List Token} : ExprForm env e ts → QueryForm env q us →
    ExprForm env (.subquery .all .notEqual (some e) q)
      (ts ++ .reserved Kw.NOT :: .reserved Kw.IN :: inParens us)
  | any {e : Expr} {op : SqlOp} {t : Token} {q : Query} {ts us : List Token} {w : Identifier} :
    ExprForm env e ts → (t, op) ∈ infixTokens → IsBoolean op → w ∈ [Kw.ANY, Kw.SOME] →
    QueryForm env q us →
    ExprForm env (.subquery .any op (some e) q) (ts ++ t :: .reserved w :: inParens us)
  | all {e : Expr} {op : SqlOp} {t : Token} {q : Query} {ts us : List Token} :
    ExprForm env e ts → (t, op) ∈ infixTokens → IsBoolean op → QueryForm env q us →
    ExprForm env (.subquery .all op (some e) q) (ts ++ t :: .reserved Kw.ALL :: inParens us)

/-- A row of `VALUES`. -/
inductive RowForm (env : ParseEnv) : List Expr → List Token → Prop
  | mk {es : List Expr} {ts : List Token} : Separated (ExprForm env) es ts →
    RowForm env es (inParens ts)

/-- A result of `SELECT`. -/
inductive ResultForm (env : ParseEnv) : SelectResult → List Token → Prop
  | table (t : Identifier) : ResultForm env (.table t) [.identifier t, Tok.dot, Tok.star]
  | expr {e : Expr} {a : Identifier} {ts us : List Token} : ExprForm env e ts → OptAlias a us →
    ResultForm env (.expr e a) (ts ++ us)

/-- The results of `SELECT`. -/
inductive ResultsForm (env : ParseEnv) : List SelectResult → List Token → Prop
  | star : ResultsForm env [] [Tok.star]
  | list {l : List SelectResult} {ts : List Token} : Separated (ResultForm env) l ts →
    ResultsForm env l ts

/-- `GROUP BY`. -/
inductive GroupForm (env : ParseEnv) : List Expr → List Token → Prop
  | mk {es : List Expr} {ts : List Token} : Separated (ExprForm env) es ts →
    GroupForm env es (.reserved Kw.BY :: ts)

/-- A query. -/
inductive QueryForm (env : ParseEnv) : Query → List Token → Prop
  | select {results : List SelectResult} {fromItem : Option FromItem} {cond : Option Expr}
      {group : Option (List Expr)} {having : Option Expr} {order : List (Identifier × Bool)}
      {ts fs ws gs hs os : List Token} : ResultsForm env results ts →
    Optional Kw.FROM (FromListForm env) fromItem fs → Optional Kw.WHERE (ExprForm env) cond ws →
    Optional Kw.GROUP (GroupForm env) group gs → Optional Kw.HAVING (ExprForm env) having hs →
    OptOrder order os →
    QueryForm env (.select results fromItem cond (group.getD []) having order)
      (.reserved Kw.SELECT :: (ts ++ (fs ++ (ws ++ (gs ++ (hs ++ os))))))
  | values {rows : List (List Expr)} {ts : List Token} (n : Nat) : (∀ row ∈ rows, row.length = n) →
    Separated (RowForm env) rows ts → QueryForm env (.values rows) (.reserved Kw.VALUES :: ts)
  | table {tn : TableName} {ts : List Token} : TableText tn ts →
    QueryForm env (.select [] (some (.table tn 0)) none [] none []) (.reserved Kw.TABLE :: ts)
  | showAny {q : Query} {ts : List Token} : ShowForm env q ts →
    QueryForm env q (.reserved Kw.SHOW :: ts)

/-- A list of items of `FROM`. -/
inductive FromListForm (env : ParseEnv) : FromItem → List Token → Prop
  | one {f : FromItem} {ts : List Token} : FromForm env f ts → FromListForm env f ts
  | comma {l r : FromItem} {ts us : List Token} : FromListForm env l ts → FromForm env r us →
    FromListForm env (.join l r .crossJoin none []) (ts ++ Tok.comma :: us)

/-- An item of `FROM`. A join has a condition unless it is a `CROSS JOIN`. -/
inductive FromForm (env : ParseEnv) : FromItem → List Token → Prop
  | plain {f : FromItem} {ts : List Token} : FromPartForm env f ts → FromForm env f ts
  | on {l r : FromItem} {jt : JoinType} {e : Expr} {ts ws us vs : List Token} :
    FromPartForm env l ts → JoinWords jt ws → jt ≠ .crossJoin → FromForm env r us →
    ExprForm env e vs →
    FromForm env (.join l r jt (some e) []) (ts ++ (ws ++ (us ++ .reserved Kw.ON :: vs)))
  | using {l r : FromItem} {jt : JoinType} {cols : List Identifier} {ts ws us vs : List Token} :
    FromPartForm env l ts → JoinWords jt ws → jt ≠ .crossJoin → FromForm env r us →
    Separated Name cols vs → cols.Nodup →
    FromForm env (.join l r jt none cols)
      (ts ++ (ws ++ (us ++ .reserved Kw.USING :: inParens vs)))
  | cross {l r : FromItem} {ts ws us : List Token} :
    FromPartForm env l ts → JoinWords .crossJoin ws → FromForm env r us →
    FromForm env (.join l r .crossJoin none []) (ts ++ (ws ++ us))

/-- An item of `FROM` that is not a join. -/
inductive FromPartForm (env : ParseEnv) : FromItem → List Token → Prop
  | table {tn : TableName} {a : Identifier} {ts us : List Token} : TableText tn ts →
    OptAlias a us → FromPartForm env (.table tn a) (ts ++ us)
  | index {tn : TableName} {a : Identifier} {ts us : List Token} (i : Identifier) :
    TableText tn ts → OptAlias a us →
    FromPartForm env (.index tn i a) (ts ++ Tok.atSign :: .identifier i :: us)
  | stmt {q : Query} {a : Identifier} {cols : List Identifier} {ts us vs : List Token} :
    QueryForm env q ts → AliasText a us → OptColumns cols vs →
    FromPartForm env (.stmt q a cols) (inParens ts ++ (us ++ vs))
  | paren {f : FromItem} {ts : List Token} : FromListForm env f ts →
    FromPartForm env f (inParens ts)

end

/-! ### Definitions -/

/-- The names of the types. -/
def typeNames : List (Identifier × ColumnType) :=
  let most : BitVec 32 := BitVec.ofNat 32 (2 ^ 32 - 2)
  [(Kw.BOOL, ⟨.bool, 1, false, false⟩), (Kw.BOOLEAN, ⟨.bool, 1, false, false⟩),
   (Kw.CHAR, ⟨.string, 1, true, false⟩), (Kw.CHARACTER, ⟨.string, 1, true, false⟩),
   (Kw.VARCHAR, ⟨.string, 1, false, false⟩), (Kw.TEXT, ⟨.string, most, false, false⟩),
   (Kw.BINARY, ⟨.bytes, 1, true, false⟩), (Kw.VARBINARY, ⟨.bytes, 1, false, false⟩),
   (Kw.BLOB, ⟨.bytes, most, false, false⟩), (Kw.BYTEA, ⟨.bytes, most, false, false⟩),
   (Kw.BYTES, ⟨.bytes, most, false, false⟩), (Kw.DOUBLE, ⟨.float64, 8, false, false⟩),
   (Kw.REAL, ⟨.float64, 4, false, false⟩), (Kw.SMALLINT, ⟨.int64, 2, false, false⟩),
   (Kw.INT2, ⟨.int64, 2, false, false⟩), (Kw.INT, ⟨.int64, 4, false, false⟩),
   (Kw.INTEGER, ⟨.int64, 4, false, false⟩), (Kw.INT4, ⟨.int64, 4, false, false⟩),
   (Kw.INT8, ⟨.int64, 8, false, false⟩), (Kw.BIGINT, ⟨.int64, 8, false, false⟩)]

/-- A type. Only strings and bytes have a size. -/
inductive TypeForm : ColumnType → List Token → Prop
  | name {w : Identifier} {ct : ColumnType} : (w, ct) ∈ typeNames → TypeForm ct [.identifier w]
  | sized {w : Identifier} {ct : ColumnType} {i : BitVec 64} : (w, ct) ∈ typeNames →
    ct.type = .string ∨ ct.type = .bytes → 0 ≤ i.toInt → i.toInt ≤ 2 ^ 32 - 2 →
    TypeForm { ct with size := BitVec.setWidth 32 i }
      (.identifier w :: inParens [.integer i])
  | double : TypeForm ⟨.float64, 8, false, false⟩ [.identifier Kw.DOUBLE, .identifier Kw.PRECISION]

/-- The columns of a key and their directions, in parentheses. No column is there twice. -/
inductive KeyForm (unique : Bool) : IndexKey → List Token → Prop
  | mk {l : List (Identifier × Bool)} {ts : List Token} : Separated OrderText l ts →
    (l.map (·.1)).Nodup → KeyForm unique ⟨unique, l.map (·.1), l.map (·.2)⟩ (inParens ts)

/-- What to do with rows that refer to a row. -/
inductive ActionForm : RefAction → List Token → Prop
  | noAction : ActionForm .noAction [.reserved Kw.NO, .reserved Kw.ACTION]
  | restrict : ActionForm .restrict [.reserved Kw.RESTRICT]
  | cascade : ActionForm .cascade [.reserved Kw.CASCADE]
  | setNull : ActionForm .setNull [.reserved Kw.SET, .reserved Kw.NULL]
  | setDefault : ActionForm .setDefault [.reserved Kw.SET, .reserved Kw.DEFAULT]

/-- `ON DELETE` and `ON UPDATE`, each at most once, in any order. -/
inductive OnForm : Option RefAction × Option RefAction → List Token →
    Option RefAction × Option RefAction → Prop
  | delete {u : Option RefAction} {a : RefAction} {ts : List Token} : ActionForm a ts →
    OnForm (none, u) (.reserved Kw.ON :: .reserved Kw.DELETE :: ts) (some a, u)
  | update {d : Option RefAction} {a : RefAction} {ts : List Token} : ActionForm a ts →
    OnForm (d, none) (.reserved Kw.ON :: .reserved Kw.UPDATE :: ts) (d, some a)

/-- The actions; without one there is no action. -/
inductive ActionsForm : RefAction → RefAction → List Token → Prop
  | mk {d u : Option RefAction} {ts : List Token} : Repeated OnForm (none, none) ts (d, u) →
    ActionsForm (d.getD .noAction) (u.getD .noAction) ts

/-- The columns of a foreign key, `REFERENCES`, a table, its columns and the actions. -/
inductive ForeignKeyForm (name : Identifier) : ForeignKey → List Token → Prop
  | mk {cols refCols : List Identifier} {tn : TableName} {d u : RefAction}
      {cs ts rs as : List Token} : Separated Name cols cs → TableText tn ts →
    OptColumns refCols rs → ActionsForm d u as →
    ForeignKeyForm name ⟨name, cols, tn, refCols, d, u⟩
      (inParens cs ++ .reserved Kw.REFERENCES :: (ts ++ (rs ++ as)))

/-- `CONSTRAINT` and a name, or nothing and 0. -/
inductive NameForm : Identifier → List Token → Prop
  | none : NameForm 0 []
  | some (n : Identifier) : NameForm n [.reserved Kw.CONSTRAINT, .identifier n]

/-- A key constraint that can be added: no constraint has its name or its key, and there is no
second primary key. -/
def NewKey (s : CreateTable) (ct : ConstraintType) (name : Identifier) (key : IndexKey) : Prop :=
  ∀ c ∈ s.constraints, c.name ≠ name ∧ ¬ (c.type = .primary ∧ ct = .primary) ∧
    ¬ (c.key.columns = key.columns ∧ c.key.reverse = key.reverse)

/-- The definition with another constraint. -/
def withConstraint (s : CreateTable) (c : Constraint) : CreateTable :=
  { s with constraints := s.constraints ++ [c] }

/-- The default or `NOT NULL` of the last column; with a name, it is a constraint. -/
inductive NamedOnColumn (s : CreateTable) (ct : ConstraintType) : Identifier → CreateTable → Prop
  | unnamed : NamedOnColumn s ct 0 s
  | named {n : Identifier} : n ≠ 0 →
    (∀ c ∈ s.constraints, c.name ≠ n ∧ ¬ (c.colNum = ((s.columns.length - 1 : Nat) : Int) ∧ c.type = ct)) →
    NamedOnColumn s ct n
      (withConstraint s ⟨ct, n, ((s.columns.length - 1 : Nat) : Int), ⟨false, [], []⟩, none⟩)

/-- The name of a constraint that is made from the names of columns. -/
def madeName (env : ParseEnv) (name : Identifier) (cols : List Identifier) (suffix : String) :
    Identifier :=
  if name = 0 then env.id (cols.flatMap (fun c => env.string c ++ ascii "_") ++ ascii suffix) false
  else name

section

variable (env : ParseEnv) (E : Expr → List Token → Prop)

/-- A constraint of the column `col`, the last one. The state is the definition, the type and the
default of the column. -/
inductive ColumnConstraintForm (col : Identifier) :
    CreateTable × ColumnType × Option Expr → List Token →
    CreateTable × ColumnType × Option Expr → Prop
  | default {s s' : CreateTable} {ct : ColumnType} {n : Identifier} {e : Expr} {ns ts : List Token} :
    NameForm n ns → NamedOnColumn s .default n s' → E e ts →
    ColumnConstraintForm col (s, ct, none) (ns ++ .reserved Kw.DEFAULT :: ts) (s', ct, some e)
  | notNull {s s' : CreateTable} {ct : ColumnType} {d : Option Expr} {n : Identifier}
      {ns : List Token} : NameForm n ns → ct.notNull = false → NamedOnColumn s .notNull n s' →
    ColumnConstraintForm col (s, ct, d) (ns ++ [.reserved Kw.NOT, .reserved Kw.NULL])
      (s', { ct with notNull := true }, d)
  | primary {s : CreateTable} {ct : ColumnType} {d : Option Expr} {n : Identifier}
      {ns : List Token} : NameForm n ns →
    NewKey s .primary (madeName env n [col] "primary") ⟨true, [col], [false]⟩ →
    ColumnConstraintForm col (s, ct, d) (ns ++ [.reserved Kw.PRIMARY, .reserved Kw.KEY])
      (withConstraint s ⟨.primary, madeName env n [col] "primary", -1, ⟨true, [col], [false]⟩, none⟩,
        ct, d)
  | unique {s : CreateTable} {ct : ColumnType} {d : Option Expr} {n : Identifier}
      {ns : List Token} : NameForm n ns →
    NewKey s .unique (madeName env n [col] "unique") ⟨true, [col], [false]⟩ →
    ColumnConstraintForm col (s, ct, d) (ns ++ [.reserved Kw.UNIQUE])
      (withConstraint s ⟨.unique, madeName env n [col] "unique", -1, ⟨true, [col], [false]⟩, none⟩,
        ct, d)
  | check {s : CreateTable} {ct : ColumnType} {d : Option Expr} {n : Identifier} {e : Expr}
      {ns ts : List Token} : NameForm n ns → E e ts →
    ColumnConstraintForm col (s, ct, d) (ns ++ .reserved Kw.CHECK :: inParens ts)
      (withConstraint s ⟨.check, n, ((s.columns.length - 1 : Nat) : Int), ⟨false, [], []⟩, some e⟩, ct, d)
  | references {s : CreateTable} {ct : ColumnType} {dflt : Option Expr} {n : Identifier}
      {tn : TableName} {refCol : Option Identifier} {d u : RefAction} {ns ts rs as : List Token} :
    NameForm n ns → TableText tn ts →
    rs = (match refCol with | none => [] | some c => inParens [.identifier c]) →
    ActionsForm d u as →
    ColumnConstraintForm col (s, ct, dflt) (ns ++ .reserved Kw.REFERENCES :: (ts ++ (rs ++ as)))
      ({ s with foreignKeys := s.foreignKeys ++ [⟨n, [col], tn, refCol.toList, d, u⟩] }, ct, dflt)

/-- An element of the definition of a table. -/
inductive TableElement : CreateTable → List Token → CreateTable → Prop
  | primary {s : CreateTable} {n : Identifier} {key : IndexKey} {ns ks : List Token} :
    NameForm n ns → KeyForm true key ks →
    NewKey s .primary (madeName env n key.columns "primary") key →
    TableElement s (ns ++ .reserved Kw.PRIMARY :: .reserved Kw.KEY :: ks)
      (withConstraint s ⟨.primary, madeName env n key.columns "primary", -1, key, none⟩)
  | unique {s : CreateTable} {n : Identifier} {key : IndexKey} {ns ks : List Token} :
    NameForm n ns → KeyForm true key ks →
    NewKey s .unique (madeName env n key.columns "unique") key →
    TableElement s (ns ++ .reserved Kw.UNIQUE :: ks)
      (withConstraint s ⟨.unique, madeName env n key.columns "unique", -1, key, none⟩)
  | check {s : CreateTable} {n : Identifier} {e : Expr} {ns ts : List Token} :
    NameForm n ns → E e ts →
    TableElement s (ns ++ .reserved Kw.CHECK :: inParens ts)
      (withConstraint s ⟨.check, n, -1, ⟨false, [], []⟩, some e⟩)
  | foreignKey {s : CreateTable} {n : Identifier} {fk : ForeignKey} {ns ts : List Token} :
    NameForm n ns → ForeignKeyForm n fk ts →
    TableElement s (ns ++ .reserved Kw.FOREIGN :: .reserved Kw.KEY :: ts)
      { s with foreignKeys := s.foreignKeys ++ [fk] }
  | column {s s' : CreateTable} {col : Identifier} {ct ct' : ColumnType} {d : Option Expr}
      {ts us : List Token} : col ∉ s.columns → TypeForm ct ts →
    Repeated (ColumnConstraintForm env E col) ({ s with columns := s.columns ++ [col] }, ct, none) us
      (s', ct', d) →
    TableElement s (.identifier col :: (ts ++ us))
      { s' with columnTypes := s'.columnTypes ++ [ct'], columnDefaults := s'.columnDefaults ++ [d] }

end

/-- An action of `ALTER TABLE`. -/
inductive AlterForm : AlterAction → List Token → Prop
  | add {n : Identifier} {fk : ForeignKey} {ns ts : List Token} : NameForm n ns →
    ForeignKeyForm n fk ts →
    AlterForm (.addForeignKey fk)
      (.reserved Kw.ADD :: (ns ++ .reserved Kw.FOREIGN :: .reserved Kw.KEY :: ts))
  | drop {ifExists : Bool} {es : List Token} (n : Identifier) : IfExists ifExists es →
    AlterForm (.dropConstraint n ifExists 0 .none)
      (.reserved Kw.DROP :: .reserved Kw.CONSTRAINT :: (es ++ [.identifier n]))
  | dropDefault {cs : List Token} (col : Identifier) : cs = [] ∨ cs = [.reserved Kw.COLUMN] →
    AlterForm (.dropConstraint 0 false col .default) (.reserved Kw.ALTER ::
      (cs ++ [.identifier col, .reserved Kw.DROP, .reserved Kw.DEFAULT]))
  | dropNotNull {cs : List Token} (col : Identifier) : cs = [] ∨ cs = [.reserved Kw.COLUMN] →
    AlterForm (.dropConstraint 0 false col .notNull) (.reserved Kw.ALTER ::
      (cs ++ [.identifier col, .reserved Kw.DROP, .reserved Kw.NOT, .reserved Kw.NULL]))

/-- An option of `CREATE DATABASE`. -/
inductive OptionForm (env : ParseEnv) : Identifier × Bytes → List Token → Prop
  | mk {o : Identifier} {v : Bytes} {es : List Token} {t : Token} : es = [] ∨ es = [Tok.equal] →
    ((∃ id, t = .identifier id ∧ v = env.string id) ∨ t = .string v ∨ t = .bytes v ∨
      (∃ i, t = .integer i ∧ v = formatInt i.toInt) ∨ (∃ f, t = .float f ∧ v = env.formatFloatG f)) →
    OptionForm env (o, v) (.identifier o :: (es ++ [t]))

/-- The options; a later one replaces an earlier one with the same name. -/
inductive OptionsForm (env : ParseEnv) : List (Identifier × Bytes) → List Token → Prop
  | one {o : Identifier × Bytes} {ts : List Token} : OptionForm env o ts → OptionsForm env [o] ts
  | more {l : List (Identifier × Bytes)} {o : Identifier × Bytes} {ts us : List Token} :
    OptionsForm env l ts → OptionForm env o us →
    OptionsForm env (l.filter (fun p => p.1 ≠ o.1) ++ [o]) (ts ++ us)

/-- An expression, or `DEFAULT`. -/
inductive OrDefault (E : Expr → List Token → Prop) : Option Expr → List Token → Prop
  | default : OrDefault E none [.reserved Kw.DEFAULT]
  | expr {e : Expr} {ts : List Token} : E e ts → OrDefault E (some e) ts

/-- A row of `INSERT`. -/
inductive InsertForm (E : Expr → List Token → Prop) : List (Option Expr) → List Token → Prop
  | mk {l : List (Option Expr)} {ts : List Token} : Separated (OrDefault E) l ts →
    InsertForm E l (inParens ts)

/-- A column and its new value. -/
inductive UpdateForm (E : Expr → List Token → Prop) : Identifier × Option Expr → List Token → Prop
  | mk {o : Option Expr} {ts : List Token} (c : Identifier) : OrDefault E o ts →
    UpdateForm E (c, o) (.identifier c :: Tok.equal :: ts)

/-- Different columns in parentheses, or nothing. -/
inductive DistinctColumns : List Identifier → List Token → Prop
  | mk {l : List Identifier} {ts : List Token} : OptColumns l ts → l.Nodup → DistinctColumns l ts

/-- A constant as the value of a variable: a string stands for itself, another constant for its
text. -/
inductive SettingForm (env : ParseEnv) (E : Expr → List Token → Prop) : Bytes → List Token → Prop
  | string {s : Bytes} {ts : List Token} : E (.lit (some (.str s))) ts → SettingForm env E s ts
  | other {v : Value} {ts : List Token} : (∀ s, v ≠ .str s) → E (.lit (some v)) ts →
    SettingForm env E (env.valueString v) ts

/-- A delimiter of one byte. -/
inductive DelimiterForm : Nat → List Token → Prop
  | mk (b : Byte) : DelimiterForm b.toNat [.string [b]]

/-- A statement. `COPY` is without the data that follow it. -/
inductive StmtForm (env : ParseEnv) (E : Expr → List Token → Prop) (Q : Query → List Token → Prop) :
    Stmt → List Token → Prop
  | begin : StmtForm env E Q .begin [.reserved Kw.BEGIN]
  | start : StmtForm env E Q .begin [.reserved Kw.START, .reserved Kw.TRANSACTION]
  | commit : StmtForm env E Q .commit [.reserved Kw.COMMIT]
  | rollback : StmtForm env E Q .rollback [.reserved Kw.ROLLBACK]
  | query {q : Query} {ts : List Token} {w : Identifier} : w ∈ [Kw.SELECT, Kw.SHOW, Kw.VALUES] →
    Q q (.reserved w :: ts) → StmtForm env E Q (.query q) (.reserved w :: ts)
  | explain {q : Query} {ts vs : List Token} {verbose : Bool} :
    vs = (if verbose then [.reserved Kw.VERBOSE] else []) → Q q (.reserved Kw.SELECT :: ts) →
    StmtForm env E Q (.explain q verbose)
      (.reserved Kw.EXPLAIN :: (vs ++ .reserved Kw.SELECT :: ts))
  | set {var : Identifier} {value : Bytes} {t t' : Token} {ts : List Token} :
    t = .identifier var ∨ var ∈ [Kw.DATABASE, Kw.SCHEMA] ∧ t = .reserved var →
    t' = Tok.equal ∨ t' = .reserved Kw.TO → SettingForm env E value ts →
    StmtForm env E Q (.set var value) (.reserved Kw.SET :: t :: t' :: ts)
  | use {value : Bytes} {ts : List Token} : SettingForm env E value ts →
    StmtForm env E Q (.set Kw.DATABASE value) (.reserved Kw.USE :: ts)
  | createTable {ifNotExists : Bool} {tn : TableName} {s : CreateTable} {es ts us : List Token} :
    IfNotExists ifNotExists es → TableText tn ts →
    Changes (TableElement env E) ⟨tn, [], [], [], ifNotExists, [], []⟩ us s →
    StmtForm env E Q (.createTable s)
      (.reserved Kw.CREATE :: .reserved Kw.TABLE :: (es ++ (ts ++ inParens us)))
  | createIndex {index : Identifier} {tn : TableName} {key : IndexKey} {ifNotExists unique : Bool}
      {vs es ts us ks : List Token} : vs = (if unique then [.reserved Kw.UNIQUE] else []) →
    IfNotExists ifNotExists es → TableText tn ts →
    us = [] ∨ us = [.reserved Kw.USING, .identifier Kw.BTREE] → KeyForm unique key ks →
    StmtForm env E Q (.createIndex index tn key ifNotExists)
      (.reserved Kw.CREATE :: (vs ++ .reserved Kw.INDEX ::
        (es ++ .identifier index :: .reserved Kw.ON :: (ts ++ (us ++ ks)))))
  | createDatabase {d : Identifier} {o : Option (List (Identifier × Bytes))} {ts : List Token} :
    Optional Kw.WITH (OptionsForm env) o ts →
    StmtForm env E Q (.createDatabase d (o.getD []))
      (.reserved Kw.CREATE :: .reserved Kw.DATABASE :: .identifier d :: ts)
  | createSchema {sn : SchemaName} {ts : List Token} : SchemaForm sn ts →
    StmtForm env E Q (.createSchema sn) (.reserved Kw.CREATE :: .reserved Kw.SCHEMA :: ts)
  | alterTable {tn : TableName} {l : List AlterAction} {ts us : List Token} : TableText tn ts →
    Separated AlterForm l us →
    StmtForm env E Q (.alterTable tn l) (.reserved Kw.ALTER :: .reserved Kw.TABLE :: (ts ++ us))
  | dropTable {ifExists cascade : Bool} {l : List TableName} {es ts cs : List Token} :
    IfExists ifExists es → Separated TableText l ts →
    (if cascade then cs = [.reserved Kw.CASCADE] else cs = [] ∨ cs = [.reserved Kw.RESTRICT]) →
    StmtForm env E Q (.dropTable ifExists cascade l)
      (.reserved Kw.DROP :: .reserved Kw.TABLE :: (es ++ (ts ++ cs)))
  | dropIndex {ifExists : Bool} {index : Identifier} {tn : TableName} {es ts : List Token} :
    IfExists ifExists es → TableText tn ts →
    StmtForm env E Q (.dropIndex tn index ifExists)
      (.reserved Kw.DROP :: .reserved Kw.INDEX ::
        (es ++ .identifier index :: .reserved Kw.ON :: ts))
  | dropDatabase {ifExists : Bool} {es : List Token} (d : Identifier) : IfExists ifExists es →
    StmtForm env E Q (.dropDatabase ifExists d)
      (.reserved Kw.DROP :: .reserved Kw.DATABASE :: (es ++ [.identifier d]))
  | dropSchema {ifExists : Bool} {sn : SchemaName} {es ts : List Token} : IfExists ifExists es →
    SchemaForm sn ts →
    StmtForm env E Q (.dropSchema ifExists sn)
      (.reserved Kw.DROP :: .reserved Kw.SCHEMA :: (es ++ ts))
  | copy {tn : TableName} {cols : List Identifier} {d : Option Nat} {ts cs ds : List Token} :
    TableText tn ts → DistinctColumns cols cs → Optional Kw.DELIMITER DelimiterForm d ds →
    StmtForm env E Q (.copy tn cols [] (d.getD 9))
      (.reserved Kw.COPY :: (ts ++ (cs ++ .reserved Kw.FROM :: .identifier Kw.STDIN :: ds)))
  | delete {tn : TableName} {cond : Option Expr} {ts ws : List Token} : TableText tn ts →
    Optional Kw.WHERE E cond ws →
    StmtForm env E Q (.delete tn cond) (.reserved Kw.DELETE :: .reserved Kw.FROM :: (ts ++ ws))
  | insert {tn : TableName} {cols : List Identifier} {rows : List (List (Option Expr))}
      {ts cs rs : List Token} : TableText tn ts → DistinctColumns cols cs →
    Separated (InsertForm E) rows rs →
    StmtForm env E Q (.insert tn cols rows)
      (.reserved Kw.INSERT :: .reserved Kw.INTO :: (ts ++ (cs ++ .reserved Kw.VALUES :: rs)))
  | update {tn : TableName} {l : List (Identifier × Option Expr)} {cond : Option Expr}
      {ts us ws : List Token} : TableText tn ts → Separated (UpdateForm E) l us →
    Optional Kw.WHERE E cond ws →
    StmtForm env E Q (.update tn l cond)
      (.reserved Kw.UPDATE :: (ts ++ .reserved Kw.SET :: (us ++ ws)))

end Maho.Spec
