import Verif.Model.Sql
import Verif.Model.Scan
import Verif.Model.Lookback
/-
What the parser should do. Nothing here refers to the parser.
-/
namespace Maho.Spec
open Maho

/-- C65: the constraint is one of the table, or one of a column that there is. The default or
`NOT NULL` that it names is there. -/
def Refers (types : List ColumnType) (defaults : List (Option Expr)) (c : Constraint) : Prop :=
  (c.colNum = -1 ∧ c.type ≠ .default ∧ c.type ≠ .notNull) ∨
    ∃ i : Nat, c.colNum = i ∧ i < types.length ∧
      (c.type = .default → ∃ e, defaults[i]? = some (some e)) ∧
      (c.type = .notNull → ∃ ct, types[i]? = some ct ∧ ct.notNull = true)

/-- C65: a definition of a table is consistent. -/
structure Consistent (s : CreateTable) : Prop where
  distinct : s.columns.Nodup
  types : s.columnTypes.length = s.columns.length
  defaults : s.columnDefaults.length = s.columns.length
  primary : (s.constraints.filter (·.type == .primary)).length ≤ 1
  directions : ∀ c ∈ s.constraints, c.key.reverse.length = c.key.columns.length
  refers : ∀ c ∈ s.constraints, Refers s.columnTypes s.columnDefaults c

/-- C64: the statements begin with `USE NULL`, or with `SET` and `NULL` as the value of a variable.
-70, -60 and -47 are the reserved identifiers `USE`, `SET` and `NULL` (types/identifier.go). -/
def NullSetting (ts : List Token) : Prop :=
  (∃ rest, ts = .reserved (-70) :: .reserved (-47) :: rest) ∨
    ∃ v t rest, ts = .reserved (-60) :: v :: t :: .reserved (-47) :: rest

/-- What is left after the first `;`. -/
def afterSemicolon : List Token → List Token
  | [] => []
  | .endOfStatement :: rest => rest
  | _ :: rest => afterSemicolon rest

/-- C64: what a reader of `stream` that stands before token `pos` returns for calls of `scan` and
`unscan`, when it can go back as far as it likes. -/
def reads (stream : Nat → Token) (pos : Nat) : List RingCall → List Token
  | [] => []
  | .scan :: calls => stream pos :: reads stream (pos + 1) calls
  | .unscan :: calls => reads stream (pos - 1) calls

/-- C64: the calls never go back further than three tokens from the farthest token read, `far`,
and not before the first token. -/
def Near (pos far : Nat) : List RingCall → Prop
  | [] => True
  | .scan :: calls => Near (pos + 1) (max far (pos + 1)) calls
  | .unscan :: calls => 0 < pos ∧ far < pos + 3 ∧ Near (pos - 1) far calls

/-- `types.ID` finds the keywords. -/
def KnowsKeywords (env : ScanEnv) : Prop :=
  ∀ p ∈ keywordTable, env.id (ascii p.1) false = p.2

/-- What is read of a text in ASCII. -/
def source (b : Bytes) : List Nat := b.map (·.toNat)

end Maho.Spec
