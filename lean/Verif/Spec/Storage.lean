import Verif.Model.Storage
import Verif.Spec.KeyOrder
import Verif.Spec.Value
/-
What a stored table is and what a scan of it should return.
-/
namespace Maho.Spec
open Maho

/-- The rows of a table, in stored order. -/
def rowsOf (t : Tree) (tid : TableId) : List Row :=
  (t.filter (fun it => it.rel == toRelationId tid 0#32)).map (·.row)

/-- The store is strictly sorted by table and key: no two items have the same table and key. -/
def Ascending (t : Tree) : Prop :=
  t.Pairwise fun a b =>
    a.rel.toNat < b.rel.toNat ∨ (a.rel = b.rel ∧ bytesCompare a.key b.key = .lt)

/-- A table is well kept: the store is sorted, every row of the table has as many columns as the
table and is stored under the key computed from its own columns. -/
structure TableOk (tbl : Table) (t : Tree) : Prop where
  sorted : Ascending t
  keyed : ∀ it ∈ t, it.rel = toRelationId tbl.tid 0#32 → makeKey tbl.tt.key it.row = .ok it.key
  width : ∀ it ∈ t, it.rel = toRelationId tbl.tid 0#32 →
    it.row.length = tbl.tt.columnTypes.length

/-- The key columns of the table exist (checked when the table is created). -/
def KeyColumnsExist (tt : TableType) : Prop :=
  ∀ kc ∈ Spec.keyCols tt.key, kc.1 < tt.columnTypes.length

/-- The row is not before the lower bound of a scan. -/
def atLeast (key : List KeyCol) : Option Row → Row → Bool
  | none, _ => true
  | some m, r => rowOrder key m r != .gt

/-- The row is not after the upper bound of a scan. -/
def atMost (key : List KeyCol) : Option Row → Row → Bool
  | none, _ => true
  | some m, r => rowOrder key r m != .gt

/-- The row satisfies the predicate of a scan. -/
def satisfies : Option Predicate → Row → Bool
  | none, _ => true
  | some p, r =>
    match r[p.column.toNat]? with
    | some (some (.bool b)) => p.bool.any (fun f => f b)
    | some (some (.str s)) => p.str.any (fun f => f s)
    | some (some (.bytes b)) => p.bytes.any (fun f => f b)
    | some (some (.float x)) => p.float.any (fun f => f x)
    | some (some (.int i)) => p.int.any (fun f => f i)
    | _ => false

/-- The predicate can test values of the type. -/
def CanTest (p : Predicate) : ValueType → Prop
  | .bool => p.bool.isSome
  | .string => p.str.isSome
  | .bytes => p.bytes.isSome
  | .float64 => p.float.isSome
  | .int64 => p.int.isSome
  | _ => False

/-- The predicate fits the table: its column exists and it can test values of its type. -/
def FitsTable (tt : TableType) : Option Predicate → Prop
  | none => True
  | some p => ∃ ct, tt.columnTypes[p.column.toNat]? = some ct ∧ CanTest p ct.type

/-- The row has a value of the column's type, not NULL, in the column of the predicate. -/
def Testable (tt : TableType) (r : Row) : Option Predicate → Prop
  | none => True
  | some p => ∃ ct v, tt.columnTypes[p.column.toNat]? = some ct ∧
      r[p.column.toNat]? = some (some v) ∧ HasType v ct.type

/-- What a scan should return: the rows of the table within the bounds that satisfy the
predicate. -/
def scanRows (t : Tree) (tbl : Table) (minRow maxRow : Option Row) (pred : Option Predicate) :
    List Row :=
  (rowsOf t tbl.tid).filter fun r =>
    atLeast (Spec.keyCols tbl.tt.key) minRow r && atMost (Spec.keyCols tbl.tt.key) maxRow r &&
      satisfies pred r

/-- The given columns of a row, all columns if none are given. -/
def columnsOf (cols : Option (List ColumnNum)) (r : Row) : Row :=
  match cols with
  | none => r
  | some cols => cols.map fun c => r.getD c.toNat none

/-- The row with the given columns replaced; if a column is given twice the last value counts. -/
def replaceColumns (r : Row) (cols : List ColumnNum) (vals : List (Option Value)) : Row :=
  r.mapIdx fun i old =>
    match (cols.zip vals).reverse.find? (fun p => p.1.toNat == i) with
    | some p => p.2
    | none => old

/-- The lists have the same length and corresponding elements are related. -/
inductive All2 {α β : Type} (R : α → β → Prop) : List α → List β → Prop
  | nil : All2 R [] []
  | cons {a b as bs} : R a b → All2 R as bs → All2 R (a :: as) (b :: bs)

/-- No two of the rows, and none of them and a row of the other list, have equal key columns. -/
def NewKeys (key : List KeyCol) (new old : List Row) : Prop :=
  new.Pairwise (fun a b => rowOrder key a b ≠ .eq) ∧
    ∀ a ∈ new, ∀ b ∈ old, rowOrder key a b ≠ .eq

end Maho.Spec
