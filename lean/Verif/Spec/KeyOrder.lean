import Verif.Model.Key
/-
Specification of the order of rows under a key: which row comes first, said in terms
of the column values and not of any encoding.
-/
namespace Maho.Spec

/-- Kinds of values in index order; NULL comes before everything. -/
def keyRank : Option Value → Nat
  | none => 0
  | some (.bool _) => 1
  | some (.int _) => 2
  | some (.float _) => 3
  | some (.str _) => 4
  | some (.bytes _) => 5

/-- Numerical order of floats (values in units of 2^-1074), -0 = +0, all NaNs equal and
before every number. -/
def floatOrder (a b : F64) : Ordering :=
  if F64.isNaN a then (if F64.isNaN b then .eq else .lt)
  else if F64.isNaN b then .gt
  else compare (F64.scaled a) (F64.scaled b)

/-- Ascending order of two column values. -/
def ascOrder (v w : Option Value) : Ordering :=
  match v, w with
  | some (.bool a), some (.bool b) => compare a.toNat b.toNat
  | some (.int a), some (.int b) => compare a.toInt b.toInt
  | some (.float a), some (.float b) => floatOrder a b
  | some (.str a), some (.str b) => bytesCompare a b
  | some (.bytes a), some (.bytes b) => bytesCompare a b
  | v, w => compare (keyRank v) (keyRank w)

/-- Order of two column values in an ascending (`false`) or descending (`true`) key
column. Only values of the same kind are reversed by DESC; in particular NULL stays first. -/
def columnOrder (desc : Bool) (v w : Option Value) : Ordering :=
  if keyRank v = keyRank w then
    (if desc then ascOrder w v else ascOrder v w)
  else compare (keyRank v) (keyRank w)

/-- A key column: its number and whether it is descending. -/
abbrev KeyCol := Nat × Bool

/-- Column by column comparison of two rows, the first difference decides. `none` in a
missing column cannot occur when the rows have all key columns. -/
def rowOrder : List KeyCol → Row → Row → Ordering
  | [], _, _ => .eq
  | (c, desc) :: key, r1, r2 =>
    (columnOrder desc (r1.getD c none) (r2.getD c none)).then (rowOrder key r1 r2)

/-- The row has a value (possibly NULL) in every key column. -/
def HasColumns (key : List KeyCol) (r : Row) : Prop := ∀ kc ∈ key, kc.1 < r.length

/-- How the code's column keys are read. -/
def keyCols (key : List ColumnKey) : List KeyCol :=
  key.map fun ck => ((ColumnKey.column ck).toNat, ColumnKey.reverse ck)

/-- Equality of column values as keys: equal values, with -0 = +0 and all NaNs equal. -/
def SameKeyValue : Option Value → Option Value → Prop
  | some (.float a), some (.float b) =>
    (F64.isNaN a = true ∧ F64.isNaN b = true) ∨
    (F64.isNaN a = false ∧ F64.isNaN b = false ∧ F64.scaled a = F64.scaled b)
  | v, w => v = w

end Maho.Spec
