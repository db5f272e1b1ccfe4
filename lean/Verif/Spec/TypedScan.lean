import Verif.Model.Typed
import Verif.Spec.Storage
/-
What going through the rows of a typed table with a callback should do to the rows.
-/
namespace Maho.Spec
open Maho

/-- Going through the rows of a table in order. Each row in the range is offered to the callback,
which says by which rows it is replaced; the other rows stay. An end of file from the callback ends
the visit without an error, an error or a panic ends it with that; from there on all rows stay. The
results are the outcome, what the callback remembers, and the rows afterwards. -/
def visit {σ : Type} (inRange : Row → Bool) (fn : Row → σ → Res (List Row) × σ) :
    List Row → σ → Res Unit × σ × List Row
  | [], x => (.ok (), x, [])
  | r :: rs, x =>
    if inRange r then
      match fn r x with
      | (.ok new, x) =>
        let (res, x, rs) := visit inRange fn rs x
        (res, x, new ++ rs)
      | (.err .eof, x) => (.ok (), x, r :: rs)
      | (.err .other, x) => (.err .other, x, r :: rs)
      | (.panic, x) => (.panic, x, r :: rs)
    else
      let (res, x, rs) := visit inRange fn rs x
      (res, x, r :: rs)

/-- The row is between the bounds, in the order of the key. -/
def within (key : List ColumnKey) (mn mx : Option Row) (r : Row) : Bool :=
  atLeast (keyCols key) mn r && atMost (keyCols key) mx r

/-- Deleting: a row is replaced by nothing if the callback says so, and else by itself. -/
def deleting {σ : Type} (fn : Row → σ → Res Bool × σ) (r : Row) (x : σ) : Res (List Row) × σ :=
  match fn r x with
  | (.ok true, x) => (.ok [], x)
  | (.ok false, x) => (.ok [r], x)
  | (.err e, x) => (.err e, x)
  | (.panic, x) => (.panic, x)

/-- Updating: a row is replaced by what `change` makes of it with the columns and values of the
struct of the callback, and by itself if the callback gives none. -/
def updating {σ : Type} (ti : TypedInfo)
    (change : Row → List ColumnNum → List (Option Value) → Res Row)
    (fn : Row → σ → Res (Option Struct) × σ) (r : Row) (x : σ) : Res (List Row) × σ :=
  match fn r x with
  | (.ok none, x) => (.ok [r], x)
  | (.ok (some st), x) =>
    (do
      let (cols, vals) ← ti.structToColsVals st.typ st.vals
      let new ← change r cols vals
      .ok [new], x)
  | (.err e, x) => (.err e, x)
  | (.panic, x) => (.panic, x)

/-- One of the columns belongs to the key. -/
def touchesKey (key : List ColumnKey) (cols : List ColumnNum) : Bool :=
  cols.any fun c => (keyCols key).any fun kc => kc.1 == c.toNat

/-- The changed row: the columns are replaced; if one of them belongs to the key, the whole row is
converted to the types of the columns. -/
def changedRow (env : StoreEnv) (tt : TableType) (r : Row) (cols : List ColumnNum)
    (vals : List (Option Value)) : Res Row :=
  if touchesKey tt.key cols then convertRow env.float tt.columnTypes (replaceColumns r cols vals)
  else .ok (replaceColumns r cols vals)

/-- Reading: every row stays. -/
def reading {σ : Type} (fn : Row → σ → Res Unit × σ) (r : Row) (x : σ) : Res (List Row) × σ :=
  match fn r x with
  | (.ok (), x) => (.ok [r], x)
  | (.err e, x) => (.err e, x)
  | (.panic, x) => (.panic, x)

end Maho.Spec
