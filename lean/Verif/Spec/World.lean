import Verif.Model.World
import Verif.Spec.Storage
/-
What the operations on the store mean: the committed state, the writes of a transaction and
replaying them.
-/
namespace Maho.Spec
open Maho

/-- The committed state of the store. -/
def committed (w : World) : Tree := w.heap.getD w.storeTree []

/-- The changes a transaction can make. -/
inductive Write where
  | create (tid : TableId) (tn : TableName) (colNames : List Identifier)
      (colTypes : List ColumnType) (primary : Option (List ColumnKey))
  | drop (tid : TableId)
  | insert (tbl : Table) (rows : List Row)
  | update (tbl : Table) (key : Bytes) (cols : List ColumnNum) (vals : List (Option Value))
  | delete (tbl : Table) (key : Bytes)

/-- The store after a change; a refused change leaves it. -/
def applyWrite (env : StoreEnv) (t : Tree) : Write → Tree
  | .create tid tn colNames colTypes primary =>
    match createTable env t tid tn colNames colTypes primary with
    | .ok t' => t'
    | _ => t
  | .drop tid =>
    match dropTable env t tid with
    | .ok t' => t'
    | _ => t
  | .insert tbl rows => (insertRows env t tbl rows).2
  | .update tbl key cols vals => (updateRow env t tbl key cols vals).2
  | .delete tbl key =>
    match deleteRow t tbl key with
    | .ok t' => t'
    | _ => t

/-- The transaction an operation changes, and the change, if it is active. -/
def writeOf (w : World) (op : Op) : Option (Nat × Write) :=
  let active (tx : Nat) (wr : Write) := if (w.treeOf tx).isSome then some (tx, wr) else none
  match op with
  | .createTable tx tid tn colNames colTypes primary =>
    active tx (.create tid tn colNames colTypes primary)
  | .dropTable tx tid => active tx (.drop tid)
  | .insert table rows =>
    match w.tables[table]? with
    | some e => active e.tx (.insert e.tbl rows)
    | none => none
  | .update ref cols vals =>
    match w.refs[ref]? with
    | some e => active e.tx (.update e.tbl e.key cols vals)
    | none => none
  | .delete ref =>
    match w.refs[ref]? with
    | some e => active e.tx (.delete e.tbl e.key)
    | none => none
  | _ => none

/-- The changes transaction `tx` makes in a history, in order. -/
def writesBy (env : StoreEnv) (tx : Nat) : World → List Op → List Write
  | _, [] => []
  | w, op :: ops =>
    match writeOf w op with
    | some (i, wr) =>
      if i = tx then wr :: writesBy env tx (step env w op).2 ops
      else writesBy env tx (step env w op).2 ops
    | none => writesBy env tx (step env w op).2 ops

/-- The transactions that commit in a history, in the order of their commits. -/
def commits (env : StoreEnv) : World → List Op → List Nat
  | _, [] => []
  | w, op :: ops =>
    match op, (step env w op).1 with
    | .commit tx, .done => tx :: commits env (step env w op).2 ops
    | _, _ => commits env (step env w op).2 ops

/-- The number of open scans of a transaction. -/
def openRows (w : World) (tx : Nat) : Nat :=
  w.rows.countP fun e => decide (e.tx = tx ∧ 0 ≤ e.obj.next)

/-- The transaction has the store locked. -/
def Holds (w : World) (tx : Nat) : Prop :=
  ∃ s, w.txs[tx]? = some s ∧
    (s.phase = .begun ∨ s.phase = .active ∨ s.phase = .published ∨ s.phase = .releasing)

/-- The transaction is between the end of `Begin` and the start of `Commit` or `Rollback`. -/
def Active (w : World) (tx : Nat) : Prop := ∃ s, w.txs[tx]? = some s ∧ s.phase = .active

/-- The scans that are closed in a history. -/
def closes (env : StoreEnv) : World → List Op → List Nat
  | _, [] => []
  | w, op :: ops =>
    match op, (step env w op).1 with
    | .close n, .done => n :: closes env (step env w op).2 ops
    | _, _ => closes env (step env w op).2 ops

/-- What the calls of `Next` of scan `n` return in a history. -/
def nextReplies (env : StoreEnv) (n : Nat) : World → List Op → List Reply
  | _, [] => []
  | w, op :: ops =>
    match op with
    | .next m =>
      if m = n then (step env w op).1 :: nextReplies env n (step env w op).2 ops
      else nextReplies env n (step env w op).2 ops
    | _ => nextReplies env n (step env w op).2 ops

end Maho.Spec
