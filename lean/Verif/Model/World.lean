import Verif.Model.Storage
/-
Model of storage/basic with its objects: the store and its mutex, trees on a heap, transactions,
tables, rows and row references, used by any number of goroutines. A history is a list of
operations; operations on the same transaction come from one goroutine at a time, the places
where another goroutine can come in between are separate operations.
-/
namespace Maho

/-- Where a transaction is. -/
inductive Phase where
  /-- in `Begin` (storage/basic/basic.go:83-89), between line 84 and line 87 -/
  | begun
  /-- `Begin` returned -/
  | active
  /-- in `Commit` (227-239), between line 234 and line 235 -/
  | published
  /-- in `Rollback` (241-252), before line 248 -/
  | releasing
  /-- in `Commit` or `Rollback`, after the mutex was unlocked -/
  | unlocked
  /-- `Commit` or `Rollback` returned: `tx.st` is nil -/
  | completed
deriving DecidableEq

/-- storage/basic/basic.go:27-31 `transaction`; `tree` is a pointer to a tree on the heap. -/
structure TxState where
  phase : Phase
  tree : Nat
  rowsCount : Int
deriving DecidableEq

/-- A table: its transaction and the rest of storage/basic/basic.go:41-45. -/
structure TableObj where
  tx : Nat
  tbl : Table

/-- storage/basic/basic.go:47-52 `rows`. -/
structure RowsEntry where
  tx : Nat
  tbl : Table
  obj : RowsObj

/-- storage/basic/basic.go:54-57 `rowRef`. -/
structure RefEntry where
  tx : Nat
  tbl : Table
  key : Bytes

/-- The objects in memory. Objects are numbered in the order they were made. -/
structure World where
  heap : List Tree
  /-- storage/basic/basic.go:22-25 `store` -/
  storeTree : Nat
  locked : Bool
  txs : List TxState
  tables : List TableObj
  rows : List RowsEntry
  refs : List RefEntry

/-- storage/basic/basic.go:59-63 `NewStore`. -/
def World.initial : World := ⟨[[]], 0, false, [], [], [], []⟩

/-- The operations of the storage interface (storage/storage.go:25-36, 62-88). `Begin`, `Commit`
and `Rollback` are divided where another goroutine can come in between. -/
inductive Op where
  | beginLock
  | beginRead (tx : Nat)
  | commit (tx : Nat)
  | rollback (tx : Nat)
  | unlock (tx : Nat)
  | forget (tx : Nat)
  | openTable (tx : Nat) (tid : TableId) (tn : TableName) (colNames : List Identifier)
      (colTypes : List ColumnType) (primary : List ColumnKey)
  | createTable (tx : Nat) (tid : TableId) (tn : TableName) (colNames : List Identifier)
      (colTypes : List ColumnType) (primary : Option (List ColumnKey))
  | dropTable (tx : Nat) (tid : TableId)
  | rows (table : Nat) (cols : Option (List ColumnNum)) (minRow maxRow : Option Row)
      (pred : Option Predicate)
  | insert (table : Nat) (rows : List Row)
  | next (rows : Nat)
  | current (rows : Nat)
  | close (rows : Nat)
  | update (ref : Nat) (cols : List ColumnNum) (vals : List (Option Value))
  | delete (ref : Nat)

/-- What an operation returns. -/
inductive Reply where
  /-- nothing, without an error -/
  | done
  /-- the number of a new object -/
  | handle (n : Nat)
  | row (r : Row)
  | err (e : Err)
  | panic
  /-- the goroutine waits for the mutex -/
  | blocked
  /-- there is no such object, or its goroutine is not at this place -/
  | impossible
  /-- sync: unlock of unlocked mutex -/
  | fatal
deriving DecidableEq

/-- The tree a transaction works on. -/
def World.treeOf (w : World) (tx : Nat) : Option Tree :=
  match w.txs[tx]? with
  | some ⟨.active, p, _⟩ => w.heap[p]?
  | _ => none

/-- Has the transaction completed (`tx.st` and `tx.tree` are nil)? -/
def World.completed (w : World) (tx : Nat) : Bool :=
  match w.txs[tx]? with
  | some ⟨.completed, _, _⟩ => true
  | _ => false

def World.setTx (w : World) (tx : Nat) (f : TxState → TxState) : World :=
  { w with txs := w.txs.modify tx f }

/-- storage/basic/basic.go:258-262 `forWrite`, for an active transaction. -/
def World.forWrite (w : World) (tx : Nat) : World :=
  match w.txs[tx]? with
  | some ⟨.active, p, _⟩ =>
    if p = w.storeTree then
      { w with
        heap := w.heap ++ [w.heap.getD p []]
        txs := w.txs.modify tx fun s => { s with tree := w.heap.length } }
    else w
  | _ => w

/-- Change the tree the transaction points to. -/
def World.store (w : World) (tx : Nat) (t : Tree) : World :=
  match w.txs[tx]? with
  | some ⟨.active, p, _⟩ => { w with heap := w.heap.set p t }
  | _ => w

/-- Use the tree of a transaction: with a completed transaction the nil tree or the nil store is
dereferenced. -/
def World.withTree (w : World) (tx : Nat) (f : Tree → Reply × World) : Reply × World :=
  match w.treeOf tx with
  | some t => f t
  | none => if w.completed tx then (.panic, w) else (.impossible, w)

def Reply.ofUnit : Res Unit → Reply
  | .ok () => .done
  | .err e => .err e
  | .panic => .panic

/-- One operation. -/
def step (env : StoreEnv) (w : World) : Op → Reply × World
  -- storage/basic/basic.go:84
  | .beginLock =>
    if w.locked then (.blocked, w)
    else (.handle w.txs.length, { w with locked := true, txs := w.txs ++ [⟨.begun, 0, 0⟩] })
  -- storage/basic/basic.go:85-88
  | .beginRead tx =>
    match w.txs[tx]? with
    | some ⟨.begun, _, _⟩ => (.done, w.setTx tx fun s => { s with phase := .active, tree := w.storeTree })
    | _ => (.impossible, w)
  -- storage/basic/basic.go:228-234
  | .commit tx =>
    match w.txs[tx]? with
    | some ⟨.completed, _, _⟩ => (.err .other, w)
    | some ⟨.active, p, n⟩ =>
      if n ≠ 0 then (.panic, w)
      else (.done, { w.setTx tx (fun s => { s with phase := .published }) with storeTree := p })
    | _ => (.impossible, w)
  -- storage/basic/basic.go:242-246
  | .rollback tx =>
    match w.txs[tx]? with
    | some ⟨.completed, _, _⟩ => (.err .other, w)
    | some ⟨.active, _, n⟩ =>
      if n ≠ 0 then (.panic, w)
      else (.done, w.setTx tx (fun s => { s with phase := .releasing }))
    | _ => (.impossible, w)
  -- storage/basic/basic.go:235 and 248
  | .unlock tx =>
    match w.txs[tx]? with
    | some ⟨.published, _, _⟩ | some ⟨.releasing, _, _⟩ =>
      if w.locked then
        (.done, { w.setTx tx (fun s => { s with phase := .unlocked }) with locked := false })
      else (.fatal, w)
    | _ => (.impossible, w)
  -- storage/basic/basic.go:236-238 and 249-251
  | .forget tx =>
    match w.txs[tx]? with
    | some ⟨.unlocked, _, _⟩ =>
      (.done, w.setTx tx (fun s => { s with phase := .completed, tree := 0 }))
    | _ => (.impossible, w)
  -- storage/basic/basic.go:139-169
  | .openTable tx tid tn colNames colTypes primary =>
    w.withTree tx fun t =>
      match openTable env t tid tn colNames colTypes primary with
      | .ok tbl => (.handle w.tables.length, { w with tables := w.tables ++ [⟨tx, tbl⟩] })
      | .err e => (.err e, w)
      | .panic => (.panic, w)
  -- storage/basic/basic.go:171-211
  | .createTable tx tid tn colNames colTypes primary =>
    w.withTree tx fun t =>
      match createTable env t tid tn colNames colTypes primary with
      | .ok t' => (.done, (w.forWrite tx).store tx t')
      | .err e => (.err e, w)
      | .panic => (.panic, w)
  -- storage/basic/basic.go:213-225
  | .dropTable tx tid =>
    w.withTree tx fun t =>
      match dropTable env t tid with
      | .ok t' => (.done, (w.forWrite tx).store tx t')
      | .err e => (.err e, w)
      | .panic => (.panic, w)
  -- storage/basic/basic.go:324-365
  | .rows table cols minRow maxRow pred =>
    match w.tables[table]? with
    | none => (.impossible, w)
    | some ⟨tx, tbl⟩ =>
      w.withTree tx fun t =>
        match tableRows t tbl cols minRow maxRow pred with
        | .ok rs =>
          (.handle w.rows.length,
            { w.setTx tx (fun s => { s with rowsCount := s.rowsCount + 1 }) with
              rows := w.rows ++ [⟨tx, tbl, rs⟩] })
        | .err e => (.err e, w)
        | .panic => (.panic, w)
  -- storage/basic/basic.go:367-387
  | .insert table rows =>
    match w.tables[table]? with
    | none => (.impossible, w)
    | some ⟨tx, tbl⟩ =>
      w.withTree tx fun t =>
        let (r, t') := insertRows env t tbl rows
        (.ofUnit r, (w.forWrite tx).store tx t')
  -- storage/basic/basic.go:389-408
  | .next n =>
    match w.rows[n]? with
    | none => (.impossible, w)
    | some e =>
      let (r, rs) := e.obj.nextRow
      let w' := { w with rows := w.rows.set n { e with obj := rs } }
      match r with
      | .ok row => (.row row, w')
      | .err e => (.err e, w')
      | .panic => (.panic, w')
  -- storage/basic/basic.go:410-419
  | .current n =>
    match w.rows[n]? with
    | none => (.impossible, w)
    | some e =>
      match e.obj.current with
      | .ok key => (.handle w.refs.length, { w with refs := w.refs ++ [⟨e.tx, e.tbl, key⟩] })
      | .err e => (.err e, w)
      | .panic => (.panic, w)
  -- storage/basic/basic.go:421-429
  | .close n =>
    match w.rows[n]? with
    | none => (.impossible, w)
    | some e =>
      match e.obj.close with
      | .ok rs =>
        (.done, { w.setTx e.tx (fun s => { s with rowsCount := s.rowsCount - 1 }) with
          rows := w.rows.set n { e with obj := rs } })
      | .err e => (.err e, w)
      | .panic => (.panic, w)
  -- storage/basic/basic.go:431-463
  | .update n cols vals =>
    match w.refs[n]? with
    | none => (.impossible, w)
    | some ⟨tx, tbl, key⟩ =>
      w.withTree tx fun t =>
        match updatedRow t tbl key cols vals with
        | .panic => (.panic, w)
        | .err e => (.err e, w)
        | .ok row =>
          let (r, t') := storeUpdated env t tbl key cols row
          (.ofUnit r, (w.forWrite tx).store tx t')
  -- storage/basic/basic.go:465-474
  | .delete n =>
    match w.refs[n]? with
    | none => (.impossible, w)
    | some ⟨tx, tbl, key⟩ =>
      w.withTree tx fun t =>
        match deleteRow t tbl key with
        | .ok t' => (.done, (w.forWrite tx).store tx t')
        | .err e => (.err e, w)
        | .panic => (.panic, w.forWrite tx)

/-- A history: the replies, and the objects afterwards. -/
def run (env : StoreEnv) : World → List Op → List Reply × World
  | w, [] => ([], w)
  | w, op :: ops =>
    let (r, w) := step env w op
    let (rs, w) := run env w ops
    (r :: rs, w)

end Maho
