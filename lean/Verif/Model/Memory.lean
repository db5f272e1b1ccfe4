import Verif.Model.Storage
/-
Model of storage/basic/basic.go with the memory that rows and bytes are in: which slices the store
shares with its callers. Rows and bytes are found by their address. A key is always made anew
(encode/key.go) and is not given to callers. One transaction follows the other.
-/
namespace Maho

/-- types/value.go:17 `Value` in memory: types.BytesValue is a slice, the others are copied. -/
inductive MemVal where
  | bool (b : Bool)
  | int (i : BitVec 64)
  | float (f : F64)
  | str (s : Bytes)
  | bytes (slice : Nat)
deriving DecidableEq

/-- What a slice of values has in it. -/
abbrev MemRow := List (Option MemVal)

/-- The slices of bytes and the slices of values. -/
structure Memory where
  slices : List Bytes
  rows : List MemRow

namespace Memory

/-- The value. -/
def value (m : Memory) : MemVal → Value
  | .bool b => .bool b
  | .int i => .int i
  | .float f => .float f
  | .str s => .str s
  | .bytes a => .bytes (m.slices.getD a [])

/-- The values. -/
def cells (m : Memory) (r : MemRow) : Row := r.map (Option.map m.value)

/-- The values of the row with an address. -/
def row (m : Memory) (a : Nat) : Row := m.cells (m.rows.getD a [])

/-- A value in memory of its own. -/
def newValue (m : Memory) : Option Value → Option MemVal × Memory
  | none => (none, m)
  | some (.bool b) => (some (.bool b), m)
  | some (.int i) => (some (.int i), m)
  | some (.float f) => (some (.float f), m)
  | some (.str s) => (some (.str s), m)
  | some (.bytes b) => (some (.bytes m.slices.length), { m with slices := m.slices ++ [b] })

/-- Values in memory of their own. -/
def newValues (m : Memory) : Row → MemRow × Memory
  | [] => ([], m)
  | v :: vs =>
    let (c, m) := m.newValue v
    let (cs, m) := m.newValues vs
    (c :: cs, m)

/-- A new slice of values. -/
def newRow (m : Memory) (r : MemRow) : Nat × Memory := (m.rows.length, { m with rows := m.rows ++ [r] })

/-- types/value.go:367-376 of `ConvertRow`: the results of `ConvertValue` in memory. Bytes that stay
bytes are the same slice (271 and 359), all else is new. -/
def converted (m : Memory) : MemRow → Row → MemRow × Memory
  | _, [] => ([], m)
  | src, v :: vs =>
    let (c, m) : Option MemVal × Memory := match src.head?, v with
      | some (some (.bytes a)), some (.bytes _) => (some (.bytes a), m)
      | _, _ => m.newValue v
    let (cs, m) := m.converted src.tail vs
    (c :: cs, m)

end Memory

/-- storage/basic/btree.go:14-19 `item`: the row is a slice. -/
structure MemItem where
  rel : BitVec 64
  key : Bytes
  row : Nat
deriving DecidableEq

namespace MemItem

/-- What items are ordered by. -/
def bare (it : MemItem) : Item := ⟨it.rel, it.key, []⟩

/-- storage/basic/btree.go:21-26 `lessItems`. -/
def less (it1 it2 : MemItem) : Bool := lessItems it1.bare it2.bare

end MemItem

/-- The tree, see `Tree`. -/
abbrev MemTree := List MemItem

namespace MemTree

/-- `BTreeG.Get`. -/
def get (t : MemTree) (it : MemItem) : Option MemItem := t.find? (fun x => !x.less it && !it.less x)

/-- `BTreeG.ReplaceOrInsert`. -/
def put : MemTree → MemItem → MemTree
  | [], it => [it]
  | x :: xs, it =>
    if x.less it then x :: MemTree.put xs it
    else if it.less x then it :: x :: xs
    else it :: xs

/-- `BTreeG.Delete`. -/
def delete : MemTree → MemItem → Option MemTree
  | [], _ => none
  | x :: xs, it =>
    if x.less it then (MemTree.delete xs it).map (x :: ·)
    else if it.less x then none
    else some xs

end MemTree

/-- storage/basic/basic.go:47-52 `rows`. -/
structure MemRows where
  tbl : Table
  cols : Option (List ColumnNum)
  items : List MemItem
  next : Int

/-- The memory, the tree of the store, the tree of the transaction, the rows that the caller knows,
and the `storage.Rows` that the caller has. -/
structure MemState where
  memory : Memory
  stored : MemTree
  tree : MemTree
  vars : List Nat
  scans : List MemRows

/-- What a caller does. Rows are those the caller has got so far, by number; so are scans. -/
inductive MemCall where
  /-- `types.Row{...}` -/
  | row (vals : Row)
  /-- `rows[k][i] = val` -/
  | cell (k i : Nat) (val : Option Value)
  /-- `rows[k][i] = rows[k2][i2]` -/
  | copy (k i k2 i2 : Nat)
  /-- `rows[k][i].(types.BytesValue)[j] = b` -/
  | byte (k i j : Nat) (b : Byte)
  /-- The values of a row. -/
  | read (k : Nat)
  | insert (tbl : Table) (ks : List Nat)
  | rows (tbl : Table) (cols : Option (List ColumnNum)) (minRow maxRow : Option Nat)
      (pred : Option Predicate)
  | next (s : Nat)
  /-- `Current` and then `Update`, with the values of a row. -/
  | update (s : Nat) (cols : List ColumnNum) (k : Nat)
  /-- `Current` and then `Delete`. -/
  | delete (s : Nat)
  /-- All rows have been closed. -/
  | commit
  | rollback

namespace MemState

/-- A new store and the first transaction. -/
def new : MemState := ⟨⟨[], []⟩, [], [], [], []⟩

/-- storage/basic/basic.go:367-387 `Insert`. -/
def insert (env : StoreEnv) (m : Memory) (t : MemTree) (tbl : Table) :
    List Nat → Res Unit × Memory × MemTree
  | [] => (.ok (), m, t)
  | a :: rows =>
    match convertRow env.float tbl.tt.columnTypes (m.row a) with
    | .panic => (.panic, m, t)
    | .err e => (.err e, m, t)
    | .ok row =>
      match rowToItem (toRelationId tbl.tid primaryIndexId) tbl.tt.key (some row) with
      | .panic => (.panic, m, t)
      | .err e => (.err e, m, t)
      | .ok it =>
        if (MemTree.get t ⟨it.rel, it.key, 0⟩).isSome then (.err .other, m, t)
        else
          let (cs, m) := m.converted (m.rows.getD a []) row
          let (n, m) := m.newRow cs
          insert env m (t.put ⟨it.rel, it.key, n⟩) tbl rows

/-- storage/basic/basic.go:343-357: the callback of `Rows`. -/
def scan (m : Memory) (rel : BitVec 64) (maxItem : Option Item) (test : Row → Res Bool) :
    List MemItem → Res (List MemItem)
  | [] => .ok []
  | it :: its =>
    if it.rel ≠ rel then .ok []
    else if (maxItem.map (fun m => lessItems m it.bare)).getD false then .ok []
    else do
      let keep ← test (m.row it.row)
      let rest ← scan m rel maxItem test its
      .ok (if keep then it :: rest else rest)

/-- storage/basic/basic.go:324-357: the items `Rows` collects. -/
def collect (m : Memory) (t : MemTree) (tbl : Table) (minRow maxRow : Option Row)
    (pred : Option Predicate) : Res (List MemItem) := do
  let rel := toRelationId tbl.tid primaryIndexId
  let maxItem ← (match maxRow with
    | none => .ok none
    | some row => do
      let it ← rowToItem rel tbl.tt.key (some row)
      .ok (some it))
  let test ← rowTest tbl.tt pred
  let minItem ← rowToItem rel tbl.tt.key minRow
  scan m rel maxItem test (t.dropWhile (fun x => lessItems x.bare minItem))

/-- storage/basic/basic.go:399-405: the columns of a row. -/
def project (row : MemRow) : List ColumnNum → Res MemRow
  | [] => .ok []
  | col :: cols =>
    match row[col.toNat]? with
    | none => .panic
    | some val => do
      let vals ← project row cols
      .ok (val :: vals)

/-- storage/basic/basic.go:389-408 `Next`: the row of the item itself if there are no columns. -/
def nextRow (m : Memory) (rs : MemRows) : Res Nat × Memory × MemRows :=
  if rs.next < 0 then (.panic, m, rs)
  else
    match rs.items[rs.next.toNat]? with
    | none => (.err .eof, m, rs)
    | some it =>
      let rs2 := { rs with next := rs.next + 1 }
      match rs.cols with
      | none => (.ok it.row, m, rs2)
      | some cols =>
        match project (m.rows.getD it.row []) cols with
        | .ok r =>
          let (n, m) := m.newRow r
          (.ok n, m, rs2)
        | .err e => (.err e, m, rs2)
        | .panic => (.panic, m, rs2)

/-- storage/basic/basic.go:410-419 `Current`. -/
def current (rs : MemRows) : Res Bytes :=
  if rs.next ≤ 0 then .panic
  else
    match rs.items[(rs.next - 1).toNat]? with
    | none => .panic
    | some it => .ok it.key

/-- storage/basic/basic.go:442-444. -/
def assign : MemRow → List (ColumnNum × Option MemVal) → Res MemRow
  | row, [] => .ok row
  | row, (col, val) :: rest =>
    if col.toNat < row.length then assign (row.set col.toNat val) rest else .panic

/-- storage/basic/basic.go:431-463 `Update`: the row is copied and then changed. -/
def update (env : StoreEnv) (m : Memory) (t : MemTree) (tbl : Table) (key : Bytes)
    (cols : List ColumnNum) (vals : MemRow) : Res Unit × Memory × MemTree :=
  let rel := toRelationId tbl.tid primaryIndexId
  if cols.length ≠ vals.length then (.panic, m, t)
  else
    match t.get ⟨rel, key, 0⟩ with
    | none => (.panic, m, t)
    | some it =>
      match assign (m.rows.getD it.row []) (cols.zip vals) with
      | .panic => (.panic, m, t)
      | .err e => (.err e, m, t)
      | .ok row =>
        let (n, m) := m.newRow row
        if columnKeyUpdated tbl.tt.key cols then
          match t.delete ⟨rel, key, 0⟩ with
          | none => (.panic, m, t)
          | some t => insert env m t tbl [n]
        else
          match rowToItem rel tbl.tt.key (some (m.row n)) with
          | .panic => (.panic, m, t)
          | .err e => (.err e, m, t)
          | .ok it => (.ok (), m, t.put ⟨it.rel, it.key, n⟩)

/-- One call, and the row that it returns. -/
def step (env : StoreEnv) (st : MemState) : MemCall → Res (Option Row) × MemState
  | .row vals =>
    let (cs, m) := st.memory.newValues vals
    let (n, m) := m.newRow cs
    (.ok none, { st with memory := m, vars := st.vars ++ [n] })
  | .cell k i val =>
    match st.vars[k]? with
    | none => (.panic, st)
    | some a =>
      if i < (st.memory.rows.getD a []).length then
        let (c, m) := st.memory.newValue val
        (.ok none, { st with memory := { m with rows := m.rows.set a ((m.rows.getD a []).set i c) } })
      else (.panic, st)
  | .copy k i k2 i2 =>
    match st.vars[k]?, st.vars[k2]? with
    | some a, some a2 =>
      match (st.memory.rows.getD a2 [])[i2]? with
      | none => (.panic, st)
      | some c =>
        if i < (st.memory.rows.getD a []).length then
          (.ok none, { st with memory := { st.memory with
            rows := st.memory.rows.set a ((st.memory.rows.getD a []).set i c) } })
        else (.panic, st)
    | _, _ => (.panic, st)
  | .byte k i j b =>
    match st.vars[k]? with
    | none => (.panic, st)
    | some a =>
      match (st.memory.rows.getD a [])[i]? with
      | some (some (.bytes s)) =>
        if j < (st.memory.slices.getD s []).length then
          (.ok none, { st with memory := { st.memory with
            slices := st.memory.slices.set s ((st.memory.slices.getD s []).set j b) } })
        else (.panic, st)
      | _ => (.panic, st)
  | .read k =>
    match st.vars[k]? with
    | none => (.panic, st)
    | some a => (.ok (some (st.memory.row a)), st)
  | .insert tbl ks =>
    match ks.mapM (st.vars[·]?) with
    | none => (.panic, st)
    | some rows =>
      let (r, m, t) := insert env st.memory st.tree tbl rows
      ((fun _ => none) <$> r, { st with memory := m, tree := t })
  | .rows tbl cols minRow maxRow pred =>
    match collect st.memory st.tree tbl ((minRow.bind (st.vars[·]?)).map st.memory.row)
        ((maxRow.bind (st.vars[·]?)).map st.memory.row) pred with
    | .ok items => (.ok none, { st with scans := st.scans ++ [⟨tbl, cols, items, 0⟩] })
    | .err e => (.err e, st)
    | .panic => (.panic, st)
  | .next s =>
    match st.scans[s]? with
    | none => (.panic, st)
    | some rs =>
      let (r, m, rs) := nextRow st.memory rs
      let st := { st with memory := m, scans := st.scans.set s rs }
      match r with
      | .ok a => (.ok (some (m.row a)), { st with vars := st.vars ++ [a] })
      | .err e => (.err e, st)
      | .panic => (.panic, st)
  | .update s cols k =>
    match st.scans[s]?, st.vars[k]? with
    | some rs, some a =>
      match current rs with
      | .ok key =>
        let (r, m, t) := update env st.memory st.tree rs.tbl key cols (st.memory.rows.getD a [])
        ((fun _ => none) <$> r, { st with memory := m, tree := t })
      | .err e => (.err e, st)
      | .panic => (.panic, st)
    | _, _ => (.panic, st)
  | .delete s =>
    match st.scans[s]? with
    | none => (.panic, st)
    | some rs =>
      match current rs with
      | .ok key =>
        match st.tree.delete ⟨toRelationId rs.tbl.tid primaryIndexId, key, 0⟩ with
        | none => (.panic, st)
        | some t => (.ok none, { st with tree := t })
      | .err e => (.err e, st)
      | .panic => (.panic, st)
  | .commit =>
    (.ok none, { st with stored := st.tree, scans := st.scans.map ({ · with next := -1 }) })
  | .rollback =>
    (.ok none, { st with tree := st.stored, scans := st.scans.map ({ · with next := -1 }) })

/-- Calls one after the other. -/
def run (env : StoreEnv) : MemState → List MemCall → List (Res (Option Row))
  | _, [] => []
  | st, c :: cs =>
    let (r, st) := st.step env c
    r :: run env st cs

end MemState
end Maho
