import Verif.Model.Key
import Verif.Model.Ident
/-
Model of storage/basic (btree.go, basic.go) and of the interfaces in storage/storage.go, for one
transaction: every operation as a function on the tree the transaction works on. Locking,
commit and rollback and the sharing of trees are in Model/World.lean.
-/
namespace Maho

/-- storage/storage.go:18 `TableId`. -/
abbrev TableId := BitVec 32
/-- storage/storage.go:19 `IndexId`. -/
abbrev IndexId := BitVec 32

/-- storage/storage.go:22 `EngineTableId`. -/
def engineTableId : TableId := 16#32

/-- storage/basic/basic.go:18-20 `primaryIndexId`. -/
def primaryIndexId : IndexId := 0#32

/-- storage/basic/btree.go:14-19 `item`. -/
structure Item where
  rel : BitVec 64
  key : Bytes
  row : Row
deriving DecidableEq

/-- storage/basic/btree.go:21-26 `lessItems`. -/
def lessItems (it1 it2 : Item) : Bool :=
  if it1.rel.ult it2.rel then true
  else it1.rel == it2.rel && bytesCompare it1.key it2.key == .lt

/-- storage/basic/btree.go:28-30 `toRelationId`. -/
def toRelationId (tid : TableId) (iid : IndexId) : BitVec 64 :=
  (tid.zeroExtend 64 <<< 32) ||| iid.zeroExtend 64

/-- storage/basic/btree.go:32-43 `rowToItem`: a nil row gives a nil key. -/
def rowToItem (rel : BitVec 64) (rowKey : List ColumnKey) : Option Row → Res Item
  | none => .ok ⟨rel, [], []⟩
  | some row => do
    let key ← makeKey rowKey row
    .ok ⟨rel, key, row⟩

/-- storage/basic/btree.go:45-50 `keyToItem`. -/
def keyToItem (rel : BitVec 64) (key : Bytes) : Item := ⟨rel, key, []⟩

/-- storage/basic/btree.go:60-62: a `btree.BTreeG[item]` ordered by `lessItems`. The package
github.com/google/btree is not part of the repository; the tree is modelled as the list of its
items in ascending order. -/
abbrev Tree := List Item

/-- `BTreeG.Get`: the item neither less nor greater than the argument. -/
def Tree.get (t : Tree) (it : Item) : Option Item :=
  t.find? (fun x => !lessItems x it && !lessItems it x)

/-- `BTreeG.Has`. -/
def Tree.has (t : Tree) (it : Item) : Bool := (t.get it).isSome

/-- `BTreeG.ReplaceOrInsert`. -/
def Tree.put : Tree → Item → Tree
  | [], it => [it]
  | x :: xs, it =>
    if lessItems x it then x :: Tree.put xs it
    else if lessItems it x then it :: x :: xs
    else it :: xs

/-- `BTreeG.Delete`: the remaining tree, if there was such an item. -/
def Tree.delete : Tree → Item → Option Tree
  | [], _ => none
  | x :: xs, it =>
    if lessItems x it then (Tree.delete xs it).map (x :: ·)
    else if lessItems it x then none
    else some xs

/-- The items `BTreeG.AscendGreaterOrEqual` hands to its callback, as long as that returns true. -/
def Tree.from (t : Tree) (it : Item) : List Item := t.dropWhile (fun x => lessItems x it)

/-- types/name.go:7-11 `TableName`. -/
structure TableName where
  database : Identifier
  schema : Identifier
  table : Identifier
deriving DecidableEq

/-- storage/basic/basic.go:33-39 `tableType`. A nil and an empty slice are not distinguished:
they are compared with `slices.Equal` only. -/
structure TableType where
  version : BitVec 32
  name : TableName
  columnNames : List Identifier
  columnTypes : List ColumnType
  key : List ColumnKey
deriving DecidableEq

/-- A table type with every identifier replaced. -/
def TableType.mapIds (f : Identifier → Identifier) (tt : TableType) : TableType :=
  { tt with
    name := ⟨f tt.name.database, f tt.name.schema, f tt.name.table⟩
    columnNames := tt.columnNames.map f }

/-- encoding/gob for `tableType` (storage/basic/basic.go:110 and 123), a parameter of the model.
`storedId` is what an identifier becomes by GobEncode followed by GobDecode (types/identifier.go:
333-350, modelled in Model/Ident.lean; once a name has an identifier it keeps it, so this is a
function). The only assumption is that decoding gives back what was encoded, with each
identifier passed through `storedId`. -/
structure StoreEnv where
  float : FloatEnv
  encodeType : TableType → Bytes
  decodeType : Bytes → Option TableType
  storedId : Identifier → Identifier
  decode_encode : ∀ tt, decodeType (encodeType tt) = some (tt.mapIds storedId)

/-- types/column.go:28 `Int64ColType`. -/
def int64ColType : ColumnType := ⟨.int64, 8#32, false, true⟩

/-- storage/basic/basic.go:92 `tableTypesRelation`. -/
def tableTypesRelation : BitVec 64 := toRelationId 0#32 0#32
/-- storage/basic/basic.go:93 `tableTypesKey`. -/
def tableTypesKey : List ColumnKey := [makeColumnKey 0#32 false]

/-- `types.Int64Value(tid)`: a table id as an integer value. -/
def tidValue (tid : TableId) : Option Value := some (.int (tid.zeroExtend 64))

/-- storage/basic/basic.go:69-81 `SetupColumns`. A nil primary key is `none`. -/
def setupColumns (colNames : List Identifier) (colTypes : List ColumnType)
    (primary : Option (List ColumnKey)) :
    List Identifier × List ColumnType × List ColumnKey :=
  match primary with
  | none => (idRowid :: colNames, int64ColType :: colTypes, [makeColumnKey 0#32 false])
  | some primary => (colNames, colTypes, primary)

/-- storage/basic/basic.go:100-119 `getTableType`. -/
def getTableType (env : StoreEnv) (t : Tree) (tid : TableId) : Res (Option TableType) := do
  let it ← rowToItem tableTypesRelation tableTypesKey (some [tidValue tid])
  match t.get it with
  | none => .ok none
  | some it =>
    match it.row with
    | [_, some (.bytes b)] =>
      match env.decodeType b with
      | some tt => .ok (some tt)
      | none => .panic
    | _ => .panic

/-- storage/basic/basic.go:121-131 `setTableType`. -/
def setTableType (env : StoreEnv) (t : Tree) (tid : TableId) (tt : TableType) : Res Tree := do
  let it ← rowToItem tableTypesRelation tableTypesKey
    (some [tidValue tid, some (.bytes (env.encodeType tt))])
  .ok (t.put it)

/-- storage/basic/basic.go:133-137 `deleteTableType`. -/
def deleteTableType (t : Tree) (tid : TableId) : Res (Option Tree) := do
  let it ← rowToItem tableTypesRelation tableTypesKey (some [tidValue tid])
  .ok (t.delete it)

/-- storage/basic/basic.go:41-45 `table`, without the transaction. -/
structure Table where
  tid : TableId
  tt : TableType
deriving DecidableEq

/-- storage/basic/basic.go:139-169 `OpenTable`. -/
def openTable (env : StoreEnv) (t : Tree) (tid : TableId) (tn : TableName)
    (colNames : List Identifier) (colTypes : List ColumnType) (primary : List ColumnKey) :
    Res Table := do
  match ← getTableType env t tid with
  | none => .panic
  | some tt =>
    if tn ≠ tt.name then .panic
    else if colNames ≠ tt.columnNames then .panic
    else if colTypes ≠ tt.columnTypes then .panic
    else if primary ≠ tt.key then .panic
    else .ok ⟨tid, tt⟩

/-- storage/basic/basic.go:184-193: the check of the reserved column name. -/
def rowidMisused (colNames : List Identifier) (colTypes : List ColumnType)
    (primary : List ColumnKey) : Bool :=
  (List.range colNames.length).any fun idx =>
    colNames[idx]? == some idRowid &&
      (idx != 0 || colTypes[0]? != some int64ColType || primary.length != 1 ||
        primary[0]? != some (makeColumnKey 0#32 false))

/-- storage/basic/basic.go:171-211 `CreateTable`. A nil primary key is `none`. The tree is
changed only at the end, so the outcome is the new tree, an error or a panic. -/
def createTable (env : StoreEnv) (t : Tree) (tid : TableId) (tn : TableName)
    (colNames : List Identifier) (colTypes : List ColumnType)
    (primary : Option (List ColumnKey)) : Res Tree := do
  if tid < engineTableId then .panic
  else
    match ← getTableType env t tid with
    | some _ => .panic
    | none =>
      if colNames.length ≠ colTypes.length then .panic
      else
        match primary with
        | none => .panic
        | some primary =>
          if rowidMisused colNames colTypes primary then .err .other
          else if primary.any (fun ck => decide ((ColumnKey.column ck).toNat ≥ colNames.length)) then
            .panic
          else setTableType env t tid ⟨1#32, tn, colNames, colTypes, primary⟩

/-- storage/basic/basic.go:213-225 `DropTable`: the rows stay in the tree. -/
def dropTable (env : StoreEnv) (t : Tree) (tid : TableId) : Res Tree := do
  match ← getTableType env t tid with
  | none => .panic
  | some _ =>
    match ← deleteTableType t tid with
    | none => .panic
    | some t' => .ok t'

/-- storage/storage.go:38-60: a predicate is a column and the predicate methods it has. -/
structure Predicate where
  column : ColumnNum
  bool : Option (Bool → Bool) := none
  str : Option (Bytes → Bool) := none
  bytes : Option (Bytes → Bool) := none
  float : Option (F64 → Bool) := none
  int : Option (BitVec 64 → Bool) := none

/-- storage/basic/basic.go:288-322 `predicateFunction`: a predicate without the method for the
type of the column panics at once; a value of another type, or NULL, panics when tested. -/
def predicateFunction (pred : Predicate) (ct : ColumnType) : Res (Option Value → Res Bool) :=
  match ct.type with
  | .unknown => .panic
  | .invalid _ => .panic
  | .bool =>
    match pred.bool with
    | none => .panic
    | some f => .ok fun
      | some (.bool b) => .ok (f b)
      | _ => .panic
  | .string =>
    match pred.str with
    | none => .panic
    | some f => .ok fun
      | some (.str s) => .ok (f s)
      | _ => .panic
  | .bytes =>
    match pred.bytes with
    | none => .panic
    | some f => .ok fun
      | some (.bytes b) => .ok (f b)
      | _ => .panic
  | .float64 =>
    match pred.float with
    | none => .panic
    | some f => .ok fun
      | some (.float x) => .ok (f x)
      | _ => .panic
  | .int64 =>
    match pred.int with
    | none => .panic
    | some f => .ok fun
      | some (.int i) => .ok (f i)
      | _ => .panic

/-- storage/basic/basic.go:343-357: the callback of `Rows`, run over the items. `test` is
`predFn(it.row[predCol])`, or always true without a predicate. -/
def scanItems (rel : BitVec 64) (maxItem : Option Item) (test : Row → Res Bool) :
    List Item → Res (List Item)
  | [] => .ok []
  | it :: its =>
    if it.rel ≠ rel then .ok []
    else if (maxItem.map (fun m => lessItems m it)).getD false then .ok []
    else do
      let keep ← test it.row
      let rest ← scanItems rel maxItem test its
      .ok (if keep then it :: rest else rest)

/-- storage/basic/basic.go:334-339 and 351: the test of `Rows`. -/
def rowTest (tt : TableType) : Option Predicate → Res (Row → Res Bool)
  | none => .ok fun _ => .ok true
  | some pred =>
    match tt.columnTypes[pred.column.toNat]? with
    | none => .panic
    | some ct => do
      let f ← predicateFunction pred ct
      .ok fun row =>
        match row[pred.column.toNat]? with
        | none => .panic
        | some val => f val

/-- storage/basic/basic.go:324-357: the items `Rows` collects. -/
def collectItems (t : Tree) (tbl : Table) (minRow maxRow : Option Row)
    (pred : Option Predicate) : Res (List Item) := do
  let rel := toRelationId tbl.tid primaryIndexId
  let maxItem ← (match maxRow with
    | none => .ok none
    | some row => do
      let it ← rowToItem rel tbl.tt.key (some row)
      .ok (some it))
  let test ← rowTest tbl.tt pred
  let minItem ← rowToItem rel tbl.tt.key minRow
  scanItems rel maxItem test (t.from minItem)

/-- storage/basic/basic.go:47-52 `rows`, without the table. Nil columns are `none`. -/
structure RowsObj where
  cols : Option (List ColumnNum)
  items : List Item
  next : Int
deriving DecidableEq

/-- storage/basic/basic.go:324-365 `Rows`. The caller adds one to the count of open rows. -/
def tableRows (t : Tree) (tbl : Table) (cols : Option (List ColumnNum))
    (minRow maxRow : Option Row) (pred : Option Predicate) : Res RowsObj := do
  let items ← collectItems t tbl minRow maxRow pred
  .ok ⟨cols, items, 0⟩

/-- storage/basic/basic.go:399-407: the columns of a row; indexing out of range panics. -/
def projectRow (cols : Option (List ColumnNum)) (row : Row) : Res Row :=
  match cols with
  | none => .ok row
  | some cols =>
    cols.foldr (fun col rest =>
      match row[col.toNat]? with
      | none => .panic
      | some val => do
        let vals ← rest
        .ok (val :: vals)) (.ok [])

/-- storage/basic/basic.go:389-408 `Next`. -/
def RowsObj.nextRow (rs : RowsObj) : Res Row × RowsObj :=
  if rs.next < 0 then (.panic, rs)
  else
    match rs.items[rs.next.toNat]? with
    | none => (.err .eof, rs)
    | some it => (projectRow rs.cols it.row, { rs with next := rs.next + 1 })

/-- storage/basic/basic.go:410-419 `Current`: the key in the reference. -/
def RowsObj.current (rs : RowsObj) : Res Bytes :=
  if rs.next ≤ 0 then .panic
  else
    match rs.items[(rs.next - 1).toNat]? with
    | none => .panic
    | some it => .ok it.key

/-- storage/basic/basic.go:421-429 `Close`. The caller subtracts one from the count of open
rows. -/
def RowsObj.close (rs : RowsObj) : Res RowsObj :=
  if rs.next < 0 then .panic
  else .ok { rs with next := -1 }

/-- storage/basic/basic.go:367-387 `Insert`. Rows inserted before an error or a panic stay in
the tree. -/
def insertRows (env : StoreEnv) (t : Tree) (tbl : Table) : List Row → Res Unit × Tree
  | [] => (.ok (), t)
  | row :: rows =>
    match convertRow env.float tbl.tt.columnTypes row with
    | .panic => (.panic, t)
    | .err e => (.err e, t)
    | .ok row =>
      match rowToItem (toRelationId tbl.tid primaryIndexId) tbl.tt.key (some row) with
      | .panic => (.panic, t)
      | .err e => (.err e, t)
      | .ok it =>
        if t.has it then (.err .other, t)
        else insertRows env (t.put it) tbl rows

/-- storage/basic/basic.go:465-474 `Delete`. -/
def deleteRow (t : Tree) (tbl : Table) (key : Bytes) : Res Tree :=
  match t.delete (keyToItem (toRelationId tbl.tid primaryIndexId) key) with
  | none => .panic
  | some t' => .ok t'

/-- storage/basic/basic.go:442-444: the assignments `row[col] = val`. -/
def assignColumns : Row → List (ColumnNum × Option Value) → Res Row
  | row, [] => .ok row
  | row, (col, val) :: rest =>
    if col.toNat < row.length then assignColumns (row.set col.toNat val) rest else .panic

/-- storage/basic/basic.go:431-444: the first part of `Update`, which only reads. -/
def updatedRow (t : Tree) (tbl : Table) (key : Bytes) (cols : List ColumnNum)
    (vals : List (Option Value)) : Res Row :=
  if cols.length ≠ vals.length then .panic
  else
    match t.get (keyToItem (toRelationId tbl.tid primaryIndexId) key) with
    | none => .panic
    | some it => assignColumns it.row (cols.zip vals)

/-- storage/basic/basic.go:448-462: the second part of `Update`, which writes. -/
def storeUpdated (env : StoreEnv) (t : Tree) (tbl : Table) (key : Bytes) (cols : List ColumnNum)
    (row : Row) : Res Unit × Tree :=
  if columnKeyUpdated tbl.tt.key cols then
    match deleteRow t tbl key with
    | .panic => (.panic, t)
    | .err e => (.err e, t)
    | .ok t => insertRows env t tbl [row]
  else
    match rowToItem (toRelationId tbl.tid primaryIndexId) tbl.tt.key (some row) with
    | .panic => (.panic, t)
    | .err e => (.err e, t)
    | .ok it => (.ok (), t.put it)

/-- storage/basic/basic.go:431-463 `Update`. -/
def updateRow (env : StoreEnv) (t : Tree) (tbl : Table) (key : Bytes) (cols : List ColumnNum)
    (vals : List (Option Value)) : Res Unit × Tree :=
  match updatedRow t tbl key cols vals with
  | .panic => (.panic, t)
  | .err e => (.err e, t)
  | .ok row => storeUpdated env t tbl key cols row

end Maho
