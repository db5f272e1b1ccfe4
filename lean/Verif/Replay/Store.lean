import Verif.Replay.Env
import Verif.Lemmas.Codec
import Verif.Model.World
import Verif.Props.Rows
/-
storage/test/test.go on the model: a case list is run against the store.
-/
namespace Maho.Replay

def store : StoreEnv := storeEnv floatEnv (fun id => id)

/-- `testutil.MustParseRow`. -/
def row (s : String) : Row := ((parseRow rowEnv (runes s)).map (·.1)).getD []

/-- `testutil.MustParseRows`. -/
def rows (s : String) : List Row := (parseRows rowEnv (runes s)).getD []

/-- storage/test/test.go:69-75 `tableName`. -/
def tableName (tid : TableId) : TableName :=
  ⟨I "db", I "scm", id (ascii "tbl" ++ ascii (toString tid.toNat)) false⟩

/-- storage/test/test.go:77-177. A nil slice is `none` where the code tells it from an empty one. -/
inductive Case where
  | openTable (tid : TableId) (colNames : List Identifier) (colTypes : List ColumnType)
      (primary : Option (List ColumnKey)) (panicked : Bool)
  | createTable (tid : TableId) (colNames : List Identifier) (colTypes : List ColumnType)
      (primary : Option (List ColumnKey)) (panicked : Bool)
  | dropTable (tid : TableId) (panicked : Bool)
  | tableType (tid : TableId) (ver : BitVec 32) (colNames : List Identifier)
      (colTypes : List ColumnType) (key : Option (List ColumnKey))
  | commit (panicked : Bool)
  | rollback (panicked : Bool)
  | rows (cols : Option (List ColumnNum)) (minRow maxRow : Option Row) (pred : Option Predicate)
      (fail : Bool)
  | update (cols : List ColumnNum) (vals : List (Option Value)) (fail panicked : Bool)
  | delete (fail panicked : Bool)
  | insert (rows : List Row) (fail : Bool)
  | next (row : Row) (fail eof panicked : Bool)
  | current (fail panicked : Bool)
  | close (fail panicked : Bool)
  | select (cols : Option (List ColumnNum)) (minRow maxRow : Option Row) (pred : Option Predicate)
      (rows : List Row) (unordered : Bool)
  | deleteFrom (minRow maxRow : Option Row) (pred : Option Predicate)
  | updateSet (minRow maxRow : Option Row) (pred : Option Predicate)
      (update : Row → List ColumnNum × List (Option Value))

/-- The variables of `testStorage`. -/
structure Vars where
  world : World
  tx : Nat
  tbl : Option Nat := none
  rows : Option Nat := none
  ref : Option Nat := none

/-- Whether a call went as expected. -/
def expected (panicked fail : Bool) : Reply → Bool
  | .panic => panicked
  | .err _ => !panicked && fail
  | .done | .handle _ | .row _ => !panicked && !fail
  | .blocked | .impossible | .fatal => false

def handleOf : Reply → Option Nat
  | .handle n => some n
  | _ => none

/-- The last steps of `Commit` and `Rollback`. -/
def finish (v : Vars) : Reply → Option Vars
  | .done =>
    match run store v.world [.unlock v.tx, .forget v.tx] with
    | ([.done, .done], w) => some { v with world := w }
    | _ => none
  | _ => some v

/-- storage/test/test.go:192-214: the loop of `selectFunc`. -/
def selectLoop (n : Nat) (fn : Vars → Nat → Row → Option Vars) : Nat → Vars → Option Vars
  | 0, _ => none
  | fuel + 1, v =>
    match step store v.world (.next n) with
    | (.err .eof, w) => some { v with world := w }
    | (.row row, w) =>
      match step store w (.current n) with
      | (.handle ref, w) =>
        match fn { v with world := w } ref row with
        | some v => selectLoop n fn fuel v
        | none => none
      | _ => none
    | _ => none

/-- storage/test/test.go:179-220 `selectFunc`; the result of `fn` is `none` if a call failed. -/
def selectFunc (v : Vars) (cols : Option (List ColumnNum)) (minRow maxRow : Option Row)
    (pred : Option Predicate) (fn : Vars → Nat → Row → Option Vars) : Option Vars := do
  match step store v.world (.rows (← v.tbl) cols minRow maxRow pred) with
  | (.handle n, w) =>
    let v ← selectLoop n fn 1000 { v with world := w }
    match step store v.world (.close n) with
    | (.done, w) => some { v with world := w }
    | _ => none
  | _ => none

/-- The rows that `Select` collects. -/
def selectRows (n : Nat) : Nat → World → Option (List Row × World)
  | 0, _ => none
  | fuel + 1, w =>
    match step store w (.next n) with
    | (.err .eof, w) => some ([], w)
    | (.row row, w) =>
      match step store w (.current n) with
      | (.handle _, w) => (selectRows n fuel w).map fun (rows, w) => (row :: rows, w)
      | _ => none
    | _ => none

/-- storage/test/test.go:222-465: one case. `none` is `t.Errorf`. -/
def runCase (v : Vars) : Case → Option Vars
  | .openTable tid colNames colTypes primary panicked =>
    let (colNames, colTypes, primary) := setupColumns colNames colTypes primary
    let (r, w) := step store v.world (.openTable v.tx tid (tableName tid) colNames colTypes primary)
    if expected panicked false r then some { v with world := w, tbl := handleOf r } else none
  | .createTable tid colNames colTypes primary panicked =>
    let (colNames, colTypes, primary) := setupColumns colNames colTypes primary
    let (r, w) :=
      step store v.world (.createTable v.tx tid (tableName tid) colNames colTypes (some primary))
    if expected panicked false r then some { v with world := w } else none
  | .dropTable tid panicked =>
    let (r, w) := step store v.world (.dropTable v.tx tid)
    if expected panicked false r then some { v with world := w } else none
  | .tableType tid ver colNames colTypes key => do
    let obj ← v.world.tables[← v.tbl]?
    let (colNames, colTypes, key) := setupColumns colNames colTypes key
    if obj.tbl = ⟨tid, ver, tableName tid, colNames, colTypes, key⟩ then some v else none
  | .commit panicked =>
    let (r, w) := step store v.world (.commit v.tx)
    if expected panicked false r then finish { v with world := w } r else none
  | .rollback panicked =>
    let (r, w) := step store v.world (.rollback v.tx)
    if expected panicked false r then finish { v with world := w } r else none
  | .rows cols minRow maxRow pred fail => do
    let (r, w) := step store v.world (.rows (← v.tbl) cols minRow maxRow pred)
    if expected false fail r then some { v with world := w, rows := handleOf r } else none
  | .update cols vals fail panicked => do
    let (r, w) := step store v.world (.update (← v.ref) cols vals)
    if expected panicked fail r then some { v with world := w } else none
  | .delete fail panicked => do
    let (r, w) := step store v.world (.delete (← v.ref))
    if expected panicked fail r then some { v with world := w } else none
  | .insert rows fail => do
    let (r, w) := step store v.world (.insert (← v.tbl) rows)
    if expected false fail r then some { v with world := w } else none
  | .next row fail eof panicked => do
    let (r, w) := step store v.world (.next (← v.rows))
    let ok : Bool := match r with
      | .row r => !panicked && !fail && !eof && decide (compareRows r row = .ok .eq)
      | .err .eof => !panicked && (fail || eof)
      | r => !eof && expected panicked fail r
    if ok then some { v with world := w } else none
  | .current fail panicked => do
    let (r, w) := step store v.world (.current (← v.rows))
    if expected panicked fail r then some { v with world := w, ref := handleOf r } else none
  | .close fail panicked => do
    let (r, w) := step store v.world (.close (← v.rows))
    if expected panicked fail r then some { v with world := w } else none
  | .select cols minRow maxRow pred rows unordered => do
    match step store v.world (.rows (← v.tbl) cols minRow maxRow pred) with
    | (.handle n, w) =>
      let (got, w) ← selectRows n 1000 w
      match step store w (.close n) with
      | (.done, w) =>
        if (rowsEqual insertionSort got rows unordered).1 then some { v with world := w } else none
      | _ => none
    | _ => none
  | .deleteFrom minRow maxRow pred =>
    selectFunc v none minRow maxRow pred fun v ref _ =>
      match step store v.world (.delete ref) with
      | (.done, w) => some { v with world := w }
      | _ => none
  | .updateSet minRow maxRow pred update =>
    selectFunc v none minRow maxRow pred fun v ref row =>
      let (cols, vals) := update row
      match step store v.world (.update ref cols vals) with
      | (.done, w) => some { v with world := w }
      | _ => none

def runCases (v : Vars) : List Case → Option Vars
  | [] => some v
  | c :: cs =>
    match runCase v c with
    | some v => runCases v cs
    | none => none

/-- storage/test/test.go:222 `testStorage` with a new transaction of the store. -/
def testStorage (w : World) (cases : List Case) : Option World :=
  match step store w .beginLock with
  | (.handle tx, w) =>
    match step store w (.beginRead tx) with
    | (.done, w) => (runCases { world := w, tx := tx } cases).map (·.world)
    | _ => none
  | _ => none

/-- A test of storage/test/table.go: whether it passes on a new store. -/
def passes : World → List (List Case) → Bool
  | _, [] => true
  | w, cs :: l =>
    match testStorage w cs with
    | some w => passes w l
    | none => false

end Maho.Replay
