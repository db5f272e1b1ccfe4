import Verif.Replay.Env
import Verif.Lemmas.EngineSample
import Verif.Model.Columns
/-
The tests of engine on the model: how they are run, and engine/tableid_test.go,
engine/typedinfo_test.go and engine/typedtable_test.go, whose tables have functions and Go structs
in them and are written by hand here.
-/
namespace Maho.Replay

/-- `types.ID` with the identifiers of `sampleEngine`. -/
def engineId (s : Bytes) (quoted : Bool) : Identifier :=
  let s := truncateName s
  match (if quoted then none else findNumber (nameNumber (s.map upperByte)) keywordNumbers) with
  | some id => id
  | none => sampleIdent (if quoted then s else s.map lowerByte)

def engineRowEnv : RowEnv where
  toParseEnv := { env with id := engineId }
  lower r := if 65 ≤ r ∧ r ≤ 90 then r + 32 else r
  lower_ascii _ _ := rfl
  space_letter r h := by simp [isSpace, env] at *; omega
  space_digit r h := by simp [isSpace, env] at *; omega
  letter_digit r h := by simp [env] at *; omega

/-- `types.ID(s, false)`. -/
def E (s : String) : Identifier := engineId (ascii s) false

/-- `testutil.MustParseIdentifiers`. -/
def identifiers (s : String) : List Identifier := (readIdentifiers engineRowEnv (runes s)).getD []

/-- `testutil.MustParseColumns`. -/
def columns (s : String) : List Identifier × List ColumnType × List ColumnKey :=
  (readColumns engineRowEnv (runes s)).getD ([], [], [])

/-- What a case of `TestDatabase` or of `testEngine` (engine/engine_test.go) expects. -/
inductive Expect where
  | ok
  | fail
  /-- the identifiers, in any order -/
  | ids (l : List Identifier)
  | table (t : EngineTable)

def Expect.met : Expect → EngineReply → Bool
  | .ok, .done (.ok ()) => true
  | .fail, .done (.err _) | .fail, .ids (.err _) | .fail, .table (.err _) => true
  | .ids l, .ids (.ok l') => l.isPerm l'
  | .table t, .table (.ok t') => t == t'
  | _, _ => false

/-- engine/engine_test.go:140-183 and 525-604. -/
def engineCases (s : EngineState) : List (EngineOp × Expect) → Bool
  | [] => true
  | (op, e) :: l =>
    let (r, s) := engineStep sampleEngine s op
    e.met r && engineCases s l

/-- engine/engine_test.go:60-75 `newEngine`. -/
def newEngine : EngineState := EngineState.initial sampleEngine

/-- engine/init_test.go:9-20 `TestInit` -/
example : (engineInit sampleEngine ⟨[], none⟩).1 = some (.ok ()) := by decide +kernel

/-- The cases of engine/tableid_test.go. -/
inductive IdCase where
  | begin | commit | rollback
  | next (tid : BitVec 64)

/-- engine/tableid_test.go:71-96 -/
def idCases (s : EngineState) : List IdCase → Bool
  | [] => true
  | .begin :: l =>
    match s.begin with
    | some s => idCases s l
    | none => false
  | .commit :: l =>
    let (r, s) := s.commit
    r == .ok () && idCases s l
  | .rollback :: l =>
    let (r, s) := s.rollback
    r == .ok () && idCases s l
  | .next tid :: l =>
    let (r, s) := s.inTx (nextTableId sampleEngine)
    r == .ok tid && idCases s l

/-- engine/tableid_test.go:20-57 `TestNextTableId` -/
example : idCases newEngine [.begin, .next 512, .commit, .begin, .next 513, .next 514, .next 515,
    .next 516, .rollback, .begin, .next 513, .next 514, .next 515, .commit, .begin, .next 516,
    .rollback] = true := by decide +kernel

/-! engine/typedinfo_test.go:24-215 `TestMakeTypedTableInfo`. The case that is no struct at all (line
38) has no counterpart. -/

/-- `MakeTypedInfo` without the type. -/
def info (tid : TableId) (tn : TableName) (typ : List Field) : Res TypedInfo :=
  match makeTypedInfo sampleEngine tid tn typ with
  | .ok ti => .ok { ti with typ := [] }
  | .err e => .err e
  | .panic => .panic

/-- A field that is no pointer. -/
def fld (name : String) (kind : Maho.Kind) (tag : String := "") : Field :=
  ⟨ascii name, ascii tag, false, kind⟩

/-- A field that is a pointer. -/
def ptr (name : String) (kind : Maho.Kind) (tag : String := "") : Field :=
  ⟨ascii name, ascii tag, true, kind⟩

/-- engine/typedinfo_test.go:39 -/
example : info 0 ⟨0, 0, 0⟩ [] = .ok ⟨[], 0, ⟨0, 0, 0⟩, [], [], none, []⟩ := by decide +kernel

/-- engine/typedinfo_test.go:40-94 -/
example : ∀ f ∈ [fld "aBC" .int, fld "Abc" .int "notnull,name=ghi=jkl,primary",
    fld "Abc" .int "notnull=true", fld "Abc" .int "name", fld "Abc" .int "size=abc",
    fld "Abc" .other, ptr "Abc" .bytes, fld "Abc" .int "notnull"],
    info 0 ⟨0, 0, 0⟩ [f] = .panic := by decide +kernel

/-- engine/typedinfo_test.go:95-141; tags of other packages are not in the model -/
example : info 2048 ⟨E "db", E "scm", E "tbl"⟩
    [fld "ColNum" .int8, fld "Database" .string "size=123", ptr "Abcdef" .string "size=45",
      fld "AbcID" .bytes "size=16", fld "Aaaaa" .bytes "size=32,notnull", ptr "ABCDEF" .int32,
      fld "DefGHi" .int16 "name=DEFGHI"] =
    .ok ⟨[], 2048, ⟨E "db", E "scm", E "tbl"⟩,
      ["col_num", "database", "abcdef", "abc_id", "aaaaa", "abcdef", "DEFGHI"].map
        (fun s => engineId (ascii s) true),
      [⟨.int64, 1, false, true⟩, ⟨.string, 123, false, true⟩, ⟨.string, 45, false, false⟩,
        ⟨.bytes, 16, false, false⟩, ⟨.bytes, 32, false, true⟩, ⟨.int64, 4, false, false⟩,
        ⟨.int64, 2, false, true⟩], none,
      ["ColNum", "Database", "Abcdef", "AbcID", "Aaaaa", "ABCDEF", "DefGHi"].map ascii⟩ := by
  decide +kernel

/-- engine/typedinfo_test.go:142-154 -/
example : info 0 ⟨0, 0, 0⟩ [fld "Name" .string, fld "Field" .string] =
    .ok ⟨[], 0, ⟨0, 0, 0⟩, ["name", "field"].map (fun s => engineId (ascii s) true),
      [⟨.string, 1, false, true⟩, ⟨.string, 1, false, true⟩], none, ["Name", "Field"].map ascii⟩ := by
  decide +kernel

/-- engine/typedinfo_test.go:155-168 -/
example : info 0 ⟨0, 0, 0⟩ sequencesFields =
    .ok ⟨[], 0, ⟨0, 0, 0⟩, ["sequence", "current"].map (fun s => engineId (ascii s) true),
      [⟨.string, 128, false, true⟩, ⟨.int64, 8, false, true⟩], some [makeColumnKey 0 false],
      ["Sequence", "Current"].map ascii⟩ := by decide +kernel

/-- engine/typedinfo_test.go:169-192 -/
example : info 0 ⟨0, 0, 0⟩ tablesFields =
    .ok ⟨[], 0, ⟨0, 0, 0⟩, ["database", "schema", "table", "table_id", "type"].map
        (fun s => engineId (ascii s) true),
      [⟨.string, 128, false, true⟩, ⟨.string, 128, false, true⟩, ⟨.string, 128, false, true⟩,
        ⟨.int64, 8, false, true⟩, ⟨.bytes, 8192, false, true⟩],
      some [makeColumnKey 0 false, makeColumnKey 1 false, makeColumnKey 2 false],
      ["Database", "Schema", "Table", "TableId", "Type"].map ascii⟩ := by decide +kernel

/-! engine/typedtable_test.go -/

/-- engine/typedtable_test.go:244-251 `typedRow` -/
def typedRowFields : List Field :=
  [fld "C0" .int "primary", fld "C1" .bool, fld "C2" .string "size=32", fld "C3" .bytes "size=16",
    fld "C4" .float64, ptr "C5" .int64]

/-- A `typedRow`. -/
def T (c0 : BitVec 64) (c1 : Bool := false) (c2 : String := "") (c3 : Option Bytes := none)
    (c4 : F64 := 0) (c5 : Option (BitVec 64) := none) : Struct :=
  ⟨typedRowFields, [.plain (.int c0), .plain (.bool c1), .plain (.str (ascii c2)), .slice c3,
    .plain (.float c4), .pointer (c5.map .int)]⟩

/-- engine/typedtable_test.go:20-24 `makeTypedInfo` -/
def ti : TypedInfo :=
  infoOf (makeTypedInfo sampleEngine 2048 ⟨E "d", E "s", E "t"⟩ typedRowFields)

/-- engine/typedtable_test.go:239-290 -/
inductive TypedCase where
  | create
  | insert (rows : List Struct) (fail : Bool := false)
  | lookup (st : Struct) (want : Option Struct)
  | select (minSt maxSt : Option Struct) (rows : List Struct)
  | update (fn : Struct → Struct)
  | delete (minSt maxSt : Option Struct)

/-- engine/typedtable_test.go:306-321: every struct is inserted by itself. -/
def insertEach (fail : Bool) : List Struct → Tree → Option Tree
  | [], t => some t
  | st :: sts, t =>
    match typedInsert sampleEngine t ti [st] with
    | (.ok (), t) => if fail then none else insertEach fail sts t
    | (.err _, t) => if fail then insertEach fail sts t else none
    | (.panic, _) => none

/-- engine/typedtable_test.go:292-399 `testTypedTables`. -/
def typedCase (t : Tree) : TypedCase → Option Tree
  | .create =>
    match createTypedTable sampleEngine t ti with
    | .ok t => some t
    | _ => none
  | .insert rows fail => insertEach fail rows t
  | .lookup st want =>
    match typedLookup sampleEngine t ti st, want with
    | .ok st', some want => if st' = want then some t else none
    | .err _, none => some t
    | _, _ => none
  | .select minSt maxSt rows =>
    match typedSelect sampleEngine ti minSt maxSt (fun _ _ row s =>
        match ti.rowToStruct sampleEngine row with
        | .ok st => (.ok (), (s.1 ++ [st], s.2))
        | _ => (.panic, s)) (([] : List Struct), t) with
    | (.ok (), (sts, t)) => if sts = rows then some t else none
    | _ => none
  | .update fn =>
    match typedUpdate sampleEngine ti none none (fun row (s : Unit) =>
        match ti.rowToStruct sampleEngine row with
        | .ok st => (.ok (some (fn st)), s)
        | _ => (.panic, s)) ((), t) with
    | (.ok (), (_, t)) => some t
    | _ => none
  | .delete minSt maxSt =>
    match typedDelete sampleEngine ti minSt maxSt (fun _ (s : Unit) => (.ok true, s)) ((), t) with
    | (.ok (), (_, t)) => some t
    | _ => none

def typedCases : Tree → List TypedCase → Option Tree
  | t, [] => some t
  | t, c :: cs =>
    match typedCase t c with
    | some t => typedCases t cs
    | none => none

/-- A test: transactions with their cases, and whether they are committed. -/
def typedTest : Tree → List (List TypedCase × Bool) → Bool
  | _, [] => true
  | t, (cs, commits) :: l =>
    match typedCases t cs with
    | some t' => typedTest (if commits then t' else t) l
    | none => false

/-- engine/typedtable_test.go:40-51 -/
def rows4 : List Struct :=
  [T 0, T 1 true "abcd" (some [0, 1, 2, 3, 4, 5]) 0x405EDD2F1A9FBE77#64 (some 123),
    T 2 (c2 := "efghijkl") (c4 := 0x3FBF7CED916872B0#64),
    T 3 true (c3 := some [6, 7, 8]) (c5 := some 4567)]

/-- engine/typedtable_test.go:36-124 `TestTypedTable` -/
example : typedTest [] [
    ([.create, .insert rows4], true),
    ([.select none none rows4, .select (some (T 1)) none (rows4.drop 1),
      .select none (some (T 1)) (rows4.take 2),
      .select (some (T 1)) (some (T 2)) ((rows4.take 3).drop 1),
      .select (some (T 4)) none [],
      .lookup (T 3) rows4[3]?, .lookup (T 0) rows4[0]?, .lookup (T 2) rows4[2]?,
      .lookup (T 1) rows4[1]?, .lookup (T 4) none], true),
    ([.insert [T 0] true], false)] = true := by decide +kernel

/-- `float64` of 0, 20 and 40, `strconv.Itoa`, and the struct that the update of
engine/typedtable_test.go:150-171 returns. -/
def typedRowUpdate (st : Struct) : Struct :=
  let n := st.intField 0
  if n.toNat % 2 = 0 then
    ⟨[fld "C1" .bool, fld "C2" .string, fld "C4" .float64],
      [.plain (.bool true), .plain (.str [48#8 + n.setWidth 8]),
        .plain (.float (if n = 0 then 0 else if n = 2 then 0x4034000000000000#64
          else 0x4044000000000000#64))]⟩
  else
    ⟨[fld "C3" .bytes, ptr "C5" .int64],
      [.slice (some [n.setWidth 8, n.setWidth 8, n.setWidth 8]), .pointer (some (.int (n * 10)))]⟩

/-- engine/typedtable_test.go:126-189 `TestTypedUpdate` -/
example : typedTest [] [
    ([.create, .insert [T 0, T 1, T 2, T 3, T 4, T 5]], true),
    ([.update typedRowUpdate], true),
    ([.select none none [T 0 true "0", T 1 (c3 := some [1, 1, 1]) (c5 := some 10),
      T 2 true "2" (c4 := 0x4034000000000000#64), T 3 (c3 := some [3, 3, 3]) (c5 := some 30),
      T 4 true "4" (c4 := 0x4044000000000000#64),
      T 5 (c3 := some [5, 5, 5]) (c5 := some 50)]], true)] = true := by decide +kernel

/-- engine/typedtable_test.go:191-262 `TestTypedDelete` -/
example : typedTest [] [
    ([.create, .insert ([T 0, T 1, T 2, T 3, T 4, T 5, T 6, T 7, T 8, T 9])], true),
    ([.delete (some (T 7)) none], true),
    ([.select none none [T 0, T 1, T 2, T 3, T 4, T 5, T 6]], true),
    ([.delete (some (T 2)) (some (T 5))], true),
    ([.select none none [T 0, T 1, T 6]], true)] = true := by decide +kernel

end Maho.Replay
