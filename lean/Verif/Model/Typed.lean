import Verif.Model.Storage
/-
Model of engine/typedinfo.go and engine/typedtable.go: tables whose rows are Go structs.
Reflection is modelled by descriptions of the struct's fields; a method of `reflect.Value` called
on the wrong kind of value panics.
-/
namespace Maho

/-- engine/engine.go:49-56 `TableType`. `ColumnDefaults` and `Indexes` are never set
(engine/engine.go:390-397, engine/typedinfo.go:191-198). -/
structure Definition where
  version : BitVec 32
  columnNames : List Identifier
  columnTypes : List ColumnType
  key : List ColumnKey
deriving DecidableEq

/-- A definition with every identifier replaced. -/
def Definition.mapIds (f : Identifier → Identifier) (d : Definition) : Definition :=
  { d with columnNames := d.columnNames.map f }

/-- What the engine needs besides the store: the interning of names (Model/Ident.lean; a name
that has got an identifier keeps it, so `types.ID(s, true)` and `Identifier.String` are functions
here), encoding/gob for table definitions and `float64(float32(x))`. The laws about identifiers
are those proved for the interning tables in C25 and C27. -/
structure EngineEnv extends StoreEnv where
  /-- types/identifier.go:322-324 `Identifier.String` -/
  name : Identifier → Bytes
  /-- types/identifier.go:301-320 `ID(s, true)` -/
  ident : Bytes → Identifier
  /-- engine/engine.go:333-341 `Encode` -/
  encodeDef : Definition → Bytes
  /-- engine/engine.go:343-351 `DecodeTableType` -/
  decodeDef : Bytes → Option Definition
  /-- rounding to float32 -/
  float32 : F64 → F64
  name_ident : ∀ s, s.length ≤ 128 → name (ident s) = s
  storedId_ident : ∀ s, s.length ≤ 128 → storedId (ident s) = ident s
  name_storedId : ∀ id, (name id).length ≤ 128 → name (storedId id) = name id
  decodeDef_encodeDef : ∀ d, decodeDef (encodeDef d) = some (d.mapIds storedId)
  /-- types/identifier.go:145-170: names with a fixed identifier -/
  builtin : ∀ p ∈ initialIdentifiers, ident (ascii p.1) = p.2

/-- `reflect.Kind` of a field or of what it points to, as far as engine/typedinfo.go:140-159
distinguishes them; `bytes` is a slice of bytes. -/
inductive Kind where
  | bool | int | int8 | int16 | int32 | int64 | float32 | float64 | bytes | string
  | other
deriving DecidableEq

/-- A struct field: its name, its `maho` tag, its kind, or the kind of what it points to.
Field names are ASCII here. -/
structure Field where
  name : Bytes
  tag : Bytes
  pointer : Bool
  kind : Kind
deriving DecidableEq

/-- `strings.Split` with a separator of one byte. -/
def splitBytes (sep : Byte) : Bytes → List Bytes
  | [] => [[]]
  | b :: bs =>
    if b = sep then [] :: splitBytes sep bs
    else
      match splitBytes sep bs with
      | [] => [[b]]
      | f :: fs => (b :: f) :: fs

/-- engine/typedinfo.go:62-69 `validTags`. -/
def validTags : List (Bytes × Bool) :=
  [(ascii "name", true), (ascii "notnull", false), (ascii "primary", false), (ascii "size", true)]

/-- engine/typedinfo.go:78-90: the loop of `fieldTags`. -/
def fieldTagsLoop : List Bytes → List (Bytes × Bytes) → Res (List (Bytes × Bytes))
  | [], tags => .ok tags
  | fld :: flds, tags =>
    match splitBytes 61#8 fld with
    | [] => .panic
    | k :: vs =>
      match validTags.lookup k with
      | none => .panic
      | some hasKV =>
        if hasKV = true ∧ vs.length ≠ 1 ∨ hasKV = false ∧ vs.length ≠ 0 then .panic
        else fieldTagsLoop flds ((k, vs.headD []) :: tags)

/-- engine/typedinfo.go:71-93 `fieldTags`. -/
def fieldTags (s : Bytes) : Res (List (Bytes × Bytes)) :=
  if s = [] then .ok [] else fieldTagsLoop (splitBytes 44#8 s) []

/-- `unicode.IsUpper` on ASCII. -/
def isUpperByte (b : Byte) : Bool := decide (65 ≤ b.toNat ∧ b.toNat ≤ 90)

/-- engine/typedinfo.go:38-57: the loop of `fieldNameToColumnName`. -/
def snakeLoop (upper : Bool) : Bytes → Bytes
  | [] => []
  | r :: rs =>
    if isUpperByte r then
      (if upper then [] else [95#8]) ++ (r + 32#8) :: snakeLoop true rs
    else r :: snakeLoop false rs

/-- engine/typedinfo.go:25-60 `fieldNameToColumnName`, before interning. -/
def columnNameOf : Bytes → Res Bytes
  | [] => .panic
  | r :: rs => if isUpperByte r then .ok ((r + 32#8) :: snakeLoop true rs) else .panic

/-- engine/typedinfo.go:119-126: the size from the tag. -/
def tagSize (tags : List (Bytes × Bytes)) : Res (BitVec 32) :=
  match tags.lookup (ascii "size") with
  | none => .ok 1#32
  | some val =>
    match parseInt64 val with
    | none => .panic
    | some n => if n.toInt ≤ 0 then .panic else .ok (n.setWidth 32)

/-- engine/typedinfo.go:140-159: the type of the column and its size. `size` is what the tag
says. -/
def kindType (size : BitVec 32) : Kind → Res (ValueType × BitVec 32)
  | .bool => .ok (.bool, size)
  | .int => .ok (.int64, 8#32)
  | .int8 => .ok (.int64, 1#32)
  | .int16 => .ok (.int64, 2#32)
  | .int32 => .ok (.int64, 4#32)
  | .int64 => .ok (.int64, 8#32)
  | .float32 => .ok (.float64, 8#32)
  | .float64 => .ok (.float64, 8#32)
  | .bytes => .ok (.bytes, size)
  | .string => .ok (.string, size)
  | .other => .panic

/-- engine/typedinfo.go:15-23 `TypedInfo`. A nil primary key is `none`. -/
structure TypedInfo where
  typ : List Field
  tid : TableId
  tn : TableName
  colNames : List Identifier
  colTypes : List ColumnType
  primary : Option (List ColumnKey)
  fldNames : List Bytes
deriving DecidableEq

instance : Inhabited TypedInfo := ⟨⟨[], 0#32, ⟨0, 0, 0⟩, [], [], none, []⟩⟩

/-- engine/typedinfo.go:111-177: what one field contributes: column name, column type and whether
it is part of the primary key. -/
def typedField (env : EngineEnv) (fld : Field) : Res (Identifier × ColumnType × Bool) := do
  let tags ← fieldTags fld.tag
  let name ← (match tags.lookup (ascii "name") with
    | some name => .ok name
    | none => columnNameOf fld.name)
  let size ← tagSize tags
  if fld.pointer = true ∧ fld.kind = .bytes then .panic
  else do
    let (vt, size) ← kindType size fld.kind
    let tagged := (tags.lookup (ascii "notnull")).isSome
    if fld.kind ≠ .bytes ∧ tagged = true then .panic
    else
      let notNull := if fld.kind = .bytes then tagged else !fld.pointer
      .ok (env.ident name, ⟨vt, size, false, notNull⟩, (tags.lookup (ascii "primary")).isSome)

/-- engine/typedinfo.go:109-178: the loop of `MakeTypedInfo`; `idx` is the number of the field. -/
def typedFields (env : EngineEnv) : Nat → List Field →
    Res (List Identifier × List ColumnType × List ColumnKey)
  | _, [] => .ok ([], [], [])
  | idx, fld :: flds => do
    let (name, ct, primary) ← typedField env fld
    let (names, cts, key) ← typedFields env (idx + 1) flds
    .ok (name :: names, ct :: cts,
      (if primary then [makeColumnKey (BitVec.ofNat 32 idx) false] else []) ++ key)

/-- engine/typedinfo.go:95-189 `MakeTypedInfo` for a struct type with the given fields. -/
def makeTypedInfo (env : EngineEnv) (tid : TableId) (tn : TableName) (typ : List Field) :
    Res TypedInfo := do
  let (names, cts, key) ← typedFields env 0 typ
  .ok ⟨typ, tid, tn, names, cts, if key = [] then none else some key, typ.map (·.name)⟩

/-- engine/typedinfo.go:191-198 `TableType`. -/
def TypedInfo.definition (ti : TypedInfo) : Definition :=
  ⟨1#32, ti.colNames, ti.colTypes, ti.primary.getD []⟩

/-- A value of a field that is neither a pointer nor a slice. -/
inductive Scalar where
  | bool (b : Bool)
  | int (i : BitVec 64)
  | float (f : F64)
  | str (s : Bytes)
deriving DecidableEq

/-- The value of a field. Integers of all sizes are widened to 64 bits and float32 to float64, as
`reflect.Value.Int` and `reflect.Value.Float` do. -/
inductive FieldVal where
  | plain (v : Scalar)
  | pointer (v : Option Scalar)
  | slice (v : Option Bytes)
deriving DecidableEq

/-- A Go struct: its type and the values of its fields. -/
structure Struct where
  typ : List Field
  vals : List FieldVal
deriving DecidableEq

/-- `reflect.Type.String` of a type that the program has not named; fields of other kinds have no
values here. -/
def Kind.text : Kind → Bytes
  | .bool => ascii "bool"
  | .int => ascii "int"
  | .int8 => ascii "int8"
  | .int16 => ascii "int16"
  | .int32 => ascii "int32"
  | .int64 => ascii "int64"
  | .float32 => ascii "float32"
  | .float64 => ascii "float64"
  | .bytes => ascii "[]uint8"
  | .string => ascii "string"
  | .other => []

/-- `reflect.Value.String` of a value that is not a string: unlike the other methods it does not
panic. -/
def valueText (type : Bytes) : Bytes := ascii "<" ++ type ++ ascii " Value>"

/-- engine/typedtable.go:27-32: what `fval.String()` returned for a string column. -/
def stringToValue (ct : ColumnType) (s : Bytes) : Res (Option Value) :=
  if s.length > ct.size.toNat then .panic else .ok (some (.str s))

/-- engine/typedtable.go:24-45, for a field or what it points to; `type` is its type. -/
def scalarToValue (ct : ColumnType) (type : Bytes) (v : Scalar) : Res (Option Value) :=
  match ct.type, v with
  | .bool, .bool b => .ok (some (.bool b))
  | .string, .str s => stringToValue ct s
  | .string, _ => stringToValue ct (valueText type)
  | .float64, .float f => .ok (some (.float f))
  | .int64, .int i => .ok (some (.int i))
  | _, _ => .panic

/-- engine/typedtable.go:24-45, for a slice of bytes. -/
def sliceToValue (ct : ColumnType) (b : Bytes) : Res (Option Value) :=
  match ct.type with
  | .bytes => if b.length > ct.size.toNat then .panic else .ok (some (.bytes b))
  | .string => stringToValue ct (valueText Kind.bytes.text)
  | _ => .panic

/-- engine/typedtable.go:14-46 `fieldToValue` of the value of a field of the given kind. -/
def fieldToValue (ct : ColumnType) (kind : Kind) (fval : FieldVal) : Res (Option Value) :=
  if ct.notNull then
    match fval with
    | .plain v => scalarToValue ct kind.text v
    | .slice v => sliceToValue ct (v.getD [])
    | .pointer _ =>
      if ct.type = .string then stringToValue ct (valueText (ascii "*" ++ kind.text)) else .panic
  else
    match fval with
    | .plain _ => .panic
    | .pointer none => .ok none
    | .slice none => .ok none
    | .pointer (some v) => if ct.type = .bytes then .panic else scalarToValue ct kind.text v
    | .slice (some b) => if ct.type = .bytes then sliceToValue ct b else .panic

/-- engine/typedtable.go:64-67: the loop of `structToRow`; a missing field panics. -/
def fieldsToRow : List ColumnType → List Field → List FieldVal → Res Row
  | [], _, _ => .ok []
  | ct :: cts, fld :: flds, v :: vs => do
    let val ← fieldToValue ct fld.kind v
    let row ← fieldsToRow cts flds vs
    .ok (val :: row)
  | _ :: _, _, _ => .panic

/-- engine/typedtable.go:48-70 `structToRow` of a pointer to a struct. -/
def TypedInfo.structToRow (ti : TypedInfo) (st : Struct) : Res Row :=
  if st.typ ≠ ti.typ then .panic else fieldsToRow ti.colTypes st.typ st.vals

/-- `reflect.Value.SetInt`: the value is cut to the size of the field. -/
def setInt (kind : Kind) (i : BitVec 64) : Res Scalar :=
  match kind with
  | .int => .ok (.int i)
  | .int8 => .ok (.int ((i.setWidth 8).signExtend 64))
  | .int16 => .ok (.int ((i.setWidth 16).signExtend 64))
  | .int32 => .ok (.int ((i.setWidth 32).signExtend 64))
  | .int64 => .ok (.int i)
  | _ => .panic

/-- `reflect.Value.SetFloat`. -/
def setFloat (env : EngineEnv) (kind : Kind) (f : F64) : Res Scalar :=
  match kind with
  | .float32 => .ok (.float (env.float32 f))
  | .float64 => .ok (.float f)
  | _ => .panic

/-- engine/typedtable.go:93-147: a field that is neither a pointer nor a slice is set. -/
def setPlain (env : EngineEnv) (kind : Kind) (ct : ColumnType) (val : Option Value) : Res Scalar :=
  match ct.type, val with
  | .bool, some (.bool b) => if kind = .bool then .ok (.bool b) else .panic
  | .string, some (.str s) => if kind = .string then .ok (.str s) else .panic
  | .float64, some (.float f) => setFloat env kind f
  | .int64, some (.int i) => setInt kind i
  | _, _ => .panic

/-- engine/typedtable.go:93-147: a field is set to a pointer to a new bool, string, float64 or
int64. `reflect.Value.Set` panics if the field has another pointer type. -/
def setPointer (kind : Kind) (ct : ColumnType) (val : Option Value) : Res Scalar :=
  match ct.type, val with
  | .bool, some (.bool b) => if kind = .bool then .ok (.bool b) else .panic
  | .string, some (.str s) => if kind = .string then .ok (.str s) else .panic
  | .float64, some (.float f) => if kind = .float64 then .ok (.float f) else .panic
  | .int64, some (.int i) => if kind = .int64 then .ok (.int i) else .panic
  | _, _ => .panic

/-- The name of a field that other packages can see. -/
def Field.exported (fld : Field) : Bool :=
  match fld.name with
  | [] => false
  | b :: _ => isUpperByte b

/-- engine/typedtable.go:84-147: one turn of the loop of `RowToStruct`. All the methods of
`reflect.Value` that set a field panic if the field is not exported. `Value.bytes` does not tell
a nil slice from an empty one: for a column that is not null, an empty slice here is the slice
that was written, which may have been nil (`slices.Clone` keeps nil). -/
def valueToField (env : EngineEnv) (fld : Field) (ct : ColumnType) (val : Option Value) :
    Res FieldVal :=
  if fld.exported = false then .panic
  else if ct.notNull = false ∧ val = none then
    .ok (if fld.kind = .bytes then .slice none else .pointer none)
  else if ct.type = .bytes then
    match val with
    | some (.bytes b) => if fld.kind = .bytes then .ok (.slice (some b)) else .panic
    | _ => .panic
  else if ct.notNull then do
    let v ← setPlain env fld.kind ct val
    .ok (.plain v)
  else do
    let v ← setPointer fld.kind ct val
    .ok (.pointer (some v))

/-- engine/typedtable.go:84-147: the loop of `RowToStruct`; a missing field or a missing column
panics. -/
def rowToFields (env : EngineEnv) : List Field → List ColumnType → Row → Res (List FieldVal)
  | _, [], _ => .ok []
  | fld :: flds, ct :: cts, val :: row => do
    let v ← valueToField env fld ct val
    let vs ← rowToFields env flds cts row
    .ok (v :: vs)
  | _, _ :: _, _ => .panic

/-- engine/typedtable.go:72-148 `RowToStruct` into a struct of the right type: the new struct. -/
def TypedInfo.rowToStruct (env : EngineEnv) (ti : TypedInfo) (row : Row) : Res Struct := do
  let vals ← rowToFields env ti.typ ti.colTypes row
  .ok ⟨ti.typ, vals⟩

/-- engine/typedtable.go:150-158 `fieldNameToColumn`. -/
def fieldNameToColumn (fldNames : List Bytes) (name : Bytes) : Res Nat :=
  match fldNames.findIdx? (· == name) with
  | some idx => .ok idx
  | none => .panic

/-- engine/typedtable.go:160-178 `structToColsVals`. -/
def TypedInfo.structToColsVals (ti : TypedInfo) : List Field → List FieldVal →
    Res (List ColumnNum × List (Option Value))
  | [], _ => .ok ([], [])
  | _ :: _, [] => .panic
  | fld :: flds, v :: vs => do
    let cdx ← fieldNameToColumn ti.fldNames fld.name
    match ti.colTypes[cdx]? with
    | none => .panic
    | some ct => do
      let val ← fieldToValue ct fld.kind v
      let (cols, vals) ← TypedInfo.structToColsVals ti flds vs
      .ok (BitVec.ofNat 32 cdx :: cols, val :: vals)

/-- engine/typedtable.go:180-182 `CreateTypedTable`. -/
def createTypedTable (env : EngineEnv) (t : Tree) (ti : TypedInfo) : Res Tree :=
  createTable env.toStoreEnv t ti.tid ti.tn ti.colNames ti.colTypes ti.primary

/-- The `OpenTable` call of engine/typedtable.go:187 and 203. -/
def openTyped (env : EngineEnv) (t : Tree) (ti : TypedInfo) : Res Table :=
  openTable env.toStoreEnv t ti.tid ti.tn ti.colNames ti.colTypes (ti.primary.getD [])

/-- engine/typedtable.go:192-195: the rows of the structs. -/
def TypedInfo.structsToRows (ti : TypedInfo) : List Struct → Res (List Row)
  | [] => .ok []
  | st :: sts => do
    let row ← ti.structToRow st
    let rows ← ti.structsToRows sts
    .ok (row :: rows)

/-- engine/typedtable.go:184-198 `TypedTableInsert`. -/
def typedInsert (env : EngineEnv) (t : Tree) (ti : TypedInfo) (structs : List Struct) :
    Res Unit × Tree :=
  match openTyped env t ti with
  | .panic => (.panic, t)
  | .err e => (.err e, t)
  | .ok tbl =>
    match ti.structsToRows structs with
    | .panic => (.panic, t)
    | .err e => (.err e, t)
    | .ok rows => insertRows env.toStoreEnv t tbl rows

/-- What a caller can pass for a struct: nil, something that is not a pointer, a nil pointer to a
struct, or a pointer to one. -/
inductive StructArg where
  | absent
  | value
  | nilPointer (typ : List Field)
  | pointer (st : Struct)
deriving DecidableEq

/-- engine/typedtable.go:48-70 `structToRow`: a nil row for nil. A nil pointer has no fields. -/
def TypedInfo.argToRow (ti : TypedInfo) : StructArg → Res (Option Row)
  | .absent => .ok none
  | .value => .panic
  | .nilPointer typ => if typ ≠ ti.typ ∨ ti.colTypes ≠ [] then .panic else .ok (some [])
  | .pointer st => do
    let row ← ti.structToRow st
    .ok (some row)

/-- engine/typedtable.go:192-195: the rows of the arguments; `ConvertRow`, which gets them next, does
not tell a nil row from an empty one. -/
def TypedInfo.argsToRows (ti : TypedInfo) : List StructArg → Res (List Row)
  | [] => .ok []
  | arg :: args => do
    let row ← ti.argToRow arg
    let rows ← ti.argsToRows args
    .ok (row.getD [] :: rows)

/-- engine/typedtable.go:184-198 `TypedTableInsert` with any arguments; `typedInsert` is the same for
pointers to structs. -/
def typedInsertArgs (env : EngineEnv) (t : Tree) (ti : TypedInfo) (args : List StructArg) :
    Res Unit × Tree :=
  match openTyped env t ti with
  | .panic => (.panic, t)
  | .err e => (.err e, t)
  | .ok tbl =>
    match ti.argsToRows args with
    | .panic => (.panic, t)
    | .err e => (.err e, t)
    | .ok rows => insertRows env.toStoreEnv t tbl rows

/-- `structToRow` of a bound of a scan, which may be nil. -/
def TypedInfo.boundRow (ti : TypedInfo) : Option Struct → Res (Option Row)
  | none => .ok none
  | some st => do
    let row ← ti.structToRow st
    .ok (some row)

/-- engine/typedtable.go:215-229: the loop over the rows of a scan. The items were collected by
`Rows`, so changes made by the callback do not affect the loop. The callback gets the key of the
current row (`rows.Current`) and the row; it may change the variables it captures, `σ`, and the
tree. -/
def selectLoop {σ : Type} (fn : Bytes → Row → σ × Tree → Res Unit × (σ × Tree)) :
    List Item → σ × Tree → Res Unit × (σ × Tree)
  | [], s => (.ok (), s)
  | it :: its, s =>
    match fn it.key it.row s with
    | (.ok (), s) => selectLoop fn its s
    | (.err .eof, s) => (.ok (), s)
    | (.err .other, s) => (.err .other, s)
    | (.panic, s) => (.panic, s)

/-- engine/typedtable.go:200-232 `typedTableSelect`. -/
def typedSelect {σ : Type} (env : EngineEnv) (ti : TypedInfo) (minSt maxSt : Option Struct)
    (fn : Table → Bytes → Row → σ × Tree → Res Unit × (σ × Tree)) (s : σ × Tree) :
    Res Unit × (σ × Tree) :=
  match openTyped env s.2 ti with
  | .panic => (.panic, s)
  | .err e => (.err e, s)
  | .ok tbl =>
    match (do
      let minRow ← ti.boundRow minSt
      let maxRow ← ti.boundRow maxSt
      tableRows s.2 tbl none minRow maxRow none) with
    | .panic => (.panic, s)
    | .err e => (.err e, s)
    | .ok rs => selectLoop (fn tbl) rs.items s

/-- engine/typedtable.go:239-248: the callback of `TypedTableLookup`; the captured variable is the
struct that was found. -/
def lookupRow (env : EngineEnv) (ti : TypedInfo) (row : Row) (s : Option Struct × Tree) :
    Res Unit × (Option Struct × Tree) :=
  match s.1 with
  | some _ => (.panic, s)
  | none =>
    match ti.rowToStruct env row with
    | .panic => (.panic, s)
    | .err e => (.err e, s)
    | .ok st => (.ok (), (some st, s.2))

/-- engine/typedtable.go:234-254 `TypedTableLookup`: the struct as it is afterwards. -/
def typedLookup (env : EngineEnv) (t : Tree) (ti : TypedInfo) (st : Struct) : Res Struct :=
  match typedSelect env ti (some st) (some st) (fun _ _ row s => lookupRow env ti row s)
      (none, t) with
  | (.panic, _) => .panic
  | (.err e, _) => .err e
  | (.ok (), (none, _)) => .err .eof
  | (.ok (), (some st, _)) => .ok st

/-- engine/typedtable.go:269-285: the callback of `TypedTableUpdate`. `fn` returns the struct with
the new values, or nil. -/
def updateCurrent {σ : Type} (env : EngineEnv) (ti : TypedInfo)
    (fn : Row → σ → Res (Option Struct) × σ) (tbl : Table) (key : Bytes) (row : Row)
    (s : σ × Tree) : Res Unit × (σ × Tree) :=
  match fn row s.1 with
  | (.panic, x) => (.panic, (x, s.2))
  | (.err e, x) => (.err e, (x, s.2))
  | (.ok none, x) => (.ok (), (x, s.2))
  | (.ok (some st), x) =>
    match ti.structToColsVals st.typ st.vals with
    | .panic => (.panic, (x, s.2))
    | .err e => (.err e, (x, s.2))
    | .ok (cols, vals) =>
      let (r, t) := updateRow env.toStoreEnv s.2 tbl key cols vals
      (r, (x, t))

/-- engine/typedtable.go:265-286 `TypedTableUpdate`. -/
def typedUpdate {σ : Type} (env : EngineEnv) (ti : TypedInfo) (minSt maxSt : Option Struct)
    (fn : Row → σ → Res (Option Struct) × σ) (s : σ × Tree) : Res Unit × (σ × Tree) :=
  typedSelect env ti minSt maxSt (updateCurrent env ti fn) s

/-- engine/typedtable.go:292-307: the callback of `TypedTableDelete`. -/
def deleteCurrent {σ : Type} (fn : Row → σ → Res Bool × σ) (tbl : Table) (key : Bytes) (row : Row)
    (s : σ × Tree) : Res Unit × (σ × Tree) :=
  match fn row s.1 with
  | (.panic, x) => (.panic, (x, s.2))
  | (.err e, x) => (.err e, (x, s.2))
  | (.ok false, x) => (.ok (), (x, s.2))
  | (.ok true, x) =>
    match deleteRow s.2 tbl key with
    | .panic => (.panic, (x, s.2))
    | .err e => (.err e, (x, s.2))
    | .ok t => (.ok (), (x, t))

/-- engine/typedtable.go:288-308 `TypedTableDelete`. -/
def typedDelete {σ : Type} (env : EngineEnv) (ti : TypedInfo) (minSt maxSt : Option Struct)
    (fn : Row → σ → Res Bool × σ) (s : σ × Tree) : Res Unit × (σ × Tree) :=
  typedSelect env ti minSt maxSt (deleteCurrent fn) s

end Maho
