import Verif.Spec.Engine
import Verif.Model.Typed
/-
Which values of the fields of structs go into which columns, and come out of them, for C89.
-/
namespace Maho.Spec
open Maho

/-- The value in a row for a value of a field. -/
def scalarValue : Scalar → Value
  | .bool b => .bool b
  | .int i => .int i
  | .float f => .float f
  | .str s => .str s

/-- The type of the columns for a value of a field. -/
def scalarType : Scalar → ValueType
  | .bool _ => .bool
  | .int _ => .int64
  | .float _ => .float64
  | .str _ => .string

/-- What is stored for a field: nil pointers and nil slices are NULL, but where NULL is not allowed a
nil slice is the empty one. -/
def stored (ct : ColumnType) : FieldVal → Option Value
  | .plain v => some (scalarValue v)
  | .pointer v => v.map scalarValue
  | .slice none => if ct.notNull then some (.bytes []) else none
  | .slice (some b) => some (.bytes b)

/-- The value of a field has the type of the column: pointers and slices for columns that can be NULL,
the values themselves for the others. -/
def OfColumn (ct : ColumnType) : FieldVal → Prop
  | .plain v => ct.notNull = true ∧ scalarType v = ct.type
  | .pointer none => ct.notNull = false
  | .pointer (some v) => ct.notNull = false ∧ scalarType v = ct.type
  | .slice none => ct.notNull = false ∨ ct.type = .bytes
  | .slice (some _) => ct.type = .bytes

instance (ct : ColumnType) (v : FieldVal) : Decidable (OfColumn ct v) := by
  unfold OfColumn; split <;> infer_instance

/-- Strings and bytes are not longer than the size of the column. -/
def ShortEnough (ct : ColumnType) : Option Value → Prop
  | some (.str s) | some (.bytes s) => s.length ≤ ct.size.toNat
  | _ => True

instance (ct : ColumnType) (v : Option Value) : Decidable (ShortEnough ct v) := by
  unfold ShortEnough; split <;> infer_instance

/-- Every value of the struct is short enough for its column. -/
def AllShort (cts : List ColumnType) (vals : List FieldVal) : Prop :=
  ∀ p ∈ cts.zip vals, ShortEnough p.1 (stored p.1 p.2)

instance (cts : List ColumnType) (vals : List FieldVal) : Decidable (AllShort cts vals) := by
  unfold AllShort; infer_instance

/-- The row of a struct. -/
def structRow (cts : List ColumnType) (vals : List FieldVal) : Row := List.zipWith stored cts vals

/-- A number in so many bits that has the same low bits. -/
def LowBits (w : Nat) (i j : BitVec 64) : Prop :=
  -2 ^ (w - 1) ≤ j.toInt ∧ j.toInt < 2 ^ (w - 1) ∧ (2 ^ w : Int) ∣ j.toInt - i.toInt

/-- What a field of the kind becomes when it is set to a value: integers are cut and floats are
rounded to the size of the field. -/
def SetTo (env : EngineEnv) : Kind → Scalar → Scalar → Prop
  | .bool, .bool b, v => v = .bool b
  | .string, .str s, v => v = .str s
  | .int, .int i, v | .int64, .int i, v => v = .int i
  | .int8, .int i, v => ∃ j, v = .int j ∧ LowBits 8 i j
  | .int16, .int i, v => ∃ j, v = .int j ∧ LowBits 16 i j
  | .int32, .int i, v => ∃ j, v = .int j ∧ LowBits 32 i j
  | .float64, .float f, v => v = .float f
  | .float32, .float f, v => v = .float (env.float32 f)
  | _, _, _ => False

/-- The kinds that pointers are set to. -/
def PointsTo : Kind → Scalar → Prop
  | .bool, .bool _ | .string, .str _ | .int64, .int _ | .float64, .float _ => True
  | _, _ => False

/-- What a field becomes when it is read from a column. -/
inductive ReadAs (env : EngineEnv) (fld : Field) (ct : ColumnType) : Option Value → FieldVal → Prop
  | nilSlice : ct.notNull = false → fld.kind = .bytes → ReadAs env fld ct none (.slice none)
  | nilPointer : ct.notNull = false → fld.kind ≠ .bytes → ReadAs env fld ct none (.pointer none)
  | slice (b : Bytes) : ct.type = .bytes → fld.kind = .bytes →
      ReadAs env fld ct (some (.bytes b)) (.slice (some b))
  | plain (v w : Scalar) : ct.notNull = true → scalarType v = ct.type → SetTo env fld.kind v w →
      ReadAs env fld ct (some (scalarValue v)) (.plain w)
  | pointer (v : Scalar) : ct.notNull = false → scalarType v = ct.type → PointsTo fld.kind v →
      ReadAs env fld ct (some (scalarValue v)) (.pointer (some v))

/-- What the fields of a struct become when it is read from a row. -/
def RowReadAs (env : EngineEnv) : List Field → List ColumnType → Row → List FieldVal → Prop
  | _, [], _, vs => vs = []
  | fld :: flds, ct :: cts, val :: row, v :: vs =>
    FieldExported fld ∧ ReadAs env fld ct val v ∧ RowReadAs env flds cts row vs
  | _, _, _, _ => False

/-- The number of the column of a field: the first field of the table with the same name. -/
def columnOfField (names : List Bytes) (name : Bytes) : Option Nat := names.findIdx? (· == name)

/-- The column of a field of an update and its type. -/
def Updates (ti : TypedInfo) (fld : Field) (i : Nat) (ct : ColumnType) : Prop :=
  columnOfField ti.fldNames fld.name = some i ∧ ti.colTypes[i]? = some ct

/-- The struct of an update has only fields of the table, with values of the types of the columns that
are short enough. -/
def UpdateFits (ti : TypedInfo) (flds : List Field) (vals : List FieldVal) : Prop :=
  flds.length ≤ vals.length ∧ ∀ p ∈ flds.zip vals, ∃ i ct, Updates ti p.1 i ct ∧
    OfColumn ct p.2 ∧ ShortEnough ct (stored ct p.2)

/-- The columns and values of an update. -/
inductive UpdateSays (ti : TypedInfo) : List Field → List FieldVal → List ColumnNum →
    List (Option Value) → Prop
  | nil {vs} : UpdateSays ti [] vs [] []
  | cons {fld flds v vs i ct cols vals} : Updates ti fld i ct → UpdateSays ti flds vs cols vals →
      UpdateSays ti (fld :: flds) (v :: vs) (BitVec.ofNat 32 i :: cols) (stored ct v :: vals)

end Maho.Spec
