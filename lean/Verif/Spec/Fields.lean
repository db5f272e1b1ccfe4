import Verif.Spec.Storage
import Verif.Model.Typed
/-
What the fields of a struct say about the columns of its table, for C87.
-/
namespace Maho.Spec

/-- An ASCII capital. -/
def Capital (b : Byte) : Prop := 65 ≤ b.toNat ∧ b.toNat ≤ 90

instance (b : Byte) : Decidable (Capital b) := by unfold Capital; infer_instance

/-- The small letter for a capital; other bytes stay as they are. -/
def small (b : Byte) : Byte := if Capital b then b + 32#8 else b

/-- Texts with a separator between them. -/
def joined (sep : Byte) : List Bytes → Bytes
  | [] => []
  | [w] => w
  | w :: ws => w ++ sep :: joined sep ws

/-- The words of a field name: each has capitals and then other characters. Only the last word
may be without other characters. -/
def Divided : List (Bytes × Bytes) → Prop
  | [] => True
  | w :: ws => w.1 ≠ [] ∧ (∀ b ∈ w.1, Capital b) ∧ (∀ b ∈ w.2, ¬ Capital b) ∧
      (ws ≠ [] → w.2 ≠ []) ∧ Divided ws

instance decidableDivided : ∀ ws, Decidable (Divided ws)
  | [] => isTrue trivial
  | w :: ws => by
    have := decidableDivided ws
    unfold Divided
    infer_instance

/-- The text of a word. -/
def wordText (w : Bytes × Bytes) : Bytes := w.1 ++ w.2

/-- The word in small letters. -/
def smallWord (w : Bytes × Bytes) : Bytes := (wordText w).map small

/-- The column of a field: its words in small letters with `_` between them. -/
def ColumnNamed (field column : Bytes) : Prop :=
  ∃ ws, ws ≠ [] ∧ Divided ws ∧ field = (ws.map wordText).flatten ∧
    column = joined 95#8 (ws.map smallWord)

/-- What a tag can say. -/
inductive TagPart where
  | name (s : Bytes)
  | notNull
  | primary
  | size (s : Bytes)
deriving DecidableEq

/-- The text of a part of a tag. -/
def TagPart.text : TagPart → Bytes
  | .name s => ascii "name=" ++ s
  | .notNull => ascii "notnull"
  | .primary => ascii "primary"
  | .size s => ascii "size=" ++ s

/-- A value in a tag has no comma and no equals sign. -/
def TagPart.Fits : TagPart → Prop
  | .name s | .size s => ∀ b ∈ s, b ≠ 44#8 ∧ b ≠ 61#8
  | .notNull | .primary => True

/-- The parts of a tag, with commas between them. -/
def TagSays (tag : Bytes) (parts : List TagPart) : Prop :=
  (∀ p ∈ parts, p.Fits) ∧ tag = joined 44#8 (parts.map TagPart.text)

/-- The name in a tag; the last one counts. -/
def tagName (parts : List TagPart) : Option Bytes :=
  (parts.filterMap fun | .name s => some s | _ => none).getLast?

/-- The text of the size in a tag; the last one counts. -/
def tagSizeText (parts : List TagPart) : Option Bytes :=
  (parts.filterMap fun | .size s => some s | _ => none).getLast?

/-- A positive number in decimal, perhaps with a plus sign, that fits in an `int`. -/
def SizeText (s : Bytes) (n : Nat) : Prop :=
  ∃ ds : Bytes, ds ≠ [] ∧ (s = ds ∨ s = 43#8 :: ds) ∧ (∀ b ∈ ds, 48 ≤ b.toNat ∧ b.toNat ≤ 57) ∧
    n = ds.foldl (fun a b => a * 10 + (b.toNat - 48)) 0 ∧ 0 < n ∧ n < 2 ^ 63

/-- The size that the tag says, or one. -/
def SizeSaid (parts : List TagPart) (n : Nat) : Prop :=
  match tagSizeText parts with
  | some s => SizeText s n
  | none => n = 1

/-- The types of fields that have a column, and the type of the column. A size is given for those
types whose columns do not take it from the tag. -/
def columnOfKind : Kind → Option (ValueType × Option Nat)
  | .bool => some (.bool, none)
  | .string => some (.string, none)
  | .bytes => some (.bytes, none)
  | .int8 => some (.int64, some 1)
  | .int16 => some (.int64, some 2)
  | .int32 => some (.int64, some 4)
  | .int | .int64 => some (.int64, some 8)
  | .float32 | .float64 => some (.float64, some 8)
  | .other => none

/-- The column of a field: its name, its type, and whether it belongs to the primary key. Columns
of pointers can be NULL, and those of slices that are not tagged; only slices are tagged so, and
there are no pointers to slices. -/
def FieldMakes (fld : Field) (column : Bytes) (ct : ColumnType) (primary : Bool) : Prop :=
  ∃ parts n vt fixed, TagSays fld.tag parts ∧
    (match tagName parts with
      | some s => column = s
      | none => ColumnNamed fld.name column) ∧
    SizeSaid parts n ∧
    columnOfKind fld.kind = some (vt, fixed) ∧
    (fld.kind = .bytes → fld.pointer = false) ∧
    (fld.kind ≠ .bytes → TagPart.notNull ∉ parts) ∧
    ct.type = vt ∧ ct.size.toNat = fixed.getD n ∧ ct.fixed = false ∧
    (ct.notNull = true ↔ if fld.kind = .bytes then TagPart.notNull ∈ parts else fld.pointer = false) ∧
    (primary = true ↔ TagPart.primary ∈ parts)

/-- The sizes in the tag of a field are less than 2^32. -/
def SizeFits (fld : Field) : Prop :=
  ∀ parts n, TagSays fld.tag parts → SizeSaid parts n → n < 2 ^ 32

/-- The key of the table: the numbers of the columns that belong to it, ascending. -/
def keyNumbers : Nat → List Bool → List (Nat × Bool)
  | _, [] => []
  | i, p :: ps => (if p then [(i, false)] else []) ++ keyNumbers (i + 1) ps

/-- The table of a struct has a column for each field. -/
def TypeMakes (typ : List Field) (columns : List (Bytes × ColumnType × Bool)) : Prop :=
  All2 (fun fld c => FieldMakes fld c.1 c.2.1 c.2.2) typ columns

/-- A field name in which no capital follows a capital, and without `_`. -/
def CamelCase (name : Bytes) : Prop :=
  (∀ b ∈ name, b ≠ 95#8) ∧
  ∀ i x y, name[i]? = some x → name[i + 1]? = some y → ¬ (Capital x ∧ Capital y)

end Maho.Spec
