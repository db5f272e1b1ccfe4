import Verif.Lemmas.TypedValues
import Verif.Lemmas.EngineSample
import Verif.Props.Engine
/-
C89: typed tables take only structs that fit, and structs get what is in the row.
-/
namespace Maho
open Spec TVal

/-- C89: the row of a struct of the type of the table has the value of each field. Structs of other
types are refused, and so are strings and bytes that are longer than their column. -/
theorem C89_written (env : EngineEnv) (tid : TableId) (tn : TableName) (typ : List Field)
    (ti : TypedInfo) (hti : makeTypedInfo env tid tn typ = .ok ti) (st : Struct)
    (hv : Struct.Valid env st) :
    ti.structToRow st =
      if st.typ = typ ∧ AllShort ti.colTypes st.vals then .ok (structRow ti.colTypes st.vals)
      else .panic := by
  obtain ⟨h1, h2, -⟩ := makeTypedInfo_ok hti
  obtain ⟨sty, vals⟩ := st
  simp only
  unfold TypedInfo.structToRow
  simp only [h1, ne_eq]
  by_cases ht : sty = typ
  · subst ht
    rw [if_neg (by simp), fieldsToRow_eq (env := env) h2 hv]
    simp
  · rw [if_pos ht, if_neg (fun h => ht h.1)]

/-- C89: inserting structs that fit inserts their rows; if one of the structs does not fit, the call
panics and nothing is inserted. -/
theorem C89_inserted (env : EngineEnv) (tid : TableId) (tn : TableName) (typ : List Field)
    (ti : TypedInfo) (hti : makeTypedInfo env tid tn typ = .ok ti) (t : Tree) (tbl : Table)
    (ho : openTyped env t ti = .ok tbl) (sts : List Struct) (hv : ∀ st ∈ sts, Struct.Valid env st) :
    typedInsertArgs env t ti (sts.map .pointer) =
      if ∀ st ∈ sts, st.typ = typ ∧ AllShort ti.colTypes st.vals then
        insertRows env.toStoreEnv t tbl (sts.map fun st => structRow ti.colTypes st.vals)
      else (.panic, t) := by
  rw [typedInsertArgs_pointers]
  unfold typedInsert
  rw [ho]
  by_cases h : ∀ st ∈ sts, st.typ = typ ∧ AllShort ti.colTypes st.vals
  · rw [if_pos h]
    simp only
    rw [structsToRows_ok (f := fun st => structRow ti.colTypes st.vals) (fun st hs => by
      rw [C89_written env tid tn typ ti hti st (hv st hs), if_pos (h st hs)])]
  · rw [if_neg h]
    simp only
    rw [structsToRows_panic]
    · intro st hs e
      rw [C89_written env tid tn typ ti hti st (hv st hs)]
      split <;> simp
    · obtain ⟨st, hs⟩ := Classical.not_forall.1 h
      obtain ⟨hs, hn⟩ := Classical.not_imp.1 hs
      exact ⟨st, hs, by rw [C89_written env tid tn typ ti hti st (hv st hs), if_neg hn]⟩

/-- C89 (partial): the struct of an update is taken exactly if each of its fields is a field of the
table and has a value of the type of the column that is short enough, and then it sets these columns
to these values; everything else panics. Missing: fields for string columns that are not strings; see
`C89_text_stored`. -/
theorem C89_update_partial (ti : TypedInfo) (flds : List Field) (vs : List FieldVal)
    (hs : ∀ p ∈ flds.zip vs, ∀ i ct, Updates ti p.1 i ct → ct.type = .string → OfColumn ct p.2) :
    (∀ cols vals, ti.structToColsVals flds vs = .ok (cols, vals) ↔
      UpdateFits ti flds vs ∧ UpdateSays ti flds vs cols vals) ∧
    (ti.structToColsVals flds vs = .panic ↔ ¬ UpdateFits ti flds vs) := by
  have fwd : ∀ cols vals, ti.structToColsVals flds vs = .ok (cols, vals) →
      UpdateFits ti flds vs ∧ UpdateSays ti flds vs cols vals := by
    intro cols vals h
    have hf := updateFits_of hs h
    obtain ⟨cols', vals', hu⟩ := updateSays_of hf
    have := structToColsVals_of hf hu
    rw [h] at this
    simp only [Res.ok.injEq, Prod.mk.injEq] at this
    obtain ⟨rfl, rfl⟩ := this
    exact ⟨hf, hu⟩
  refine ⟨fun cols vals => ⟨fwd cols vals, fun h => structToColsVals_of h.1 h.2⟩, ?_⟩
  constructor
  · rintro h hf
    obtain ⟨cols, vals, hu⟩ := updateSays_of hf
    rw [structToColsVals_of hf hu] at h
    simp at h
  · intro h
    cases hr : ti.structToColsVals flds vs with
    | ok p => exact absurd (fwd p.1 p.2 hr).1 h
    | err e => exact absurd hr (structToColsVals_noErr e)
    | panic => rfl

/-- C89: reading a row into a struct sets each field to the value of its column, cut or rounded to the
size of the field; it panics exactly if a field is not exported or cannot have the value. -/
theorem C89_read (env : EngineEnv) (ti : TypedInfo) (row : Row) :
    (∀ st, ti.rowToStruct env row = .ok st ↔
      st.typ = ti.typ ∧ RowReadAs env ti.typ ti.colTypes row st.vals) ∧
    (ti.rowToStruct env row = .panic ↔ ¬ ∃ vs, RowReadAs env ti.typ ti.colTypes row vs) := by
  have h1 : ∀ st, ti.rowToStruct env row = .ok st ↔
      st.typ = ti.typ ∧ RowReadAs env ti.typ ti.colTypes row st.vals := by
    rintro ⟨sty, vs⟩
    unfold TypedInfo.rowToStruct
    rw [res_bind_ok]
    constructor
    · rintro ⟨ws, h, e⟩
      simp only [Res.ok.injEq, Struct.mk.injEq] at e
      obtain ⟨rfl, rfl⟩ := e
      exact ⟨rfl, rowToFields_iff.1 h⟩
    · rintro ⟨h, hr⟩
      simp only at h hr
      subst h
      exact ⟨vs, rowToFields_iff.2 hr, rfl⟩
  refine ⟨h1, ?_⟩
  constructor
  · rintro h ⟨vs, hr⟩
    rw [(h1 ⟨ti.typ, vs⟩).2 ⟨rfl, hr⟩] at h
    simp at h
  · intro h
    cases hr : ti.rowToStruct env row with
    | ok st => exact absurd ⟨st.vals, ((h1 st).1 hr).2⟩ h
    | err e =>
      exact absurd hr (bind_noErr rowToFields_noErr (by simp) e)
    | panic => rfl

/-! ### A table with a key, a string and a small number -/

def valueFields : List Field :=
  [⟨ascii "Id", ascii "primary", false, .int64⟩, ⟨ascii "Name", ascii "size=20", false, .string⟩,
    ⟨ascii "Small", [], false, .int8⟩, ⟨ascii "Data", ascii "size=4", false, .bytes⟩]

def valueInfo : TypedInfo :=
  infoOf (makeTypedInfo sampleEngine 600#32 ⟨28, 33, sampleEngine.ident (ascii "t")⟩ valueFields)

def valueStruct : Struct :=
  ⟨valueFields, [.plain (.int 1#64), .plain (.str (ascii "a")), .plain (.int 7#64),
    .slice (some [1#8])]⟩

def valueTree : Tree :=
  match createTypedTable sampleEngine [] valueInfo with
  | .ok t => (typedInsertArgs sampleEngine t valueInfo [.pointer valueStruct]).2
  | _ => []

theorem valueInfo_made : makeTypedInfo sampleEngine 600#32 ⟨28, 33, sampleEngine.ident (ascii "t")⟩ valueFields =
    .ok valueInfo := by decide +kernel

theorem valueStruct_valid : Struct.Valid sampleEngine valueStruct := by
  refine .cons ?_ (.cons ?_ (.cons ?_ (.cons ?_ .nil))) <;> simp [FieldOf, ScalarOf]

/-- The hypotheses are met: the struct is valid and fits, and the table is there. -/
example : valueStruct.typ = valueFields ∧ AllShort valueInfo.colTypes valueStruct.vals ∧
    (∃ tbl, openTyped sampleEngine valueTree valueInfo = .ok tbl) ∧
    rowsOf valueTree 600#32 =
      [[some (.int 1#64), some (.str (ascii "a")), some (.int 7#64), some (.bytes [1#8])]] :=
  ⟨rfl, by decide +kernel, ⟨_, show openTyped sampleEngine valueTree valueInfo =
    .ok ⟨600#32, ⟨1#32, ⟨28, 33, sampleEngine.ident (ascii "t")⟩, valueInfo.colNames, valueInfo.colTypes,
      [makeColumnKey 0#32 false]⟩⟩ by decide +kernel⟩, by decide +kernel⟩

/-- A struct that does not fit: five bytes for a column of four. -/
example : ¬ AllShort valueInfo.colTypes [.plain (.int 1#64), .plain (.str []), .plain (.int 7#64),
    .slice (some [1#8, 2#8, 3#8, 4#8, 5#8])] := by decide +kernel

/-- An update of one column meets the hypotheses. -/
example : UpdateFits valueInfo [⟨ascii "Small", [], false, .int8⟩] [.plain (.int 9#64)] ∧
    UpdateSays valueInfo [⟨ascii "Small", [], false, .int8⟩] [.plain (.int 9#64)] [2#32]
      [some (.int 9#64)] := by
  have hu : Updates valueInfo ⟨ascii "Small", [], false, .int8⟩ 2 ⟨.int64, 1#32, false, true⟩ := by
    unfold Updates
    decide +kernel
  refine ⟨⟨by decide, ?_⟩, .cons hu .nil⟩
  intro p hp
  simp only [List.zip_cons_cons, List.zip_nil_left, List.mem_singleton] at hp
  subst hp
  exact ⟨2, _, hu, by decide, by decide⟩

/-- The row can be read. -/
example : RowReadAs sampleEngine valueInfo.typ valueInfo.colTypes
    [some (.int 1#64), some (.str (ascii "a")), some (.int 7#64), some (.bytes [1#8])]
    valueStruct.vals :=
  (((C89_read sampleEngine valueInfo _).1 valueStruct).1 (by decide +kernel)).2

/-- A struct with one field, for updates. -/
def oneField (name : String) (kind : Kind) (v : FieldVal) : Struct := ⟨[⟨ascii name, [], false, kind⟩], [v]⟩

/-- C89 fails for updates of string columns: a number is taken, and the name of its type is stored. A
string column is set to the text `<int Value>`. -/
theorem C89_text_stored :
    valueInfo.structToColsVals (oneField "Name" .int (.plain (.int 5#64))).typ
      (oneField "Name" .int (.plain (.int 5#64))).vals =
        .ok ([1#32], [some (.str (ascii "<int Value>"))]) ∧
    (typedUpdate sampleEngine valueInfo none none
      (fun _ (_ : Unit) => (.ok (some (oneField "Name" .int (.plain (.int 5#64)))), ()))
        ((), valueTree)).1 = .ok () ∧
    rowsOf (typedUpdate sampleEngine valueInfo none none
      (fun _ (_ : Unit) => (.ok (some (oneField "Name" .int (.plain (.int 5#64)))), ()))
        ((), valueTree)).2.2 600#32 =
      [[some (.int 1#64), some (.str (ascii "<int Value>")), some (.int 7#64),
        some (.bytes [1#8])]] := by
  decide +kernel

/-- C89 fails for numbers: an update with a field of another size stores a number that does not fit
the field of the table, and reading gives another number, 44 for 300. -/
theorem C89_number_changed :
    rowsOf (typedUpdate sampleEngine valueInfo none none
      (fun _ (_ : Unit) => (.ok (some (oneField "Small" .int64 (.plain (.int 300#64)))), ()))
        ((), valueTree)).2.2 600#32 =
      [[some (.int 1#64), some (.str (ascii "a")), some (.int 300#64), some (.bytes [1#8])]] ∧
    valueInfo.rowToStruct sampleEngine
      [some (.int 1#64), some (.str (ascii "a")), some (.int 300#64), some (.bytes [1#8])] =
      .ok ⟨valueFields, [.plain (.int 1#64), .plain (.str (ascii "a")), .plain (.int 44#64),
        .slice (some [1#8])]⟩ := by
  decide +kernel

/-- C89 fails for nil: it is taken, and a row of NULLs is inserted, also in columns that are not null.
Such a row cannot be read. -/
theorem C89_nil_inserted :
    (typedInsertArgs sampleEngine valueTree valueInfo [.absent]).1 = .ok () ∧
    rowsOf (typedInsertArgs sampleEngine valueTree valueInfo [.absent]).2 600#32 =
      [[none, none, none, none],
       [some (.int 1#64), some (.str (ascii "a")), some (.int 7#64), some (.bytes [1#8])]] ∧
    valueInfo.rowToStruct sampleEngine [none, none, none, none] = .panic := by
  decide +kernel

/-- Other arguments that are not pointers to structs are refused. -/
theorem C89_not_a_struct (env : EngineEnv) (t : Tree) (ti : TypedInfo) (tbl : Table)
    (ho : openTyped env t ti = .ok tbl) (arg : StructArg)
    (h : arg = .value ∨ ∃ typ, arg = .nilPointer typ ∧ (typ ≠ ti.typ ∨ ti.colTypes ≠ [])) :
    typedInsertArgs env t ti [arg] = (.panic, t) := by
  unfold typedInsertArgs
  rw [ho]
  rcases h with rfl | ⟨typ, rfl, h⟩
  · rfl
  · simp only [TypedInfo.argsToRows, TypedInfo.argToRow, if_pos h, Res.bind_panic]

example : (∃ tbl, openTyped sampleEngine valueTree valueInfo = .ok tbl) ∧
    valueInfo.colTypes ≠ [] :=
  ⟨⟨_, show openTyped sampleEngine valueTree valueInfo =
    .ok ⟨600#32, ⟨1#32, ⟨28, 33, sampleEngine.ident (ascii "t")⟩, valueInfo.colNames, valueInfo.colTypes,
      [makeColumnKey 0#32 false]⟩⟩ by decide +kernel⟩, by decide +kernel⟩

end Maho
