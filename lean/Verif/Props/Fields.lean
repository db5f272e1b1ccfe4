import Verif.Lemmas.Fields
import Verif.Lemmas.EngineSample
/-
C87: the table of a struct has a column for each field, named and made as the field says.
-/
namespace Maho
open Spec Flds

/-- C87: the column of a field without a name in its tag has the words of the field in small letters
with `_` between them; a word is capitals and then other characters. All other field names are
refused, by a panic. -/
theorem C87_name (field column : Bytes) :
    (columnNameOf field = .ok column ↔ ColumnNamed field column) ∧
    (columnNameOf field = .panic ↔ ¬ ∃ b bs, field = b :: bs ∧ Capital b) := by
  refine ⟨columnNameOf_iff field column, ?_⟩
  cases field with
  | nil => simp [columnNameOf]
  | cons b bs =>
    have := isUpperByte_iff b
    simp only [columnNameOf]
    split <;> simp_all

/-- The hypotheses are met: `TableId` has the column `table_id`, `AbcID` has `abc_id`. -/
example : ColumnNamed (ascii "TableId") (ascii "table_id") ∧
    ColumnNamed (ascii "AbcID") (ascii "abc_id") ∧ columnNameOf (ascii "abc") = .panic :=
  ⟨⟨[(ascii "T", ascii "able"), (ascii "I", ascii "d")], by decide, by decide, by decide, by decide⟩,
    ⟨[(ascii "A", ascii "bc"), (ascii "ID", [])], by decide, by decide, by decide, by decide⟩,
    by decide⟩

/-- C87 (partial): `MakeTypedInfo` accepts a struct exactly if each field makes a column, and the
table then has these columns in the order of the fields, and for its key the columns of the fields
that are tagged so. Missing: sizes from 2^32; see `C87_size_lost`. -/
theorem C87_columns_partial (env : EngineEnv) (tid : TableId) (tn : TableName) (typ : List Field)
    (hs : ∀ fld ∈ typ, SizeFits fld) (hl : typ.length < 2 ^ 31) :
    (∀ ti, makeTypedInfo env tid tn typ = .ok ti → ∃ columns, TypeMakes typ columns ∧
      ti.typ = typ ∧ ti.tid = tid ∧ ti.tn = tn ∧ ti.fldNames = typ.map (·.name) ∧
      ti.definition.columnNames = columns.map (fun c => env.ident c.1) ∧
      ti.definition.columnTypes = columns.map (fun c => c.2.1) ∧
      keyCols ti.definition.key = keyNumbers 0 (columns.map (fun c => c.2.2))) ∧
    ((∃ ti, makeTypedInfo env tid tn typ = .ok ti) ↔ ∃ columns, TypeMakes typ columns) ∧
    (makeTypedInfo env tid tn typ = .panic ↔ ¬ ∃ columns, TypeMakes typ columns) := by
  have fwd : ∀ ti, makeTypedInfo env tid tn typ = .ok ti → ∃ columns, TypeMakes typ columns ∧
      ti.typ = typ ∧ ti.tid = tid ∧ ti.tn = tn ∧ ti.fldNames = typ.map (·.name) ∧
      ti.definition.columnNames = columns.map (fun c => env.ident c.1) ∧
      ti.definition.columnTypes = columns.map (fun c => c.2.1) ∧
      keyCols ti.definition.key = keyNumbers 0 (columns.map (fun c => c.2.2)) := by
    intro ti h
    unfold makeTypedInfo at h
    obtain ⟨⟨names, cts, key⟩, h1, h⟩ := res_bind_ok.1 h
    simp only [Res.ok.injEq] at h
    subst h
    obtain ⟨columns, g1, rfl, rfl, rfl⟩ := typedFields_of env typ hs _ _ _ _ h1
    refine ⟨columns, g1, rfl, rfl, rfl, rfl, rfl, rfl, ?_⟩
    have hlen := all2_length g1
    rw [← keyCols_keyOf _ _ (by simp; omega)]
    simp only [TypedInfo.definition]
    split
    · next hk => rw [hk]; rfl
    · rfl
  have bwd : ∀ columns, TypeMakes typ columns → ∃ ti, makeTypedInfo env tid tn typ = .ok ti := by
    intro columns h
    unfold makeTypedInfo
    rw [typedFields_makes env typ columns h]
    exact ⟨_, rfl⟩
  have noErr : ∀ e, makeTypedInfo env tid tn typ ≠ .err e := makeTypedInfo_noErr env tid tn typ
  refine ⟨fwd, ⟨fun ⟨ti, h⟩ => ?_, fun ⟨c, h⟩ => bwd c h⟩, ?_⟩
  · obtain ⟨c, h, -⟩ := fwd ti h
    exact ⟨c, h⟩
  · constructor
    · rintro h ⟨c, hc⟩
      obtain ⟨ti, ht⟩ := bwd c hc
      rw [h] at ht
      simp at ht
    · intro h
      cases hm : makeTypedInfo env tid tn typ with
      | ok ti => obtain ⟨c, hc, -⟩ := fwd ti hm; exact absurd ⟨c, hc⟩ h
      | err e => exact absurd hm (noErr e)
      | panic => rfl

/-- A field that is tagged with a size. -/
def sizedField : Field := ⟨ascii "AbcDef", ascii "size=16,primary", false, .string⟩

theorem sizedField_makes : FieldMakes sizedField (ascii "abc_def") ⟨.string, 16#32, false, true⟩ true := by
  refine ⟨[.size (ascii "16"), .primary], 16, .string, none, ⟨?_, by decide⟩, ?_, ?_, rfl, by decide,
    by decide, rfl, rfl, rfl, by decide, by decide⟩
  · intro p hp
    simp only [List.mem_cons, List.not_mem_nil, or_false] at hp
    rcases hp with rfl | rfl
    · exact (by decide : ∀ b ∈ ascii "16", b ≠ 44#8 ∧ b ≠ 61#8)
    · trivial
  · exact ⟨[(ascii "A", ascii "bc"), (ascii "D", ascii "ef")], by decide, by decide, by decide,
      by decide⟩
  · exact ⟨ascii "16", by decide, .inl rfl, by decide, by decide, by decide, by decide⟩

theorem sizedField_fits : SizeFits sizedField := by
  intro parts n hp hn
  have h : fieldTags sizedField.tag = .ok [(ascii "primary", []), (ascii "size", ascii "16")] := by
    decide +kernel
  have e := fieldTags_says hp
  rw [h] at e
  simp only [Res.ok.injEq] at e
  obtain ⟨k, hk, -⟩ : ∃ k, tagSize (parts.reverse.map kv) = .ok k ∧ k = BitVec.ofNat 32 n :=
    ⟨_, (tagSize_iff parts _).2 ⟨n, hn, rfl⟩, rfl⟩
  have ht : tagSizeText parts = some (ascii "16") := by
    rw [← lookup_tagSize, ← e]; decide
  unfold SizeSaid at hn
  rw [ht] at hn
  obtain ⟨m, hm⟩ := hn
  obtain ⟨-, h2, h3, h4, -⟩ := hm
  rcases h2 with h2 | h2
  · subst h2
    have : n = 16 := by rw [h4]; decide
    omega
  · exact absurd (congrArg List.head? h2) (by simp only [List.head?_cons]; decide)

/-- The hypotheses of `C87_columns_partial` are met, and the table has the column. -/
example : (∀ fld ∈ [sizedField], SizeFits fld) ∧
    TypeMakes [sizedField] [(ascii "abc_def", ⟨.string, 16#32, false, true⟩, true)] ∧
    keyNumbers 0 [true] = [(0, false)] :=
  ⟨by simpa using sizedField_fits, .cons sizedField_makes .nil, rfl⟩

/-- C87: two field names without `_` have the same column exactly if they have the same words up to
capitals and small letters. -/
theorem C87_same_name (f g : List (Bytes × Bytes)) (hf : f ≠ []) (hg : g ≠ []) (df : Divided f)
    (dg : Divided g) (uf : ∀ b ∈ (f.map wordText).flatten, b ≠ 95#8)
    (ug : ∀ b ∈ (g.map wordText).flatten, b ≠ 95#8) :
    columnNameOf (f.map wordText).flatten = columnNameOf (g.map wordText).flatten ↔
      f.map smallWord = g.map smallWord := by
  rw [columnNameOf_words f hf df, columnNameOf_words g hg dg, Res.ok.injEq]
  exact ⟨words_same hf hg uf ug, fun h => by rw [h]⟩

/-- The hypotheses are met: `TableID` and `TableId`. -/
example : let f := [(ascii "T", ascii "able"), (ascii "ID", [])]
    let g := [(ascii "T", ascii "able"), (ascii "I", ascii "d")]
    f ≠ [] ∧ g ≠ [] ∧ Divided f ∧ Divided g ∧ (∀ b ∈ (f.map wordText).flatten, b ≠ 95#8) ∧
      (∀ b ∈ (g.map wordText).flatten, b ≠ 95#8) ∧ f.map smallWord = g.map smallWord := by decide

/-- C87 (partial): the fields of a struct have columns with different names, if the names of the
fields are in camel case, without two capitals in a row and without `_`, if no tag gives a name, and
if the names of the columns are short enough to be told apart. Missing: all other structs, see
`C87_not_distinct`. -/
theorem C87_distinct_partial (env : EngineEnv) (tid : TableId) (tn : TableName) (typ : List Field)
    (hn : (typ.map (·.name)).Nodup) (hc : ∀ fld ∈ typ, CamelCase fld.name)
    (ht : ∀ fld ∈ typ, ∀ parts, TagSays fld.tag parts → tagName parts = none)
    (hlen : ∀ fld ∈ typ, ∀ c, ColumnNamed fld.name c → c.length ≤ 128)
    (ti : TypedInfo) (hti : makeTypedInfo env tid tn typ = .ok ti) :
    ti.definition.columnNames.Nodup := by
  have key : ∀ (i : Nat) (typ : List Field) names cts key, typedFields env i typ = .ok (names, cts, key) →
      (∀ fld ∈ typ, ∀ parts, TagSays fld.tag parts → tagName parts = none) →
      All2 (fun fld id => ∃ c, ColumnNamed fld.name c ∧ id = env.ident c) typ names := by
    intro i typ
    induction typ generalizing i with
    | nil =>
      intro names cts key h _
      simp only [typedFields, Res.ok.injEq, Prod.mk.injEq] at h
      rw [← h.1]
      exact .nil
    | cons fld flds ih =>
      intro names cts key h ht
      simp only [typedFields] at h
      obtain ⟨⟨id, ct, p⟩, h1, h⟩ := res_bind_ok.1 h
      obtain ⟨⟨ns, cs, ks⟩, h2, h⟩ := res_bind_ok.1 h
      simp only [Res.ok.injEq, Prod.mk.injEq] at h
      rw [← h.1]
      refine .cons ?_ (ih _ _ _ _ h2 (fun f hf => ht f (by simp [hf])))
      unfold typedField at h1
      obtain ⟨tags, g1, h1⟩ := res_bind_ok.1 h1
      obtain ⟨col, g2, h1⟩ := res_bind_ok.1 h1
      obtain ⟨sz, g3, h1⟩ := res_bind_ok.1 h1
      obtain ⟨parts, hp⟩ := fieldTags_of g1
      rw [fieldTags_says hp] at g1
      simp only [Res.ok.injEq] at g1
      subst g1
      rw [lookup_tagName, ht fld (by simp) parts hp] at g2
      refine ⟨col, (columnNameOf_iff _ _).1 g2, ?_⟩
      split at h1
      · simp at h1
      · obtain ⟨⟨vt, out⟩, h4, h1⟩ := res_bind_ok.1 h1
        dsimp only at h1
        split at h1
        · simp at h1
        · simp only [Res.ok.injEq, Prod.mk.injEq] at h1
          exact h1.1.symm
  unfold makeTypedInfo at hti
  obtain ⟨⟨names, cts, k⟩, h1, h⟩ := res_bind_ok.1 hti
  simp only [Res.ok.injEq] at h
  subst h
  have all := key 0 typ names cts k h1 ht
  show names.Nodup
  clear h1 hti key ht
  induction all with
  | nil => exact List.nodup_nil
  | @cons fld id flds ids hx hxs ih =>
    simp only [List.map_cons, List.nodup_cons] at hn
    refine List.nodup_cons.2 ⟨?_, ih hn.2 (fun f hf => hc f (by simp [hf]))
      (fun f hf => hlen f (by simp [hf]))⟩
    intro hmem
    obtain ⟨g, hg, c', hc', e'⟩ := all2_mem_right hxs hmem
    obtain ⟨c, hcn, e⟩ := hx
    have ec : c = c' := by
      have a := env.name_ident c (hlen fld (by simp) c hcn)
      have b := env.name_ident c' (hlen g (by simp [hg]) c' hc')
      rw [← a, ← b, ← e, ← e']
    apply hn.1
    refine List.mem_map.2 ⟨g, hg, ?_⟩
    exact camel_same (hc g (by simp [hg])) (hc fld (by simp)) hc' (ec ▸ hcn)

/-- The struct of the table `tables` meets the hypotheses. -/
example : (tablesFields.map (·.name)).Nodup ∧ (∀ fld ∈ tablesFields, CamelCase fld.name) ∧
    (∀ fld ∈ tablesFields, ∀ parts, TagSays fld.tag parts → tagName parts = none) ∧
    (∀ fld ∈ tablesFields, ∀ c, ColumnNamed fld.name c → c.length ≤ 128) ∧
    ∃ ti, makeTypedInfo sampleEngine 0 ⟨0, 0, 0⟩ tablesFields = .ok ti := by
  refine ⟨by decide +kernel, ?_, ?_, ?_, ⟨infoOf (makeTypedInfo sampleEngine 0 ⟨0, 0, 0⟩ tablesFields), ?_⟩⟩
  · intro fld hf
    refine ⟨(by decide +kernel : ∀ fld ∈ tablesFields, ∀ b ∈ fld.name, b ≠ 95#8) fld hf, ?_⟩
    intro i x y h1 h2
    have hi : i < 8 := by
      have h : ∀ fld ∈ tablesFields, fld.name.length ≤ 8 := by decide +kernel
      have := h fld hf
      have := (List.getElem?_eq_some_iff.1 h1).1
      omega
    have h : ∀ fld ∈ tablesFields, ∀ i < 8, ∀ x ∈ fld.name[i]?, ∀ y ∈ fld.name[i + 1]?,
        ¬ (Capital x ∧ Capital y) := by decide +kernel
    exact h fld hf i hi x h1 y h2
  · intro fld hf parts hp
    have h : ∀ fld ∈ tablesFields, ∃ tags ∈ okOf (fieldTags fld.tag),
        tags.lookup (ascii "name") = none := by decide +kernel
    obtain ⟨tags, h1, h2⟩ := h fld hf
    rw [fieldTags_says hp] at h1
    simp only [okOf, Option.mem_def, Option.some.injEq] at h1
    rw [← lookup_tagName, h1, h2]
  · intro fld hf c hc
    have h : ∀ fld ∈ tablesFields, ∀ c ∈ okOf (columnNameOf fld.name), c.length ≤ 128 := by decide +kernel
    refine h fld hf c ?_
    rw [(columnNameOf_iff _ _).2 hc]
    rfl
  · decide +kernel

/-- A struct with two fields of type string. -/
def twoFields (a b tagA tagB : String) : List Field :=
  [⟨ascii a, ascii tagA, false, .string⟩, ⟨ascii b, ascii tagB, false, .string⟩]

/-- C87 fails: fields that differ only in capitals, fields with `_` and fields with a tag can have
columns of the same name, and the struct is accepted. -/
theorem C87_not_distinct (env : EngineEnv) (tid : TableId) (tn : TableName) :
    ∀ typ ∈ [twoFields "Abcdef" "ABCDEF" "" "", twoFields "Ab_c" "AbC" "" "",
      twoFields "Abc" "Def" "" "name=abc"],
    ∃ ti, makeTypedInfo env tid tn typ = .ok ti ∧ ¬ ti.definition.columnNames.Nodup := by
  have key : ∀ c a b tagA tagB, 
      columnNameOf (ascii a) = .ok c → fieldTags (ascii tagA) = .ok [] →
      (columnNameOf (ascii b) = .ok c ∧ fieldTags (ascii tagB) = .ok [] ∨
        fieldTags (ascii tagB) = .ok [(ascii "name", c)]) →
      ∃ ti, makeTypedInfo env tid tn (twoFields a b tagA tagB) = .ok ti ∧
        ¬ ti.definition.columnNames.Nodup := by
    intro c a b tagA tagB h1 h2 h3
    have f1 : typedField env ⟨ascii a, ascii tagA, false, .string⟩ =
        .ok (env.ident c, ⟨.string, 1#32, false, true⟩, false) := by
      unfold typedField
      rw [h2, Res.bind_ok]
      refine res_bind_ok.2 ⟨c, h1, rfl⟩
    have f2 : typedField env ⟨ascii b, ascii tagB, false, .string⟩ =
        .ok (env.ident c, ⟨.string, 1#32, false, true⟩, false) := by
      unfold typedField
      rcases h3 with ⟨h3, h4⟩ | h3
      · rw [h4, Res.bind_ok]
        exact res_bind_ok.2 ⟨c, h3, rfl⟩
      · rw [h3, Res.bind_ok]
        exact res_bind_ok.2 ⟨c, rfl, rfl⟩
    refine ⟨⟨twoFields a b tagA tagB, tid, tn, [env.ident c, env.ident c], [⟨.string, 1#32, false, true⟩,
      ⟨.string, 1#32, false, true⟩], none, [ascii a, ascii b]⟩, ?_, ?_⟩
    · unfold makeTypedInfo twoFields
      simp only [typedFields, f1, f2, Res.bind_ok]
      rfl
    · simp [TypedInfo.definition]
  intro typ ht
  simp only [List.mem_cons, List.not_mem_nil, or_false] at ht
  rcases ht with rfl | rfl | rfl
  · exact key (ascii "abcdef") _ _ _ _ (by decide) (by decide) (.inl ⟨by decide, by decide⟩)
  · exact key (ascii "ab_c") _ _ _ _ (by decide) (by decide) (.inl ⟨by decide, by decide⟩)
  · exact key (ascii "abc") _ _ _ _ (by decide) (by decide) (.inr (by decide))

/-- C87 fails: only the lower 32 bits of a size are kept. A column with the size 2^32 has size zero,
one with the size 2^32 + 5 has size 5. -/
theorem C87_size_lost (env : EngineEnv) (tid : TableId) (tn : TableName) :
    (∃ ti, makeTypedInfo env tid tn [⟨ascii "Abc", ascii "size=4294967296", false, .string⟩] = .ok ti ∧
      ti.definition.columnTypes = [⟨.string, 0#32, false, true⟩]) ∧
    ∃ ti, makeTypedInfo env tid tn [⟨ascii "Abc", ascii "size=4294967301", false, .string⟩] = .ok ti ∧
      ti.definition.columnTypes = [⟨.string, 5#32, false, true⟩] := by
  have key : ∀ tag val sz, fieldTags (ascii tag) = .ok [(ascii "size", val)] →
      tagSize [(ascii "size", val)] = .ok sz →
      ∃ ti, makeTypedInfo env tid tn [⟨ascii "Abc", ascii tag, false, .string⟩] = .ok ti ∧
        ti.definition.columnTypes = [⟨.string, sz, false, true⟩] := by
    intro tag val sz h1 h2
    have f1 : typedField env ⟨ascii "Abc", ascii tag, false, .string⟩ =
        .ok (env.ident (ascii "abc"), ⟨.string, sz, false, true⟩, false) := by
      unfold typedField
      rw [h1, Res.bind_ok]
      refine res_bind_ok.2 ⟨ascii "abc", show columnNameOf (ascii "Abc") = _ by decide, ?_⟩
      rw [h2, Res.bind_ok]
      rfl
    refine ⟨⟨[⟨ascii "Abc", ascii tag, false, .string⟩], tid, tn, [env.ident (ascii "abc")], 
      [⟨.string, sz, false, true⟩], none, [ascii "Abc"]⟩, ?_, rfl⟩
    unfold makeTypedInfo
    simp only [typedFields, f1, Res.bind_ok]
    rfl
  exact ⟨key _ (ascii "4294967296") _ (by decide +kernel) (by decide +kernel),
    key _ (ascii "4294967301") _ (by decide +kernel) (by decide +kernel)⟩

end Maho
