import Verif.Spec.Engine
import Verif.Props.Storage
/-
Lemmas on typed tables: inserting, looking up, updating and deleting rows.
-/
namespace Maho
open Spec

/-- The key of the table. -/
def TypedInfo.key (ti : TypedInfo) : List ColumnKey := ti.primary.getD []

/-- The type under which the table is stored. -/
def TypedInfo.tt (ti : TypedInfo) : TableType := ⟨1#32, ti.tn, ti.colNames, ti.colTypes, ti.key⟩

/-- The opened table. -/
def TypedInfo.table (ti : TypedInfo) : Table := ⟨ti.tid, ti.tt⟩

/-- The relation of the rows of the table. -/
def TypedInfo.rel (ti : TypedInfo) : BitVec 64 := toRelationId ti.tid 0#32

/-- The table exists in the tree and is well kept. -/
structure TypedOk (env : EngineEnv) (ti : TypedInfo) (t : Tree) : Prop where
  sorted : SortedTree t
  engine : engineTableId ≤ ti.tid
  type : getTableType env.toStoreEnv t ti.tid = .ok (some ti.tt)
  kept : Kept ti.tid ti.colTypes ti.key t

/-- The trees differ only in the rows of the table. -/
def OnlyIn (ti : TypedInfo) (t t' : Tree) : Prop :=
  ∀ rel, ti.rel ≠ rel → t'.filter (fun it => it.rel == rel) = t.filter (fun it => it.rel == rel)

theorem OnlyIn.refl (ti : TypedInfo) (t : Tree) : OnlyIn ti t t := fun _ _ => rfl

theorem OnlyIn.trans {ti : TypedInfo} {a b c : Tree} (h1 : OnlyIn ti a b) (h2 : OnlyIn ti b c) :
    OnlyIn ti a c := fun rel h => (h2 rel h).trans (h1 rel h)

theorem OnlyIn.rows {ti : TypedInfo} {t t' : Tree} (h : OnlyIn ti t t') {tid : TableId}
    (hne : ti.tid ≠ tid) : rowsOf t' tid = rowsOf t tid :=
  rowsOf_congr (h _ (fun e => hne (toRelationId_inj e).1))

theorem OnlyIn.type {env : EngineEnv} {ti : TypedInfo} {t t' : Tree} (h : OnlyIn ti t t')
    (he : engineTableId ≤ ti.tid) (hs : SortedTree t) (tid : TableId) :
    getTableType env.toStoreEnv t' tid = getTableType env.toStoreEnv t tid :=
  (getTableType_congr hs (h _ (fun e => rel_ne_types he 0#32 e.symm)).symm tid).symm

theorem TypedOk.other {env : EngineEnv} {ti tj : TypedInfo} {t t' : Tree} (h : TypedOk env tj t)
    (ho : OnlyIn ti t t') (he : engineTableId ≤ ti.tid) (hs : SortedTree t')
    (hne : ti.tid ≠ tj.tid) : TypedOk env tj t' :=
  ⟨hs, h.engine, by rw [ho.type he h.sorted, h.type],
    h.kept.congr (ho _ (fun e => hne (toRelationId_inj e).1))⟩

theorem TypedOk.openTyped {env : EngineEnv} {ti : TypedInfo} {t : Tree} (h : TypedOk env ti t) :
    openTyped env t ti = .ok ti.table :=
  openTable_ok.2 ⟨ti.tt, h.type, rfl, rfl, rfl, rfl, rfl⟩

theorem TypedOk.tableOk {env : EngineEnv} {ti : TypedInfo} {t : Tree} (h : TypedOk env ti t) :
    TableOk ti.table t := tableOk_iff.2 ⟨h.sorted, h.kept⟩

/-! ### Order of rows -/

theorem rowOrder_swap (key : List ColumnKey) (r1 r2 : Row) :
    (rowOrder (keyCols key) r1 r2).swap = rowOrder (keyCols key) r2 r1 := by
  rw [← rowKey_compare, ← rowKey_compare, bytesCompare_swap]

theorem rowOrder_both (key : List ColumnKey) (m r : Row) :
    (rowOrder (keyCols key) m r != .gt && rowOrder (keyCols key) r m != .gt) = true ↔
      rowOrder (keyCols key) m r = .eq := by
  rw [← rowOrder_swap key m r]
  cases rowOrder (keyCols key) m r <;> decide

theorem rowOrder_eq_key {key : List ColumnKey} {m r : Row} :
    rowOrder (keyCols key) m r = .eq ↔ rowKey key m = rowKey key r := by
  rw [← rowKey_compare, bytesCompare_eq_iff]

/-- The rows of a table are in ascending order of their keys. -/
theorem TypedOk.ascending {env : EngineEnv} {ti : TypedInfo} {t : Tree} (h : TypedOk env ti t) :
    (rowsOf t ti.tid).Pairwise (fun a b => rowOrder (keyCols ti.key) a b = .lt) := by
  have := C28_scan_ordered t ti.table none none none h.tableOk
  have e : scanRows t ti.table none none none = rowsOf t ti.tid := by
    simp [scanRows, atLeast, atMost, satisfies, TypedInfo.table, List.filter_eq_self]
  rw [e] at this
  exact this

theorem TypedOk.unique {env : EngineEnv} {ti : TypedInfo} {t : Tree} (h : TypedOk env ti t)
    {a b : Row} (ha : a ∈ rowsOf t ti.tid) (hb : b ∈ rowsOf t ti.tid)
    (he : rowOrder (keyCols ti.key) a b = .eq) : a = b := by
  obtain ⟨x, hx, hxr, rfl⟩ := mem_rowsOf.1 ha
  obtain ⟨y, hy, hyr, rfl⟩ := mem_rowsOf.1 hb
  have hx' := h.kept.keyed x hx hxr
  have hy' := h.kept.keyed y hy hyr
  have e1 := (rowToItem_some (rel := ti.rel) (key := ti.key) (row := x.row)
    (it := ⟨ti.rel, x.key, x.row⟩)).1 (by simp [rowToItem, hx'])
  have e2 := (rowToItem_some (rel := ti.rel) (key := ti.key) (row := y.row)
    (it := ⟨ti.rel, y.key, y.row⟩)).1 (by simp [rowToItem, hy'])
  have k1 : x.key = rowKey ti.key x.row := congrArg Item.key e1.2
  have k2 : y.key = rowKey ti.key y.row := congrArg Item.key e2.2
  have := h.sorted.unique hx hy ⟨hxr.trans hyr.symm, by rw [k1, k2, rowOrder_eq_key.1 he]⟩
  rw [this]

/-! ### Scans -/

/-- The items a scan visits. -/
def TypedInfo.scan (ti : TypedInfo) (t : Tree) (mn mx : Option Row) : List Item :=
  t.filter (fun it => it.rel == ti.rel &&
    (atLeast (keyCols ti.key) mn it.row && atMost (keyCols ti.key) mx it.row))

theorem scan_rows (ti : TypedInfo) (t : Tree) (mn mx : Option Row) :
    (ti.scan t mn mx).map (·.row) = (rowsOf t ti.tid).filter
      (fun r => atLeast (keyCols ti.key) mn r && atMost (keyCols ti.key) mx r) := by
  unfold TypedInfo.scan rowsOf TypedInfo.rel
  induction t with
  | nil => rfl
  | cons x xs ih =>
    by_cases h1 : x.rel == toRelationId ti.tid 0#32 <;>
    by_cases h2 : (atLeast (keyCols ti.key) mn x.row && atMost (keyCols ti.key) mx x.row) = true <;>
    simp [h1, h2, ih]

theorem typedSelect_eq {σ : Type} {env : EngineEnv} {ti : TypedInfo} {t : Tree}
    (h : TypedOk env ti t) {minSt maxSt : Option Struct} {mn mx : Option Row}
    (hmin : ti.boundRow minSt = .ok mn) (hmax : ti.boundRow maxSt = .ok mx)
    (cmin : ∀ m, mn = some m → HasColumns (keyCols ti.key) m)
    (cmax : ∀ m, mx = some m → HasColumns (keyCols ti.key) m)
    (fn : Table → Bytes → Row → σ × Tree → Res Unit × (σ × Tree)) (x : σ) :
    typedSelect env ti minSt maxSt fn (x, t) =
      selectLoop (fn ti.table) (ti.scan t mn mx) (x, t) := by
  obtain ⟨items, hi⟩ := collectItems_ok (t := t) (tbl := ti.table) (minRow := mn) (maxRow := mx)
    (pred := none) cmin cmax trivial (fun _ _ => trivial)
  have hs := collectItems_spec h.tableOk hi
  have ht : tableRows t ti.table none mn mx none = .ok ⟨none, items, 0⟩ :=
    tableRows_ok.2 ⟨items, hi, rfl⟩
  unfold typedSelect
  rw [h.openTyped]
  simp only [hmin, hmax, Res.bind_ok, ht]
  rw [hs]
  simp [TypedInfo.scan, satisfies, TypedInfo.table, TypedInfo.tt, TypedInfo.rel]

theorem scan_point {env : EngineEnv} {ti : TypedInfo} {t : Tree} (h : TypedOk env ti t) (m : Row) :
    (∃ it ∈ t, it.rel = ti.rel ∧ rowOrder (keyCols ti.key) m it.row = .eq ∧
      ti.scan t (some m) (some m) = [it]) ∨
    ((∀ r ∈ rowsOf t ti.tid, rowOrder (keyCols ti.key) m r ≠ .eq) ∧
      ti.scan t (some m) (some m) = []) := by
  have hmem : ∀ it, it ∈ ti.scan t (some m) (some m) ↔
      it ∈ t ∧ it.rel = ti.rel ∧ rowOrder (keyCols ti.key) m it.row = .eq := by
    intro it
    unfold TypedInfo.scan
    rw [List.mem_filter, Bool.and_eq_true, beq_iff_eq]
    rw [show (atLeast (keyCols ti.key) (some m) it.row && atMost (keyCols ti.key) (some m) it.row)
      = (rowOrder (keyCols ti.key) m it.row != .gt && rowOrder (keyCols ti.key) it.row m != .gt)
      from rfl, rowOrder_both]
  cases hsc : ti.scan t (some m) (some m) with
  | nil =>
    right
    refine ⟨?_, rfl⟩
    intro r hr he
    obtain ⟨it, hit, hrel, rfl⟩ := mem_rowsOf.1 hr
    have := (hmem it).2 ⟨hit, hrel, he⟩
    rw [hsc] at this; cases this
  | cons x xs =>
    left
    rw [hsc] at hmem
    obtain ⟨hx, hxr, hxe⟩ := (hmem x).1 List.mem_cons_self
    refine ⟨x, hx, hxr, hxe, ?_⟩
    cases xs with
    | nil => rfl
    | cons y ys =>
      exfalso
      obtain ⟨hy, hyr, hye⟩ := (hmem y).1 (by simp)
      have hs : SortedTree (ti.scan t (some m) (some m)) := h.sorted.filter _
      rw [hsc] at hs
      have hlt := (List.pairwise_cons.1 hs).1 y (by simp)
      have e1 := h.kept.keyed x hx hxr
      have e2 := h.kept.keyed y hy hyr
      have k1 : x.key = rowKey ti.key x.row := congrArg Item.key
        ((rowToItem_some (rel := ti.rel) (key := ti.key) (row := x.row)
          (it := ⟨ti.rel, x.key, x.row⟩)).1 (by simp [rowToItem, e1])).2
      have k2 : y.key = rowKey ti.key y.row := congrArg Item.key
        ((rowToItem_some (rel := ti.rel) (key := ti.key) (row := y.row)
          (it := ⟨ti.rel, y.key, y.row⟩)).1 (by simp [rowToItem, e2])).2
      exact not_samePlace_of_less hlt ⟨hxr.trans hyr.symm, by
        rw [k1, k2, ← rowOrder_eq_key.1 hxe, ← rowOrder_eq_key.1 hye]⟩

/-! ### Lookup -/

theorem boundRow_some {ti : TypedInfo} {st : Struct} {m : Row} (h : ti.structToRow st = .ok m) :
    ti.boundRow (some st) = .ok (some m) := by simp [TypedInfo.boundRow, h]

theorem typedLookup_eq {env : EngineEnv} {ti : TypedInfo} {t : Tree} (h : TypedOk env ti t)
    {st : Struct} {m : Row} (hst : ti.structToRow st = .ok m) (hm : HasColumns (keyCols ti.key) m) :
    (∃ r ∈ rowsOf t ti.tid, rowOrder (keyCols ti.key) m r = .eq ∧
      typedLookup env t ti st = ti.rowToStruct env r) ∨
    ((∀ r ∈ rowsOf t ti.tid, rowOrder (keyCols ti.key) m r ≠ .eq) ∧
      typedLookup env t ti st = .err .eof) := by
  have hb := boundRow_some hst
  have hc : ∀ m', some m = some m' → HasColumns (keyCols ti.key) m' := by
    intro m' e; cases e; exact hm
  have hsel := typedSelect_eq h hb hb hc hc (fun _ _ row s => lookupRow env ti row s)
    (none : Option Struct)
  rcases scan_point h m with ⟨it, hit, hrel, he, hs⟩ | ⟨hn, hs⟩
  · left
    refine ⟨it.row, mem_rowsOf.2 ⟨it, hit, hrel, rfl⟩, he, ?_⟩
    unfold typedLookup
    rw [hsel, hs]
    simp only [selectLoop, lookupRow]
    cases hr : ti.rowToStruct env it.row with
    | ok st' => simp
    | panic => simp
    | err e =>
      exfalso
      have : ∀ (flds : List Field) (cts : List ColumnType) (row : Row),
          rowToFields env flds cts row ≠ .err e := by
        intro flds cts
        induction cts generalizing flds with
        | nil => intro row; cases flds <;> simp [rowToFields]
        | cons ct cts ih =>
          intro row
          cases flds with
          | nil => simp [rowToFields]
          | cons f flds =>
            cases row with
            | nil => simp [rowToFields]
            | cons v row =>
              have hv : valueToField env f ct v ≠ .err e := by
                have hp : ∀ val, setPlain env f.kind ct val ≠ .err e := by
                  intro val
                  unfold setPlain setFloat setInt
                  split <;> (try split) <;> simp
                have hq : ∀ val, setPointer f.kind ct val ≠ .err e := by
                  intro val
                  unfold setPointer
                  split <;> (try split) <;> simp
                unfold valueToField
                split
                · simp
                split
                · simp
                · split
                  · split <;> (try split) <;> simp
                  · split
                    · have := hp v
                      cases hh : setPlain env f.kind ct v <;> simp_all
                    · have := hq v
                      cases hh : setPointer f.kind ct v <;> simp_all
              simp only [rowToFields]
              cases hf : valueToField env f ct v with
              | panic => simp
              | err e' => intro hx; simp at hx; exact hv (by rw [hf, hx])
              | ok fv =>
                have := ih flds row
                cases hr2 : rowToFields env flds cts row <;> simp_all
      unfold TypedInfo.rowToStruct at hr
      have h3 := this ti.typ ti.colTypes it.row
      cases hq : rowToFields env ti.typ ti.colTypes it.row <;> simp_all
  · right
    refine ⟨hn, ?_⟩
    unfold typedLookup
    rw [hsel, hs]
    simp [selectLoop]

/-! ### Insert -/

theorem typedInsert_eq {env : EngineEnv} {ti : TypedInfo} {t : Tree} (h : TypedOk env ti t)
    {structs : List Struct} {rows : List Row} (hr : ti.structsToRows structs = .ok rows) :
    typedInsert env t ti structs = insertRows env.toStoreEnv t ti.table rows := by
  unfold typedInsert
  rw [h.openTyped]
  simp only [hr]

theorem typedInsert_ok {env : EngineEnv} {ti : TypedInfo} {t t' : Tree} (h : TypedOk env ti t)
    {structs : List Struct} {r : Res Unit}
    (hi : typedInsert env t ti structs = (r, t')) :
    TypedOk env ti t' ∧ OnlyIn ti t t' := by
  have : t' = t ∨ ∃ rows, t' = (insertRows env.toStoreEnv t ti.table rows).2 := by
    unfold typedInsert at hi
    rw [h.openTyped] at hi
    simp only at hi
    split at hi
    · simp at hi; exact .inl hi.2.symm
    · simp at hi; exact .inl hi.2.symm
    · next rows _ => exact .inr ⟨rows, by rw [hi]⟩
  rcases this with rfl | ⟨rows, rfl⟩
  · exact ⟨h, OnlyIn.refl _ _⟩
  · have hs := insertRows_sorted (env := env.toStoreEnv) (tbl := ti.table) h.sorted rows
    have ho : OnlyIn ti t (insertRows env.toStoreEnv t ti.table rows).2 :=
      fun rel hrel => insertRows_other h.sorted rows hrel
    exact ⟨⟨hs, h.engine, by rw [ho.type h.engine h.sorted, h.type],
      insertRows_kept h.kept (fun _ => ⟨rfl, rfl⟩) rows⟩, ho⟩

/-- Inserting rows that fit. -/
theorem typedInsert_rows {env : EngineEnv} {ti : TypedInfo} {t : Tree} (h : TypedOk env ti t)
    {structs : List Struct} {rows : List Row} (hr : ti.structsToRows structs = .ok rows)
    (hfit : ∀ r ∈ rows, FitsRow ti.colTypes r) (hcol : ∀ r ∈ rows, HasColumns (keyCols ti.key) r)
    (hnew : NewKeys (keyCols ti.key) rows (rowsOf t ti.tid)) :
    ∃ t', typedInsert env t ti structs = (.ok (), t') ∧ TypedOk env ti t' ∧ OnlyIn ti t t' ∧
      (rowsOf t' ti.tid).Perm (rowsOf t ti.tid ++ rows) := by
  have hall : All2 (fun r c => convertRow env.float ti.colTypes r = .ok c) rows rows := by
    clear hr hnew hcol
    induction rows with
    | nil => exact .nil
    | cons r rows ih =>
      exact .cons (C22_row_keeps_valid _ _ _ (hfit r (by simp)))
        (ih (fun x hx => hfit x (List.mem_cons_of_mem _ hx)))
  have hi := insertRows_ok (env := env.toStoreEnv) (tbl := ti.table) rows h.sorted h.kept
  have hok := hi.1.2 ⟨rows, hall, hcol, hnew⟩
  have heq := typedInsert_eq h hr
  have hpair : typedInsert env t ti structs =
      (.ok (), (insertRows env.toStoreEnv t ti.table rows).2) := by
    rw [heq, ← hok]
  obtain ⟨h1, h2⟩ := typedInsert_ok h hpair
  exact ⟨_, hpair, h1, h2, hi.2 rows hok hall⟩

/-- Inserting one row that fits: refused exactly if there is a row with the same key. -/
theorem typedInsert_one {env : EngineEnv} {ti : TypedInfo} {t : Tree} (h : TypedOk env ti t)
    {st : Struct} {m : Row} (hst : ti.structToRow st = .ok m)
    (hfit : FitsRow ti.colTypes m) (hcol : HasColumns (keyCols ti.key) m) :
    ((∃ r ∈ rowsOf t ti.tid, rowOrder (keyCols ti.key) m r = .eq) ∧
      typedInsert env t ti [st] = (.err .other, t)) ∨
    ((∀ r ∈ rowsOf t ti.tid, rowOrder (keyCols ti.key) m r ≠ .eq) ∧
      ∃ t', typedInsert env t ti [st] = (.ok (), t') ∧ TypedOk env ti t' ∧ OnlyIn ti t t' ∧
        ∀ r, r ∈ rowsOf t' ti.tid ↔ r = m ∨ r ∈ rowsOf t ti.tid) := by
  have hr : ti.structsToRows [st] = .ok [m] := by simp [TypedInfo.structsToRows, hst]
  by_cases hex : ∃ r ∈ rowsOf t ti.tid, rowOrder (keyCols ti.key) m r = .eq
  · left
    refine ⟨hex, ?_⟩
    rw [typedInsert_eq h hr, insertRows_cons]
    have : insertOne env.toStoreEnv t ti.table m = .err .other := by
      unfold insertOne
      have hc : convertRow env.float ti.table.tt.columnTypes m = .ok m :=
        C22_row_keeps_valid _ _ _ hfit
      have hit : rowToItem (toRelationId ti.table.tid primaryIndexId) ti.table.tt.key (some m) =
          .ok (ti.table.item m) := rowToItem_some.2 ⟨hcol, rfl⟩
      rw [hc]
      simp only [Res.bind_ok]
      rw [hit]
      simp only [Res.bind_ok]
      rw [if_pos ((has_iff_rowOrder (tbl := ti.table) h.kept).2 hex)]
    rw [this]
  · right
    have hn : ∀ r ∈ rowsOf t ti.tid, rowOrder (keyCols ti.key) m r ≠ .eq :=
      fun r hr he => hex ⟨r, hr, he⟩
    refine ⟨hn, ?_⟩
    obtain ⟨t', h1, h2, h3, h4⟩ := typedInsert_rows h hr
      (by simpa using hfit) (by simpa using hcol) ⟨by simp, by simpa using hn⟩
    refine ⟨t', h1, h2, h3, fun r => ?_⟩
    rw [h4.mem_iff]; simp [or_comm]

/-! ### Delete -/

theorem typedDelete_point {env : EngineEnv} {ti : TypedInfo} {t : Tree} (h : TypedOk env ti t)
    {st : Struct} {m : Row} (hst : ti.structToRow st = .ok m) (hm : HasColumns (keyCols ti.key) m) :
    ((∀ r ∈ rowsOf t ti.tid, rowOrder (keyCols ti.key) m r ≠ .eq) ∧
      typedDelete env ti (some st) (some st) dropRow (false, t) = (.ok (), (false, t))) ∨
    (∃ r0 ∈ rowsOf t ti.tid, rowOrder (keyCols ti.key) m r0 = .eq ∧
      ∃ t', typedDelete env ti (some st) (some st) dropRow (false, t) = (.ok (), (true, t')) ∧
        TypedOk env ti t' ∧ OnlyIn ti t t' ∧
        ∀ r, r ∈ rowsOf t' ti.tid ↔ r ∈ rowsOf t ti.tid ∧ rowOrder (keyCols ti.key) m r ≠ .eq) := by
  have hb := boundRow_some hst
  have hc : ∀ m', some m = some m' → HasColumns (keyCols ti.key) m' := by
    intro m' e; cases e; exact hm
  have hsel := typedSelect_eq h hb hb hc hc (deleteCurrent dropRow) false
  rcases scan_point h m with ⟨it, hit, hrel, he, hs⟩ | ⟨hn, hs⟩
  · right
    refine ⟨it.row, mem_rowsOf.2 ⟨it, hit, hrel, rfl⟩, he, ?_⟩
    obtain ⟨t', hd⟩ := deleteRow_of_mem (tbl := ti.table) h.sorted hit hrel
    obtain ⟨hs', it', hit', hrel', hkey', hperm, hdel⟩ := deleteRow_ok h.sorted hd
    have : it' = it := h.sorted.unique hit' hit ⟨hrel'.trans hrel.symm, hkey'⟩
    subst this
    have ho : OnlyIn ti t t' := fun rel hne => deleteRow_other h.sorted hd hne
    have hok : TypedOk env ti t' := ⟨hs', h.engine, by rw [ho.type h.engine h.sorted, h.type],
      h.kept.delete hdel⟩
    refine ⟨t', ?_, hok, ho, ?_⟩
    · unfold typedDelete
      rw [hsel, hs]
      simp [selectLoop, deleteCurrent, dropRow, hd]
    · intro r
      have hp := rowsOf_perm hperm ti.tid
      rw [rowsOf_cons_same (tid := ti.tid) hrel'] at hp
      have hnd : (rowsOf t ti.tid).Nodup := by
        refine h.ascending.imp ?_
        intro a b hab e
        subst e
        rw [← rowKey_compare] at hab
        exact bytesCompare_lt_irrefl _ hab
      have hnd' := hp.nodup_iff.1 hnd
      rw [List.nodup_cons] at hnd'
      constructor
      · intro hr
        have hr1 : r ∈ rowsOf t ti.tid := hp.mem_iff.2 (List.mem_cons_of_mem _ hr)
        refine ⟨hr1, fun hre => ?_⟩
        have : it'.row = r := h.unique (mem_rowsOf.2 ⟨it', hit', hrel', rfl⟩) hr1 (by
          rw [rowOrder_eq_key] at *; rw [← he, hre])
        subst this
        exact hnd'.1 hr
      · rintro ⟨hr, hne⟩
        rcases List.mem_cons.1 (hp.mem_iff.1 hr) with rfl | hr'
        · exact absurd he hne
        · exact hr'
  · left
    refine ⟨hn, ?_⟩
    unfold typedDelete
    rw [hsel, hs]
    simp [selectLoop]

end Maho
