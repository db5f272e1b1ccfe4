import Verif.Lemmas.TableTypes
import Verif.Lemmas.Codec
import Verif.Props.Value
import Verif.Props.Ident
/-
Properties C28, C30-C34, C41-C43: the operations on the tables of one transaction. That the
condition `TableOk` holds in every reachable state is C35 in Props/World.lean.
-/
namespace Maho
open Spec

/-! ### Sample data -/

/-- An instance of the parameters of the storage model. -/
def sampleStore : StoreEnv := storeEnv sampleEnv id

/-- The definition (a INT PRIMARY KEY, b VARCHAR(3)) of a table. -/
def sampleType : TableType :=
  ⟨1#32, ⟨600, 601, 602⟩, [603, 604],
    [⟨.int64, 8#32, false, true⟩, ⟨.string, 3#32, false, false⟩], [makeColumnKey 0#32 false]⟩

def sampleTable : Table := ⟨512#32, sampleType⟩

/-- A row (i, s) of the table. -/
def sampleRow (i : Nat) (s : String) : Row :=
  [some (.int (BitVec.ofNat 64 i)), some (.str (ascii s))]

/-- The store after creating the table and inserting rows. -/
def sampleTree (rows : List Row) : Tree :=
  match createTable sampleStore [] 512#32 sampleType.name sampleType.columnNames
      sampleType.columnTypes (some sampleType.key) with
  | .ok t => (insertRows sampleStore t sampleTable rows).2
  | _ => []

/-- Some rows are in the store. -/
theorem sampleTree_rows : rowsOf (sampleTree [sampleRow 3 "c", sampleRow 1 "a", sampleRow 2 "b"]) 512#32 =
    [sampleRow 1 "a", sampleRow 2 "b", sampleRow 3 "c"] := by decide +kernel

theorem sampleTree_ok : TableOk sampleTable
    (sampleTree [sampleRow 3 "c", sampleRow 1 "a", sampleRow 2 "b"]) := by
  have hs : SortedTree ([] : Tree) := sortedTree_nil
  obtain ⟨t, ht⟩ : ∃ t, createTable sampleStore [] 512#32 sampleType.name sampleType.columnNames
      sampleType.columnTypes (some sampleType.key) = .ok t := ⟨_, rfl⟩
  have he : sampleTree [sampleRow 3 "c", sampleRow 1 "a", sampleRow 2 "b"] =
      (insertRows sampleStore t sampleTable [sampleRow 3 "c", sampleRow 1 "a", sampleRow 2 "b"]).2 := by
    unfold sampleTree; rw [ht]
  rw [he, tableOk_iff]
  obtain ⟨_, _, _, _, _, _, _, e⟩ := createTable_ok.1 ht
  have hst : SortedTree t := by rw [e]; exact Tree.sorted_put hs _
  refine ⟨insertRows_sorted hst _, insertRows_kept ?_ (fun _ => ⟨rfl, rfl⟩) _⟩
  have hempty : Kept sampleTable.tid sampleTable.tt.columnTypes sampleTable.tt.key ([] : Tree) :=
    ⟨(fun _ h => nomatch h), (fun _ h => nomatch h)⟩
  exact hempty.congr (createTable_other hs ht (rel_ne_types (by decide) _))

/-! ### C28: scans -/

/-- The results of calling `Next` n times. -/
def callNext : Nat → RowsObj → List (Res Row) × RowsObj
  | 0, rs => ([], rs)
  | n + 1, rs =>
    let (r, rs) := rs.nextRow
    let (l, rs) := callNext n rs
    (r :: l, rs)

theorem callNext_length (n : Nat) : ∀ rs, (callNext n rs).1.length = n := by
  induction n with
  | zero => intro rs; rfl
  | succ n ih => intro rs; simp only [callNext, List.length_cons]; rw [ih]

theorem callNext_get (n : Nat) : ∀ (k : Nat) (rs : RowsObj), rs.next = k →
    (∀ i, i < n → (callNext n rs).1[i]? = some
      (match rs.items[k + i]? with | none => .err .eof | some it => projectRow rs.cols it.row)) ∧
    (callNext n rs).2 = { rs with next := (min (k + n) (max k rs.items.length) : Nat) } := by
  induction n with
  | zero =>
    intro k rs h
    refine ⟨by intro i hi; omega, ?_⟩
    simp only [callNext]
    rw [show min (k + 0) (max k rs.items.length) = k by omega, ← h]
  | succ n ih =>
    intro k rs h
    have h0 : ¬ rs.next < 0 := by omega
    have h1 : rs.next.toNat = k := by omega
    cases hit : rs.items[k]? with
    | none =>
      have hstep : rs.nextRow = (.err .eof, rs) := by
        unfold RowsObj.nextRow; rw [if_neg h0, h1, hit]
      obtain ⟨ih1, ih2⟩ := ih k rs h
      have hlen := List.getElem?_eq_none_iff.1 hit
      refine ⟨?_, ?_⟩
      · intro i hi
        simp only [callNext, hstep]
        cases i with
        | zero => simp [hit]
        | succ i =>
          rw [List.getElem?_cons_succ, ih1 i (by omega)]
          rw [List.getElem?_eq_none (by omega), List.getElem?_eq_none (by omega)]
      · simp only [callNext, hstep]
        rw [ih2, show min (k + n) (max k rs.items.length) = min (k + (n + 1)) (max k rs.items.length) by omega]
    | some it =>
      have hstep : rs.nextRow = (projectRow rs.cols it.row, { rs with next := rs.next + 1 }) := by
        unfold RowsObj.nextRow; rw [if_neg h0, h1, hit]
      obtain ⟨ih1, ih2⟩ := ih (k + 1) { rs with next := rs.next + 1 } (by simp only; omega)
      have hlen := (List.getElem?_eq_some_iff.1 hit).1
      refine ⟨?_, ?_⟩
      · intro i hi
        simp only [callNext, hstep]
        cases i with
        | zero => simp [hit]
        | succ i =>
          rw [List.getElem?_cons_succ, ih1 i (by omega)]
          simp only
          rw [show k + 1 + i = k + (i + 1) by omega]
      · simp only [callNext, hstep]
        rw [ih2]
        simp only
        rw [show min (k + 1 + n) (max (k + 1) rs.items.length) = min (k + (n + 1)) (max k rs.items.length) by omega]

theorem projectRow_ok {cols : Option (List ColumnNum)} {row : Row}
    (h : ∀ l, cols = some l → ∀ c ∈ l, c.toNat < row.length) :
    projectRow cols row = .ok (columnsOf cols row) := by
  cases cols with
  | none => rfl
  | some l =>
    replace h := h l rfl
    simp only [projectRow, columnsOf]
    induction l with
    | nil => rfl
    | cons c l ih =>
      have hc := h c (List.mem_cons_self ..)
      rw [List.foldr_cons, List.getElem?_eq_getElem hc]
      simp only
      rw [ih (fun x hx => h x (List.mem_cons_of_mem _ hx))]
      simp [List.getD_eq_getElem?_getD, List.getElem?_eq_getElem hc]

theorem tableRows_ok {t : Tree} {tbl : Table} {cols : Option (List ColumnNum)}
    {minRow maxRow : Option Row} {pred : Option Predicate} {rs : RowsObj} :
    tableRows t tbl cols minRow maxRow pred = .ok rs ↔
      ∃ items, collectItems t tbl minRow maxRow pred = .ok items ∧ rs = ⟨cols, items, 0⟩ := by
  unfold tableRows
  rw [Res.bind_eq_ok]
  constructor
  · rintro ⟨items, h1, h2⟩; cases h2; exact ⟨items, h1, rfl⟩
  · rintro ⟨items, h1, rfl⟩; exact ⟨items, h1, rfl⟩

theorem collectItems_rows {t : Tree} {tbl : Table} {minRow maxRow : Option Row}
    {pred : Option Predicate} {items : List Item} (hok : TableOk tbl t)
    (h : collectItems t tbl minRow maxRow pred = .ok items) :
    items.map (·.row) = scanRows t tbl minRow maxRow pred := by
  rw [collectItems_spec hok h]
  unfold scanRows rowsOf
  rw [List.filter_map, List.filter_filter]
  congr 1
  apply List.filter_congr
  intro x hx
  simp only [Function.comp]
  rw [Bool.and_comm]

/-- C28: the i-th call of `Next` returns the i-th row that the scan should return, restricted to
the columns, and io.EOF after the last one. -/
theorem C28_scan_exact (t : Tree) (tbl : Table) (cols : Option (List ColumnNum))
    (minRow maxRow : Option Row) (pred : Option Predicate) (rs : RowsObj) (hok : TableOk tbl t)
    (hcols : ∀ l, cols = some l → ∀ c ∈ l, c.toNat < tbl.tt.columnTypes.length)
    (h : tableRows t tbl cols minRow maxRow pred = .ok rs) (n i : Nat) (hi : i < n) :
    (callNext n rs).1[i]? = some
      (match (scanRows t tbl minRow maxRow pred)[i]? with
       | some r => .ok (columnsOf cols r)
       | none => .err .eof) := by
  obtain ⟨items, hc, rfl⟩ := tableRows_ok.1 h
  rw [(callNext_get n 0 ⟨cols, items, 0⟩ rfl).1 i hi]
  simp only [Nat.zero_add]
  rw [← collectItems_rows hok hc, List.getElem?_map]
  cases hit : items[i]? with
  | none => rfl
  | some it =>
    simp only [Option.map_some]
    have hm : it ∈ items := List.mem_of_getElem? hit
    rw [collectItems_spec hok hc, List.mem_filter] at hm
    have hrel : it.rel = toRelationId tbl.tid 0#32 := by
      have := hm.2
      simp only [Bool.and_eq_true, beq_iff_eq] at this
      exact this.1
    rw [projectRow_ok]
    intro l hl c hcl
    rw [hok.width it hm.1 hrel]
    exact hcols l hl c hcl

/-- C28: the rows of a scan come in strictly increasing key order, so each comes once. -/
theorem C28_scan_ordered (t : Tree) (tbl : Table) (minRow maxRow : Option Row)
    (pred : Option Predicate) (hok : TableOk tbl t) :
    (scanRows t tbl minRow maxRow pred).Pairwise
      (fun a b => rowOrder (keyCols tbl.tt.key) a b = .lt) := by
  unfold scanRows
  apply List.Pairwise.filter
  unfold rowsOf
  rw [List.pairwise_map]
  have h1 := hok.sorted.filter (fun it => it.rel == toRelationId tbl.tid 0#32)
  apply List.Pairwise.imp_of_mem _ h1
  intro a b ha hb hab
  obtain ⟨ha1, ha2⟩ := List.mem_filter.1 ha
  obtain ⟨hb1, hb2⟩ := List.mem_filter.1 hb
  have ha2 : a.rel = toRelationId tbl.tid 0#32 := by simpa using ha2
  have hb2 : b.rel = toRelationId tbl.tid 0#32 := by simpa using hb2
  rcases hab with h | ⟨_, h⟩
  · rw [ha2, hb2] at h; omega
  · have ka := (makeKey_ok_iff.1 (hok.keyed a ha1 ha2)).2
    have kb := (makeKey_ok_iff.1 (hok.keyed b hb1 hb2)).2
    rw [← rowKey_compare, ← ka, ← kb]
    exact h

/-- C28: `Rows` never returns an error, and it panics only for bounds without the key columns, a
predicate that does not fit the table, or a row whose value the predicate cannot test. -/
theorem C28_scan_succeeds (t : Tree) (tbl : Table) (cols : Option (List ColumnNum))
    (minRow maxRow : Option Row) (pred : Option Predicate)
    (hmin : ∀ m, minRow = some m → HasColumns (keyCols tbl.tt.key) m)
    (hmax : ∀ m, maxRow = some m → HasColumns (keyCols tbl.tt.key) m)
    (hpred : FitsTable tbl.tt pred)
    (hrows : ∀ r ∈ rowsOf t tbl.tid, Testable tbl.tt r pred) :
    ∃ rs, tableRows t tbl cols minRow maxRow pred = .ok rs := by
  obtain ⟨items, h⟩ := collectItems_ok hmin hmax hpred hrows
  exact ⟨_, tableRows_ok.2 ⟨items, h, rfl⟩⟩

theorem C28_scan_no_error (t : Tree) (tbl : Table) (cols : Option (List ColumnNum))
    (minRow maxRow : Option Row) (pred : Option Predicate) (e : Err) :
    tableRows t tbl cols minRow maxRow pred ≠ .err e := by
  unfold tableRows
  cases h : collectItems t tbl minRow maxRow pred with
  | ok items => simp
  | err e' => exact absurd h collectItems_no_err
  | panic => simp

/-- A scan with bounds, a predicate and columns. -/
example :
    let t := sampleTree [sampleRow 3 "c", sampleRow 1 "a", sampleRow 2 "b"]
    scanRows t sampleTable (some (sampleRow 2 "")) none
      (some { column := 1#32, str := some (fun s => s != ascii "c") }) = [sampleRow 2 "b"] := by
  decide +kernel

example : ∃ rs, tableRows (sampleTree [sampleRow 3 "c", sampleRow 1 "a", sampleRow 2 "b"])
    sampleTable (some [1#32]) (some (sampleRow 2 "")) none none = .ok rs ∧
    (callNext 3 rs).1 = [.ok [some (.str (ascii "b"))], .ok [some (.str (ascii "c"))], .err .eof] :=
  ⟨_, rfl, by decide +kernel⟩

/-! ### C30: insert -/

/-- C30: `Insert` succeeds exactly if every row converts, has the key columns, and no two rows,
new or old, have the same key. -/
theorem C30_insert_succeeds_iff (env : StoreEnv) (t : Tree) (tbl : Table) (rows : List Row)
    (hok : TableOk tbl t) :
    (insertRows env t tbl rows).1 = .ok () ↔
      ∃ conv, All2 (fun r c => convertRow env.float tbl.tt.columnTypes r = .ok c) rows conv ∧
        (∀ c ∈ conv, HasColumns (keyCols tbl.tt.key) c) ∧
        NewKeys (keyCols tbl.tt.key) conv (rowsOf t tbl.tid) := by
  obtain ⟨hs, hk⟩ := tableOk_iff.1 hok
  exact (insertRows_ok rows hs hk).1

/-- C30: after a successful `Insert` the table contains its old rows and the converted new rows. -/
theorem C30_insert_adds (env : StoreEnv) (t : Tree) (tbl : Table) (rows conv : List Row)
    (hok : TableOk tbl t)
    (h : (insertRows env t tbl rows).1 = .ok ())
    (hconv : All2 (fun r c => convertRow env.float tbl.tt.columnTypes r = .ok c) rows conv) :
    (rowsOf (insertRows env t tbl rows).2 tbl.tid).Perm (rowsOf t tbl.tid ++ conv) := by
  obtain ⟨hs, hk⟩ := tableOk_iff.1 hok
  exact (insertRows_ok rows hs hk).2 conv h hconv

/-- C30: `Insert` does not panic on a table whose column types are valid and whose key columns
exist. -/
theorem C30_insert_never_panics (env : StoreEnv) (t : Tree) (tbl : Table) (rows : List Row)
    (hct : ∀ ct ∈ tbl.tt.columnTypes, ValidType ct.type) (hkey : KeyColumnsExist tbl.tt) :
    (insertRows env t tbl rows).1 ≠ .panic := by
  induction rows generalizing t with
  | nil => simp [insertRows]
  | cons row rows ih =>
    rw [insertRows_cons]
    cases ho : insertOne env t tbl row with
    | ok t' => exact ih t'
    | err e => simp
    | panic =>
      exfalso
      unfold insertOne at ho
      cases hc : convertRow env.float tbl.tt.columnTypes row with
      | panic => exact C22_row_never_panics env.float _ row hct hc
      | err e => rw [hc] at ho; simp at ho
      | ok c =>
        rw [hc] at ho
        simp only [Res.bind_ok] at ho
        have hcols : HasColumns (keyCols tbl.tt.key) c := by
          intro kc hkc
          rw [(convertRow_ok.1 hc).2.1]
          exact hkey kc hkc
        rw [rowToItem_some.2 ⟨hcols, rfl⟩] at ho
        simp only [Res.bind_ok] at ho
        split at ho <;> cases ho

/-- C30: whatever the outcome, no stored row of any table is lost or changed. -/
theorem C30_insert_keeps_rows (env : StoreEnv) (t : Tree) (tbl : Table) (rows : List Row) (it : Item)
    (hsorted : Ascending t) (hit : it ∈ t) : it ∈ (insertRows env t tbl rows).2 := by
  have := insertRows_induct (env := env) (tbl := tbl) (fun t' => SortedTree t' ∧ it ∈ t') rows t
    ⟨ascending_iff.1 hsorted, hit⟩ (by
      rintro t' c ⟨h1, h2⟩ _ _ hh
      refine ⟨Tree.sorted_put h1 _, (Tree.mem_put h1).2 (.inr ⟨h2, ?_⟩)⟩
      intro hp
      have := Tree.has_iff.2 ⟨it, h2, hp⟩
      rw [hh] at this; cases this)
  exact this.2

example : (insertRows sampleStore (sampleTree [sampleRow 1 "a"]) sampleTable
    [[some (.str (ascii " 2")), none]]).1 = .ok () ∧
    rowsOf (insertRows sampleStore (sampleTree [sampleRow 1 "a"]) sampleTable
      [[some (.str (ascii " 2")), none]]).2 512#32 =
      [sampleRow 1 "a", [some (.int 2#64), none]] := by decide +kernel

example : (insertRows sampleStore (sampleTree [sampleRow 1 "a"]) sampleTable
    [sampleRow 1 "b"]).1 = .err .other := by decide +kernel

/-! ### C31: failed insert -/

/-- C31 does not hold: the rows before the failing one stay. -/
theorem C31_insert_not_atomic :
    ¬ ∀ (env : StoreEnv) (t : Tree) (tbl : Table) (rows : List Row) (e : Err), TableOk tbl t →
      (insertRows env t tbl rows).1 = .err e → (insertRows env t tbl rows).2 = t := by
  intro h
  have := h sampleStore (sampleTree [sampleRow 3 "c", sampleRow 1 "a", sampleRow 2 "b"]) sampleTable
    [sampleRow 4 "d", sampleRow 1 "a"] .other sampleTree_ok (by decide +kernel)
  revert this
  decide +kernel

/-- C31 (partial): a failed insert of one row changes nothing. Missing: several rows. -/
theorem C31_single_insert_atomic_partial (env : StoreEnv) (t : Tree) (tbl : Table) (row : Row)
    (h : (insertRows env t tbl [row]).1 ≠ .ok ()) : (insertRows env t tbl [row]).2 = t := by
  rw [insertRows_cons] at h ⊢
  cases ho : insertOne env t tbl row with
  | ok t' => rw [ho] at h; exact absurd rfl h
  | err e => rfl
  | panic => rfl

/-- C31: exactly the rows before the first row that fails are inserted. -/
theorem C31_failed_insert_is_prefix (env : StoreEnv) (t : Tree) (tbl : Table) (rows : List Row)
    (h : (insertRows env t tbl rows).1 ≠ .ok ()) :
    ∃ pre row post, rows = pre ++ row :: post ∧ (insertRows env t tbl pre).1 = .ok () ∧
      (insertRows env t tbl rows).2 = (insertRows env t tbl pre).2 ∧
      insertRows env (insertRows env t tbl pre).2 tbl [row] =
        ((insertRows env t tbl rows).1, (insertRows env t tbl pre).2) :=
  insertRows_fail rows h

/-! ### C32: update and delete -/

/-- C32: after the i-th `Next` returned a row, `Current` refers to that row. -/
theorem C32_current (t : Tree) (tbl : Table) (cols : Option (List ColumnNum))
    (minRow maxRow : Option Row) (pred : Option Predicate) (rs : RowsObj) (hok : TableOk tbl t)
    (h : tableRows t tbl cols minRow maxRow pred = .ok rs) (i : Nat) (r : Row)
    (hr : (scanRows t tbl minRow maxRow pred)[i]? = some r) :
    ∃ it ∈ t, it.rel = toRelationId tbl.tid 0#32 ∧ it.row = r ∧
      (callNext (i + 1) rs).2.current = .ok it.key := by
  obtain ⟨items, hc, rfl⟩ := tableRows_ok.1 h
  rw [← collectItems_rows hok hc, List.getElem?_map, Option.map_eq_some_iff] at hr
  obtain ⟨it, hit, rfl⟩ := hr
  have hm : it ∈ items := List.mem_of_getElem? hit
  rw [collectItems_spec hok hc, List.mem_filter] at hm
  have hrel : it.rel = toRelationId tbl.tid 0#32 := by
    have := hm.2
    simp only [Bool.and_eq_true, beq_iff_eq] at this
    exact this.1
  refine ⟨it, hm.1, hrel, rfl, ?_⟩
  rw [(callNext_get (i + 1) 0 ⟨cols, items, 0⟩ rfl).2]
  have hlt := (List.getElem?_eq_some_iff.1 hit).1
  unfold RowsObj.current
  simp only
  rw [if_neg (by omega)]
  rw [show ((min (0 + (i + 1)) (max 0 items.length) : Nat) - 1 : Int).toNat = i by omega, hit]

/-- C32: `Delete` removes the referenced row and nothing else from the whole store. -/
theorem C32_delete (t : Tree) (tbl : Table) (it : Item) (hok : TableOk tbl t) (hit : it ∈ t)
    (hrel : it.rel = toRelationId tbl.tid 0#32) :
    ∃ t', deleteRow t tbl it.key = .ok t' ∧ t.Perm (it :: t') ∧ TableOk tbl t' := by
  obtain ⟨hs, hk⟩ := tableOk_iff.1 hok
  obtain ⟨t', h⟩ := deleteRow_of_mem hs hit hrel
  obtain ⟨hs', it', hit', h1, h2, hp, hd⟩ := deleteRow_ok hs h
  have : it' = it := hs.unique hit' hit ⟨h1.trans hrel.symm, h2⟩
  subst this
  exact ⟨t', h, hp, tableOk_iff.2 ⟨hs', hk.delete hd⟩⟩

/-- C32: `Update` of columns outside the key succeeds; it replaces the given columns of the
referenced row and changes nothing else in the whole store. -/
theorem C32_update_in_place (env : StoreEnv) (t : Tree) (tbl : Table) (it : Item)
    (cols : List ColumnNum) (vals : List (Option Value)) (hok : TableOk tbl t) (hit : it ∈ t)
    (hrel : it.rel = toRelationId tbl.tid 0#32)
    (hlen : cols.length = vals.length) (hcols : ∀ c ∈ cols, c.toNat < tbl.tt.columnTypes.length)
    (hkey : columnKeyUpdated tbl.tt.key cols = false) :
    (updateRow env t tbl it.key cols vals).1 = .ok () ∧
    ∃ rest : Tree, t.Perm (it :: rest) ∧ (updateRow env t tbl it.key cols vals).2.Perm
      (⟨it.rel, it.key, replaceColumns it.row cols vals⟩ :: rest) := by
  obtain ⟨hs, hk⟩ := tableOk_iff.1 hok
  have hkey1 := hok.keyed it hit hrel
  obtain ⟨hc1, hc2⟩ := makeKey_ok_iff.1 hkey1
  rcases updateRow_cases (env := env) (tbl := tbl) (key := it.key) (cols := cols) (vals := vals) hs with
    e | ⟨it', hit', hrel', hk', _, _, ⟨hku, _⟩ | ⟨_, hc, e⟩⟩
  · exfalso
    have hu : updatedRow t tbl it.key cols vals = .ok (replaceColumns it.row cols vals) :=
      (updatedRow_ok hs).2 ⟨hlen, it, hit, hrel, rfl,
        (by rw [hok.width it hit hrel]; exact hcols), rfl⟩
    have hcol : HasColumns (keyCols tbl.tt.key) (replaceColumns it.row cols vals) := by
      intro kc hkc
      rw [replaceColumns_length]
      exact hc1 kc hkc
    unfold updateRow storeUpdated at e
    rw [hu] at e
    simp only [hkey, Bool.false_eq_true, if_false, rowToItem_some.2 ⟨hcol, rfl⟩] at e
    cases e
  · rw [hkey] at hku; cases hku
  · have : it' = it := hs.unique hit' hit ⟨hrel'.trans hrel.symm, hk'⟩
    subst this
    rw [e]
    refine ⟨rfl, ?_⟩
    have hitem : tbl.item (replaceColumns it'.row cols vals) =
        ⟨it'.rel, it'.key, replaceColumns it'.row cols vals⟩ := by
      unfold Table.item
      rw [rowKey_replaceColumns hkey, hrel, hc2]
    simp only [hitem]
    exact Tree.put_replace hs hit (by exact ⟨rfl, rfl⟩)

/-- C32: a successful `Update` of key columns removes the referenced row, adds the converted
changed row under its own key, and changes nothing else in the whole store. -/
theorem C32_update_moves (env : StoreEnv) (t : Tree) (tbl : Table) (it : Item)
    (cols : List ColumnNum) (vals : List (Option Value)) (hok : TableOk tbl t) (hit : it ∈ t)
    (hrel : it.rel = toRelationId tbl.tid 0#32)
    (hkey : columnKeyUpdated tbl.tt.key cols = true)
    (h : (updateRow env t tbl it.key cols vals).1 = .ok ()) :
    ∃ (rest : Tree) (row : Row) (key : Bytes), t.Perm (it :: rest) ∧
      convertRow env.float tbl.tt.columnTypes (replaceColumns it.row cols vals) = .ok row ∧
      makeKey tbl.tt.key row = .ok key ∧
      (∀ x ∈ rest, ¬ (x.rel = it.rel ∧ x.key = key)) ∧
      (updateRow env t tbl it.key cols vals).2.Perm (⟨it.rel, key, row⟩ :: rest) := by
  obtain ⟨hs, hk⟩ := tableOk_iff.1 hok
  rcases updateRow_cases (env := env) (tbl := tbl) (key := it.key) (cols := cols) (vals := vals) hs with
    e | ⟨it', hit', hrel', hk', _, _, ⟨_, t1, hd, e⟩ | ⟨hku, _⟩⟩
  · rw [e] at h; cases h
  · have : it' = it := hs.unique hit' hit ⟨hrel'.trans hrel.symm, hk'⟩
    subst this
    obtain ⟨hs1, x, hx, hx1, hx2, hp, hdel⟩ := deleteRow_ok hs hd
    have : x = it' := hs.unique hx hit ⟨hx1.trans hrel.symm, hx2⟩
    subst this
    rw [e] at h ⊢
    rw [insertRows_cons] at h ⊢
    cases ho : insertOne env t1 tbl (replaceColumns x.row cols vals) with
    | err e' => rw [ho] at h; cases h
    | panic => rw [ho] at h; cases h
    | ok t2 =>
      obtain ⟨c, hc, hcols, hh, rfl⟩ := insertOne_ok.1 ho
      refine ⟨t1, c, rowKey tbl.tt.key c, hp, hc, makeKey_eq hcols, ?_, ?_⟩
      · rintro y hy ⟨hy1, hy2⟩
        have : t1.has (tbl.item c) = true :=
          Tree.has_iff.2 ⟨y, hy, hy1.trans hrel, hy2⟩
        rw [hh] at this; cases this
      · simp only [insertRows_nil]
        rw [hrel]
        exact Tree.put_perm hh
  · rw [hkey] at hku; cases hku

example : deleteRow (sampleTree [sampleRow 1 "a", sampleRow 2 "b"]) sampleTable
    (rowKey sampleType.key (sampleRow 1 "a")) =
    deleteRow (sampleTree [sampleRow 2 "b", sampleRow 1 "x"]) sampleTable
      (rowKey sampleType.key (sampleRow 1 "a")) := by decide +kernel

example : rowsOf (updateRow sampleStore (sampleTree [sampleRow 1 "a", sampleRow 2 "b"]) sampleTable
    (rowKey sampleType.key (sampleRow 1 "a")) [0#32] [some (.int 5#64)]).2 512#32 =
    [sampleRow 2 "b", sampleRow 5 "a"] := by decide +kernel

/-! ### C33: updated rows satisfy the table -/

/-- C33 does not hold: `Update` of a column outside the key stores the value as it is. -/
theorem C33_update_not_converted :
    ¬ ∀ (env : StoreEnv) (t : Tree) (tbl : Table) (it : Item) (cols : List ColumnNum)
        (vals : List (Option Value)), TableOk tbl t → it ∈ t →
        it.rel = toRelationId tbl.tid 0#32 → (∀ r ∈ rowsOf t tbl.tid, FitsRow tbl.tt.columnTypes r) →
        (updateRow env t tbl it.key cols vals).1 = .ok () →
        ∀ r ∈ rowsOf (updateRow env t tbl it.key cols vals).2 tbl.tid,
          FitsRow tbl.tt.columnTypes r := by
  intro h
  have hm : (⟨toRelationId 512#32 0#32, rowKey sampleType.key (sampleRow 1 "a"), sampleRow 1 "a"⟩ : Item) ∈
      sampleTree [sampleRow 3 "c", sampleRow 1 "a", sampleRow 2 "b"] := by decide +kernel
  have := h sampleStore _ sampleTable _ [1#32] [some (.str (ascii "too long"))] sampleTree_ok hm rfl
    (by
      rw [show sampleTable.tid = 512#32 from rfl, sampleTree_rows]
      intro r hr
      have hr : r = sampleRow 1 "a" ∨ r = sampleRow 2 "b" ∨ r = sampleRow 3 "c" := by simpa using hr
      have fit : ∀ i s, (ascii s).length ≤ 3 → FitsRow sampleTable.tt.columnTypes (sampleRow i s) := by
        intro i s hs
        refine ⟨rfl, ?_⟩
        intro j ct v hc hv
        match j with
        | 0 =>
          simp only [sampleTable, sampleType, sampleRow, List.getElem?_cons_zero] at hc hv
          cases hc; cases hv
          have := (BitVec.ofNat 64 i).toInt_lt
          have := (BitVec.ofNat 64 i).le_toInt
          refine ⟨rfl, ?_⟩
          have e : (2 : Int) ^ (8 * (8#32).toNat) = 2 * 2 ^ 63 := by decide
          simp only [e]
          omega
        | 1 =>
          simp only [sampleTable, sampleType, sampleRow, List.getElem?_cons_succ,
            List.getElem?_cons_zero] at hc hv
          cases hc; cases hv
          exact ⟨rfl, hs⟩
        | j + 2 => simp [sampleTable, sampleType] at hc
      rcases hr with rfl | rfl | rfl <;> exact fit _ _ (by decide))
    (by decide +kernel) [some (.int 1#64), some (.str (ascii "too long"))] (by decide +kernel)
  have := this.2 1 ⟨.string, 3#32, false, false⟩ (some (.str (ascii "too long"))) rfl rfl
  exact absurd this.2 (by decide)

theorem fitsRow_replace {cts : List ColumnType} {r : Row} {cols : List ColumnNum}
    {vals : List (Option Value)} (h : FitsRow cts r)
    (hv : ∀ p ∈ cols.zip vals, ∀ ct, cts[p.1.toNat]? = some ct → FitsColumn ct p.2) :
    FitsRow cts (replaceColumns r cols vals) := by
  refine ⟨by rw [replaceColumns_length]; exact h.1, ?_⟩
  intro i ct v hc hv'
  unfold replaceColumns at hv'
  rw [List.getElem?_mapIdx, Option.map_eq_some_iff] at hv'
  obtain ⟨old, ho, hv'⟩ := hv'
  split at hv'
  · next p hp =>
    subst hv'
    have h1 := List.find?_some hp
    have h2 := List.mem_reverse.1 (List.mem_of_find?_eq_some hp)
    have : p.1.toNat = i := by simpa using h1
    subst this
    exact hv p h2 ct hc
  · subst hv'
    exact h.2 i ct _ hc ho

/-- C33 (partial): if the row satisfied the table and the given values satisfy their columns then
the changed row satisfies the table. Missing: values that do not satisfy their columns, which an
update outside the key stores as they are. -/
theorem C33_update_keeps_valid_partial (env : StoreEnv) (t : Tree) (tbl : Table) (it : Item)
    (cols : List ColumnNum) (vals : List (Option Value)) (hok : TableOk tbl t) (hit : it ∈ t)
    (hrel : it.rel = toRelationId tbl.tid 0#32)
    (hrows : ∀ r ∈ rowsOf t tbl.tid, FitsRow tbl.tt.columnTypes r)
    (hvals : ∀ p ∈ cols.zip vals, ∀ ct, tbl.tt.columnTypes[p.1.toNat]? = some ct →
      FitsColumn ct p.2)
    (h : (updateRow env t tbl it.key cols vals).1 = .ok ()) :
    ∃ rest : Tree, t.Perm (it :: rest) ∧ ∃ key,
      (updateRow env t tbl it.key cols vals).2.Perm
        (⟨it.rel, key, replaceColumns it.row cols vals⟩ :: rest) ∧
      ∀ r ∈ rowsOf (updateRow env t tbl it.key cols vals).2 tbl.tid,
        FitsRow tbl.tt.columnTypes r := by
  obtain ⟨hs, hk⟩ := tableOk_iff.1 hok
  have hfit := fitsRow_replace (hrows it.row (mem_rowsOf.2 ⟨it, hit, hrel, rfl⟩)) hvals
  have fin : ∀ (t' rest : Tree) (key : Bytes), t.Perm (it :: rest) →
      t'.Perm (⟨it.rel, key, replaceColumns it.row cols vals⟩ :: rest) →
      ∀ r ∈ rowsOf t' tbl.tid, FitsRow tbl.tt.columnTypes r := by
    intro t' rest key hp hp' r hr
    obtain ⟨x, hx, hx1, rfl⟩ := mem_rowsOf.1 hr
    rcases List.mem_cons.1 (hp'.mem_iff.1 hx) with rfl | hx
    · exact hfit
    · exact hrows _ (mem_rowsOf.2 ⟨x, hp.mem_iff.2 (List.mem_cons_of_mem _ hx), hx1, rfl⟩)
  cases hkey : columnKeyUpdated tbl.tt.key cols with
  | true =>
    obtain ⟨rest, row, key, h1, h2, _, _, h5⟩ :=
      C32_update_moves env t tbl it cols vals hok hit hrel hkey h
    rw [C22_row_keeps_valid env.float _ _ hfit] at h2
    cases h2
    exact ⟨rest, h1, key, h5, fin _ rest key h1 h5⟩
  | false =>
    rcases updateRow_cases (env := env) (tbl := tbl) (key := it.key) (cols := cols) (vals := vals) hs with
      e | ⟨it', hit', hrel', hk', hl, hc, _⟩
    · rw [e] at h; cases h
    · have : it' = it := hs.unique hit' hit ⟨hrel'.trans hrel.symm, hk'⟩
      subst this
      obtain ⟨_, rest, h1, h2⟩ := C32_update_in_place env t tbl it' cols vals hok hit hrel hl
        (by rw [← hok.width it' hit hrel]; exact hc) hkey
      exact ⟨rest, h1, it'.key, h2, fin _ rest _ h1 h2⟩

/-- C33 (partial): an update of a key column converts the whole row, so the stored row satisfies
the table. Missing: updates outside the key, and the cases missing in C20. -/
theorem C33_key_update_converts_partial (env : StoreEnv) (t : Tree) (tbl : Table) (it : Item)
    (cols : List ColumnNum) (vals : List (Option Value)) (hok : TableOk tbl t) (hit : it ∈ t)
    (hrel : it.rel = toRelationId tbl.tid 0#32)
    (hint : ∀ ct ∈ tbl.tt.columnTypes, ct.type = .int64 →
      ct.size = 2#32 ∨ ct.size = 4#32 ∨ 8 ≤ ct.size.toNat)
    (hkey : columnKeyUpdated tbl.tt.key cols = true)
    (h : (updateRow env t tbl it.key cols vals).1 = .ok ()) :
    ∃ (rest : Tree) (row : Row) (key : Bytes), t.Perm (it :: rest) ∧
      (updateRow env t tbl it.key cols vals).2.Perm (⟨it.rel, key, row⟩ :: rest) ∧
      ((∀ s, some (.str s) ∈ row ∨ some (.bytes s) ∈ row → s.length < 2 ^ 32) →
        FitsRow tbl.tt.columnTypes row) := by
  obtain ⟨rest, row, key, h1, h2, _, _, h5⟩ :=
    C32_update_moves env t tbl it cols vals hok hit hrel hkey h
  refine ⟨rest, row, key, h1, h5, ?_⟩
  intro hlen
  refine C22_row_sound_partial env.float _ _ row ?_ hint hlen h2
  rw [replaceColumns_length]
  exact hok.width it hit hrel

/-! ### C34: failed update -/

/-- C34 does not hold: an update of the key to the key of another row returns an error and the row
is gone. -/
theorem C34_failed_update_loses_row :
    ¬ ∀ (env : StoreEnv) (t : Tree) (tbl : Table) (it : Item) (cols : List ColumnNum)
        (vals : List (Option Value)) (e : Err), TableOk tbl t → it ∈ t →
        it.rel = toRelationId tbl.tid 0#32 →
        (updateRow env t tbl it.key cols vals).1 = .err e →
        (updateRow env t tbl it.key cols vals).2 = t := by
  intro h
  have hm : (⟨toRelationId 512#32 0#32, rowKey sampleType.key (sampleRow 1 "a"), sampleRow 1 "a"⟩ : Item) ∈
      sampleTree [sampleRow 3 "c", sampleRow 1 "a", sampleRow 2 "b"] := by decide +kernel
  have := h sampleStore _ sampleTable _ [0#32] [some (.int 2#64)] .other sampleTree_ok hm rfl
    (by decide +kernel)
  revert this
  decide +kernel

/-- C34 (partial): an update outside the key never returns an error. Missing: updates of key
columns, see the theorem after this one. -/
theorem C34_update_in_place_no_error_partial (env : StoreEnv) (t : Tree) (tbl : Table) (key : Bytes)
    (cols : List ColumnNum) (vals : List (Option Value)) (hsorted : Ascending t)
    (hkey : columnKeyUpdated tbl.tt.key cols = false) (e : Err) :
    (updateRow env t tbl key cols vals).1 ≠ .err e := by
  rcases updateRow_cases (env := env) (tbl := tbl) (key := key) (cols := cols) (vals := vals)
    (ascending_iff.1 hsorted) with e' | ⟨_, _, _, _, _, _, ⟨hku, _⟩ | ⟨_, _, e'⟩⟩
  · rw [e']; simp
  · rw [hkey] at hku; cases hku
  · rw [e']; simp

/-- C34: what a failed update of key columns does: the row is deleted, nothing else changes; it
fails because the changed row does not convert or its key belongs to another row. -/
theorem C34_failed_update_exact (env : StoreEnv) (t : Tree) (tbl : Table) (it : Item)
    (cols : List ColumnNum) (vals : List (Option Value)) (e : Err) (hok : TableOk tbl t)
    (hit : it ∈ t) (hrel : it.rel = toRelationId tbl.tid 0#32)
    (h : (updateRow env t tbl it.key cols vals).1 = .err e) :
    t.Perm (it :: (updateRow env t tbl it.key cols vals).2) ∧
    ((∃ e', convertRow env.float tbl.tt.columnTypes (replaceColumns it.row cols vals) = .err e') ∨
      ∃ row x, convertRow env.float tbl.tt.columnTypes (replaceColumns it.row cols vals) = .ok row ∧
        x ∈ (updateRow env t tbl it.key cols vals).2 ∧ x.rel = it.rel ∧
        makeKey tbl.tt.key row = .ok x.key) := by
  obtain ⟨hs, hk⟩ := tableOk_iff.1 hok
  rcases updateRow_cases (env := env) (tbl := tbl) (key := it.key) (cols := cols) (vals := vals) hs with
    e' | ⟨it', hit', hrel', hk', _, _, ⟨_, t1, hd, e'⟩ | ⟨_, _, e'⟩⟩
  · rw [e'] at h; cases h
  · have : it' = it := hs.unique hit' hit ⟨hrel'.trans hrel.symm, hk'⟩
    subst this
    obtain ⟨hs1, x, hx, hx1, hx2, hp, hdel⟩ := deleteRow_ok hs hd
    have : x = it' := hs.unique hx hit ⟨hx1.trans hrel.symm, hx2⟩
    subst this
    rw [e'] at h ⊢
    rw [insertRows_cons] at h ⊢
    cases ho : insertOne env t1 tbl (replaceColumns x.row cols vals) with
    | ok t2 => rw [ho] at h; cases h
    | panic => rw [ho] at h; cases h
    | err e1 =>
      refine ⟨hp, ?_⟩
      unfold insertOne at ho
      cases hc : convertRow env.float tbl.tt.columnTypes (replaceColumns x.row cols vals) with
      | panic => rw [hc] at ho; cases ho
      | err e2 => exact .inl ⟨e2, rfl⟩
      | ok c =>
        right
        rw [hc] at ho
        simp only [Res.bind_ok] at ho
        cases hi : rowToItem (toRelationId tbl.tid primaryIndexId) tbl.tt.key (some c) with
        | panic => rw [hi] at ho; cases ho
        | err e2 => exact absurd hi rowToItem_no_err
        | ok y =>
          rw [hi] at ho
          simp only [Res.bind_ok] at ho
          split at ho
          · next hh =>
            obtain ⟨hcols, rfl⟩ := rowToItem_some.1 hi
            obtain ⟨z, hz, hz1, hz2⟩ := Tree.has_iff.1 hh
            refine ⟨c, z, rfl, hz, hz1.trans hrel.symm, ?_⟩
            rw [makeKey_eq hcols]
            exact congrArg Res.ok hz2.symm
          · cases ho
  · rw [e'] at h; cases h

/-! ### C41: tables do not interfere -/

/-- What can be read of a table: its definition, and the outcome of every scan. -/
def SameTable (env : StoreEnv) (t t' : Tree) (tid : TableId) : Prop :=
  getTableType env t' tid = getTableType env t tid ∧ rowsOf t' tid = rowsOf t tid ∧
  ∀ (tt : TableType) cols minRow maxRow pred,
    tableRows t' ⟨tid, tt⟩ cols minRow maxRow pred = tableRows t ⟨tid, tt⟩ cols minRow maxRow pred

theorem sameTable_of {env : StoreEnv} {t t' : Tree} {tid : TableId} (hs : SortedTree t)
    (hs' : SortedTree t') (h1 : getTableType env t' tid = getTableType env t tid)
    (h : t'.filter (fun it => it.rel == toRelationId tid 0#32) =
      t.filter (fun it => it.rel == toRelationId tid 0#32)) : SameTable env t t' tid := by
  refine ⟨h1, rowsOf_congr h, ?_⟩
  intro tt cols minRow maxRow pred
  unfold tableRows
  rw [collectItems_congr (tbl := ⟨tid, tt⟩) hs' hs h]

theorem rel_ne {a b : TableId} (h : a ≠ b) : toRelationId a 0#32 ≠ toRelationId b 0#32 :=
  fun e => h (toRelationId_inj e).1

theorem types_ne_rel {tid : TableId} (h : engineTableId ≤ tid) :
    toRelationId tid 0#32 ≠ tableTypesRelation := fun e => rel_ne_types h 0#32 e.symm

/-- C41: inserting into a table does not affect another table, nor any definition. -/
theorem C41_insert (env : StoreEnv) (t : Tree) (tbl : Table) (rows : List Row) (tid : TableId)
    (hsorted : Ascending t) (htbl : engineTableId ≤ tbl.tid) :
    (tid ≠ tbl.tid → SameTable env t (insertRows env t tbl rows).2 tid) ∧
    getTableType env (insertRows env t tbl rows).2 tid = getTableType env t tid := by
  have hs := ascending_iff.1 hsorted
  have hg := getTableType_congr (env := env) (insertRows_sorted (env := env) (tbl := tbl) hs rows)
    (insertRows_other hs rows (types_ne_rel htbl)) tid
  exact ⟨fun hne => sameTable_of hs (insertRows_sorted hs rows) hg
    (insertRows_other hs rows (rel_ne hne.symm)), hg⟩

/-- C41: nor does deleting a row. -/
theorem C41_delete (env : StoreEnv) (t t' : Tree) (tbl : Table) (key : Bytes) (tid : TableId)
    (hsorted : Ascending t) (htbl : engineTableId ≤ tbl.tid) (h : deleteRow t tbl key = .ok t') :
    (tid ≠ tbl.tid → SameTable env t t' tid) ∧
    getTableType env t' tid = getTableType env t tid := by
  have hs := ascending_iff.1 hsorted
  have hs' := (deleteRow_ok hs h).1
  have hg := getTableType_congr (env := env) hs' (deleteRow_other hs h (types_ne_rel htbl)) tid
  exact ⟨fun hne => sameTable_of hs hs' hg (deleteRow_other hs h (rel_ne hne.symm)), hg⟩

/-- C41: nor does updating a row. -/
theorem C41_update (env : StoreEnv) (t : Tree) (tbl : Table) (key : Bytes) (cols : List ColumnNum)
    (vals : List (Option Value)) (tid : TableId)
    (hsorted : Ascending t) (htbl : engineTableId ≤ tbl.tid) :
    (tid ≠ tbl.tid → SameTable env t (updateRow env t tbl key cols vals).2 tid) ∧
    getTableType env (updateRow env t tbl key cols vals).2 tid = getTableType env t tid := by
  have hs := ascending_iff.1 hsorted
  have hs' := updateRow_sorted (env := env) (tbl := tbl) (key := key) (cols := cols) (vals := vals) hs
  have hg := getTableType_congr (env := env) hs' (updateRow_other hs (types_ne_rel htbl)) tid
  exact ⟨fun hne => sameTable_of hs hs' hg (updateRow_other hs (rel_ne hne.symm)), hg⟩

/-- C41: creating a table does not affect another table, and leaves all rows. -/
theorem C41_create (env : StoreEnv) (t t' : Tree) (tid : TableId) (tn : TableName)
    (colNames : List Identifier) (colTypes : List ColumnType) (primary : Option (List ColumnKey))
    (hsorted : Ascending t) (h : createTable env t tid tn colNames colTypes primary = .ok t')
    (tid' : TableId) (hrows : engineTableId ≤ tid') :
    rowsOf t' tid' = rowsOf t tid' ∧ (tid' ≠ tid → SameTable env t t' tid') := by
  have hs := ascending_iff.1 hsorted
  have hf := createTable_other hs h (rel_ne_types hrows 0#32)
  refine ⟨rowsOf_congr hf, fun hne => ?_⟩
  obtain ⟨_, _, _, _, _, _, _, rfl⟩ := createTable_ok.1 h
  exact sameTable_of hs (Tree.sorted_put hs _) (getTableType_put_other hs hne) hf

/-- C41: nor does dropping a table. -/
theorem C41_drop (env : StoreEnv) (t t' : Tree) (tid : TableId)
    (hsorted : Ascending t) (h : dropTable env t tid = .ok t')
    (tid' : TableId) (hrows : engineTableId ≤ tid') :
    rowsOf t' tid' = rowsOf t tid' ∧ (tid' ≠ tid → SameTable env t t' tid') := by
  have hs := ascending_iff.1 hsorted
  have hf := dropTable_other hs h (rel_ne_types hrows 0#32)
  refine ⟨rowsOf_congr hf, fun hne => ?_⟩
  obtain ⟨_, hd⟩ := dropTable_ok.1 h
  exact sameTable_of hs (Tree.delete_some hs hd).1 (getTableType_delete_other hs hne hd) hf

/-- Two tables in one store. -/
example : ∃ t, createTable sampleStore (sampleTree [sampleRow 1 "a"]) 513#32 ⟨600, 601, 605⟩
    sampleType.columnNames sampleType.columnTypes (some sampleType.key) = .ok t ∧
    rowsOf (insertRows sampleStore t ⟨513#32, sampleType⟩ [sampleRow 7 "z"]).2 512#32 =
      [sampleRow 1 "a"] ∧
    rowsOf (insertRows sampleStore t ⟨513#32, sampleType⟩ [sampleRow 7 "z"]).2 513#32 =
      [sampleRow 7 "z"] := ⟨_, rfl, by decide +kernel, by decide +kernel⟩

/-! ### C42: definitions -/

/-- The identifiers of a definition come back from storage unchanged. By C27 this is so for all
names except open keywords such as TEXT and very long names. -/
def StableNames (env : StoreEnv) (tn : TableName) (colNames : List Identifier) : Prop :=
  env.storedId tn.database = tn.database ∧ env.storedId tn.schema = tn.schema ∧
  env.storedId tn.table = tn.table ∧ ∀ c ∈ colNames, env.storedId c = c

theorem mapIds_stable {env : StoreEnv} {tt : TableType} (h : StableNames env tt.name tt.columnNames) :
    tt.mapIds env.storedId = tt := by
  obtain ⟨h1, h2, h3, h4⟩ := h
  unfold TableType.mapIds
  have : tt.columnNames.map env.storedId = tt.columnNames := by
    conv => rhs; rw [← List.map_id tt.columnNames]
    exact List.map_congr_left h4
  rw [this, h1, h2, h3]

theorem create_gives_type {env : StoreEnv} {t t' : Tree} {tid : TableId} {tn : TableName}
    {colNames : List Identifier} {colTypes : List ColumnType} {primary : Option (List ColumnKey)}
    (hs : SortedTree t) (h : createTable env t tid tn colNames colTypes primary = .ok t') :
    ∃ key, primary = some key ∧ getTableType env t' tid =
      .ok (some ((⟨1#32, tn, colNames, colTypes, key⟩ : TableType).mapIds env.storedId)) := by
  obtain ⟨_, _, _, key, rfl, _, _, rfl⟩ := createTable_ok.1 h
  refine ⟨key, rfl, ?_⟩
  have hs' := Tree.sorted_put hs (⟨tableTypesRelation, typeKey tid,
    [tidValue tid, some (.bytes (env.encodeType ⟨1#32, tn, colNames, colTypes, key⟩))]⟩ : Item)
  have hg := (Tree.get_eq hs' (it := ⟨tableTypesRelation, typeKey tid, [tidValue tid]⟩)).2
    ⟨(Tree.mem_put hs).2 (.inl rfl), ⟨rfl, rfl⟩⟩
  unfold getTableType
  rw [rowToItem_type]
  simp only [Res.bind_ok]
  rw [hg]
  simp only [env.decode_encode]

/-- C42 (partial): after `CreateTable`, `OpenTable` succeeds exactly with the definition given to
`CreateTable`. Missing: definitions with identifiers that storage changes, for which it is false. -/
theorem C42_create_then_open_partial (env : StoreEnv) (t t' : Tree) (tid : TableId) (tn : TableName)
    (colNames : List Identifier) (colTypes : List ColumnType) (key : List ColumnKey)
    (hsorted : Ascending t) (hstable : StableNames env tn colNames)
    (h : createTable env t tid tn colNames colTypes (some key) = .ok t') (tn' : TableName)
    (colNames' : List Identifier) (colTypes' : List ColumnType) (key' : List ColumnKey) (tbl : Table) :
    openTable env t' tid tn' colNames' colTypes' key' = .ok tbl ↔
      tn' = tn ∧ colNames' = colNames ∧ colTypes' = colTypes ∧ key' = key ∧
      tbl = ⟨tid, ⟨1#32, tn, colNames, colTypes, key⟩⟩ := by
  obtain ⟨key1, hk, hg⟩ := create_gives_type (ascending_iff.1 hsorted) h
  cases hk
  rw [mapIds_stable (tt := ⟨1#32, tn, colNames, colTypes, key⟩) hstable] at hg
  rw [openTable_ok]
  constructor
  · rintro ⟨tt, ht, h1, h2, h3, h4, h5⟩
    rw [hg] at ht
    cases ht
    exact ⟨h2, h3, h4, h5, h1⟩
  · rintro ⟨rfl, rfl, rfl, rfl, rfl⟩
    exact ⟨_, hg, rfl, rfl, rfl, rfl, rfl⟩

/-- C42: in general `OpenTable` succeeds after `CreateTable` exactly with the definition as storage
gives it back. -/
theorem C42_create_then_open (env : StoreEnv) (t t' : Tree) (tid : TableId) (tn : TableName)
    (colNames : List Identifier) (colTypes : List ColumnType) (key : List ColumnKey)
    (hsorted : Ascending t)
    (h : createTable env t tid tn colNames colTypes (some key) = .ok t') (tn' : TableName)
    (colNames' : List Identifier) (colTypes' : List ColumnType) (key' : List ColumnKey) :
    (∃ tbl, openTable env t' tid tn' colNames' colTypes' key' = .ok tbl) ↔
      tn' = ⟨env.storedId tn.database, env.storedId tn.schema, env.storedId tn.table⟩ ∧
      colNames' = colNames.map env.storedId ∧ colTypes' = colTypes ∧ key' = key := by
  obtain ⟨key1, hk, hg⟩ := create_gives_type (ascending_iff.1 hsorted) h
  cases hk
  constructor
  · rintro ⟨tbl, ho⟩
    obtain ⟨tt, ht, h1, h2, h3, h4, h5⟩ := openTable_ok.1 ho
    rw [hg] at ht
    cases ht
    exact ⟨h2, h3, h4, h5⟩
  · rintro ⟨rfl, rfl, rfl, rfl⟩
    exact ⟨_, openTable_ok.2 ⟨_, hg, rfl, rfl, rfl, rfl, rfl⟩⟩

/-- C42: a table that does not exist, or was dropped, is refused. -/
theorem C42_unknown_refused (env : StoreEnv) (t : Tree) (tid : TableId) (tn : TableName)
    (colNames : List Identifier) (colTypes : List ColumnType) (key : List ColumnKey)
    (h : getTableType env t tid = .ok none) :
    openTable env t tid tn colNames colTypes key = .panic := by
  unfold openTable
  rw [h]
  rfl

theorem C42_drop_then_unknown (env : StoreEnv) (t t' : Tree) (tid : TableId) (hsorted : Ascending t)
    (h : dropTable env t tid = .ok t') : getTableType env t' tid = .ok none := by
  obtain ⟨_, hd⟩ := dropTable_ok.1 h
  obtain ⟨_, hm, _⟩ := Tree.delete_some (ascending_iff.1 hsorted) hd
  rw [getTableType_none]
  intro x hx
  exact ((hm x).1 hx).2

/-- C42: creating a table that exists is refused, and so is dropping one that does not. -/
theorem C42_create_existing_refused (env : StoreEnv) (t : Tree) (tid : TableId) (tn : TableName)
    (colNames : List Identifier) (colTypes : List ColumnType) (primary : Option (List ColumnKey))
    (tt : TableType) (h : getTableType env t tid = .ok (some tt)) :
    createTable env t tid tn colNames colTypes primary = .panic := by
  unfold createTable
  split
  · rfl
  · rw [h]; rfl

theorem C42_drop_unknown_refused (env : StoreEnv) (t : Tree) (tid : TableId)
    (h : getTableType env t tid = .ok none) : dropTable env t tid = .panic := by
  unfold dropTable
  rw [h]
  rfl

/-- The identifiers after the names `TEXT` (a keyword) and `"TEXT"` (quoted) were used. -/
def textRegistry : Registry :=
  (internID asciiEnv (internID asciiEnv Registry.initial (ascii "text") false).2 (ascii "TEXT") true).2

/-- The store with the effect of `GobEncode` and `GobDecode` on identifiers. -/
def textStore : StoreEnv :=
  storeEnv sampleEnv fun id =>
    match (gobDecodeId asciiEnv textRegistry (gobEncodeId textRegistry id)).1 with
    | .ok id => id
    | _ => id

/-- C42 does not hold: a table with a column named TEXT is created, but opening it with the same
definition panics. -/
theorem C42_keyword_column_not_opened :
    ∃ (env : StoreEnv) (t' : Tree) (id : Identifier),
      id = (internID asciiEnv Registry.initial (ascii "text") false).1 ∧
      createTable env [] 512#32 ⟨600, 601, 602⟩ [id] [⟨.int64, 8#32, false, true⟩]
        (some [makeColumnKey 0#32 false]) = .ok t' ∧
      openTable env t' 512#32 ⟨600, 601, 602⟩ [id] [⟨.int64, 8#32, false, true⟩]
        [makeColumnKey 0#32 false] = .panic :=
  ⟨textStore, _, _, rfl, rfl, by decide +kernel⟩

example : StableNames sampleStore sampleType.name sampleType.columnNames := ⟨rfl, rfl, rfl, fun _ _ => rfl⟩

/-! ### C43: new tables -/

/-- C43 (partial): a table whose id was not used before is empty after `CreateTable`. Missing: ids
of dropped tables, for which it is false. -/
theorem C43_new_table_empty_partial (env : StoreEnv) (t t' : Tree) (tid : TableId) (tn : TableName)
    (colNames : List Identifier) (colTypes : List ColumnType) (primary : Option (List ColumnKey))
    (hsorted : Ascending t) (hnew : ∀ it ∈ t, it.rel ≠ toRelationId tid 0#32)
    (h : createTable env t tid tn colNames colTypes primary = .ok t') : rowsOf t' tid = [] := by
  rw [(C41_create env t t' tid tn colNames colTypes primary hsorted h tid
    (createTable_ok.1 h).1).1]
  unfold rowsOf
  rw [List.filter_eq_nil_iff.2]
  · rfl
  · intro it hit
    simpa using hnew it hit

/-- C43 does not hold: after drop and re-create the old rows are still there. -/
theorem C43_recreated_table_not_empty :
    ∃ t1 t2, dropTable sampleStore (sampleTree [sampleRow 1 "a"]) 512#32 = .ok t1 ∧
      createTable sampleStore t1 512#32 sampleType.name sampleType.columnNames
        sampleType.columnTypes (some sampleType.key) = .ok t2 ∧
      rowsOf t2 512#32 = [sampleRow 1 "a"] :=
  ⟨_, _, rfl, rfl, by decide +kernel⟩

/-- C43: the rows after creation are exactly those left under the same id before. -/
theorem C43_created_rows (env : StoreEnv) (t t' : Tree) (tid : TableId) (tn : TableName)
    (colNames : List Identifier) (colTypes : List ColumnType) (primary : Option (List ColumnKey))
    (hsorted : Ascending t)
    (h : createTable env t tid tn colNames colTypes primary = .ok t') :
    rowsOf t' tid = rowsOf t tid :=
  (C41_create env t t' tid tn colNames colTypes primary hsorted h tid (createTable_ok.1 h).1).1

end Maho
