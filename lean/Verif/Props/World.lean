import Verif.Lemmas.Serial
import Verif.Props.Storage
/-
Properties C29, C35-C40, C44, and C42 and C43 over histories: transactions of any number of
goroutines. A history is any list of operations; it starts with a new store.
-/
namespace Maho
open Spec

/-! ### A sample history -/

/-- The store after the operations of a history. -/
def after (env : StoreEnv) (ops : List Op) : World := (run env World.initial ops).2

/-- `Begin` of a new transaction. -/
def opsBegin (i : Nat) : List Op := [.beginLock, .beginRead i]
/-- `Commit`. -/
def opsCommit (i : Nat) : List Op := [.commit i, .unlock i, .forget i]
/-- `Rollback`. -/
def opsRollback (i : Nat) : List Op := [.rollback i, .unlock i, .forget i]

def opCreate (i : Nat) : Op :=
  .createTable i 512#32 sampleType.name sampleType.columnNames sampleType.columnTypes (some sampleType.key)
def opOpen (i : Nat) : Op :=
  .openTable i 512#32 sampleType.name sampleType.columnNames sampleType.columnTypes sampleType.key

/-- Transaction 0 creates a table and commits; transaction 1 inserts a row and rolls back;
transaction 2 inserts rows, starts a scan and deletes a row meanwhile. -/
def sampleHistory : List Op :=
  opsBegin 0 ++ [opCreate 0] ++ opsCommit 0 ++
  opsBegin 1 ++ [opOpen 1, .insert 0 [sampleRow 7 "x"]] ++ opsRollback 1 ++
  opsBegin 2 ++ [opOpen 2, .insert 1 [sampleRow 2 "b", sampleRow 1 "a"], .rows 1 none none none none,
    .next 0, .current 0, .delete 0, .beginLock, .next 0, .next 0]

example : (run sampleStore World.initial sampleHistory).1 =
    [.handle 0, .done, .done, .done, .done, .done,
     .handle 1, .done, .handle 0, .done, .done, .done, .done,
     .handle 2, .done, .handle 1, .done, .handle 0, .row (sampleRow 1 "a"), .handle 0, .done,
     .blocked, .row (sampleRow 2 "b"), .err .eof] := by decide +kernel

/-- The rows transaction 2 sees at the end, and the committed ones. -/
example : ((after sampleStore sampleHistory).treeOf 2).map (rowsOf · 512#32) = some [sampleRow 2 "b"] ∧
    rowsOf (committed (after sampleStore sampleHistory)) 512#32 = [] := by decide +kernel

/-! ### C29: scans are snapshots -/

theorem nextReplies_eq {env : StoreEnv} (n : Nat) (ops : List Op) : ∀ {w : World} {e : RowsEntry},
    WInv w → w.rows[n]? = some e → n ∉ closes env w ops →
    nextReplies env n w ops =
      (callNext (nextReplies env n w ops).length e.obj).1.map Reply.ofRow := by
  induction ops with
  | nil => intro w e _ _ _; rfl
  | cons op ops ih =>
    intro w e hi he hnc
    rw [closes_cons, List.mem_append, not_or] at hnc
    by_cases h1 : op = .next n
    · subst h1
      have hs := step_next (env := env) he
      have he' : (step env w (.next n)).2.rows[n]? = some { e with obj := e.obj.nextRow.2 } := by
        rw [hs]
        exact List.getElem?_set_self (List.getElem?_eq_some_iff.1 he).1
      have := ih (step_inv hi _) he' hnc.2
      simp only [nextReplies, if_true, List.length_cons, callNext, List.map_cons]
      rw [← this, hs]
    · have hsame : nextReplies env n w (op :: ops) = nextReplies env n (step env w op).2 ops := by
        cases op <;> simp only [nextReplies]
        next m => rw [if_neg]; rintro rfl; exact h1 rfl
      rw [hsame]
      by_cases h2 : op = .close n
      · subst h2
        rcases step_close (env := env) he with ⟨_, hr, _⟩ | ⟨_, hr⟩
        · exact absurd (closes_one.2 ⟨rfl, hr⟩) hnc.1
        · have h3 := hnc.2
          rw [hr] at h3 ⊢
          exact ih hi he h3
      · exact ih (step_inv hi _) (effect_rows hi (step_effect op) he h1 h2) hnc.2

/-- C29: what a scan returns depends only on the scan as it was opened: whatever any transaction
does meanwhile, the calls of `Next` return what they would return one after the other. -/
theorem C29_snapshot (env : StoreEnv) (ops later : List Op) (n : Nat) (e : RowsEntry)
    (he : (after env ops).rows[n]? = some e) (hopen : n ∉ closes env (after env ops) later) :
    nextReplies env n (after env ops) later =
      (callNext (nextReplies env n (after env ops) later).length e.obj).1.map Reply.ofRow :=
  nextReplies_eq n later (reach_inv ops) he hopen

/-- C29: the rows returned are those of the table when `Rows` was called. -/
theorem C29_scan_returns (env : StoreEnv) (ops later : List Op) (table tx n : Nat) (tbl : Table)
    (t : Tree) (cols : Option (List ColumnNum)) (minRow maxRow : Option Row) (pred : Option Predicate)
    (htb : (after env ops).tables[table]? = some ⟨tx, tbl⟩) (ht : (after env ops).treeOf tx = some t)
    (hok : TableOk tbl t)
    (hcols : ∀ l, cols = some l → ∀ c ∈ l, c.toNat < tbl.tt.columnTypes.length)
    (hr : (step env (after env ops) (.rows table cols minRow maxRow pred)).1 = .handle n)
    (hopen : n ∉ closes env (step env (after env ops) (.rows table cols minRow maxRow pred)).2 later)
    (i : Nat) (rep : Reply)
    (hi : (nextReplies env n (step env (after env ops) (.rows table cols minRow maxRow pred)).2 later)[i]? =
      some rep) :
    rep = match (scanRows t tbl minRow maxRow pred)[i]? with
      | some r => .row (columnsOf cols r)
      | none => .err .eof := by
  have hinv : WInv (after env ops) := reach_inv ops
  obtain ⟨rs, hrs, hentry⟩ : ∃ rs, tableRows t tbl cols minRow maxRow pred = .ok rs ∧
      (step env (after env ops) (.rows table cols minRow maxRow pred)).2.rows[n]? = some ⟨tx, tbl, rs⟩ := by
    simp only [step, htb, World.withTree, ht] at hr ⊢
    cases h : tableRows t tbl cols minRow maxRow pred with
    | panic => rw [h] at hr; cases hr
    | err e => rw [h] at hr; cases hr
    | ok rs =>
      rw [h] at hr
      simp only [Reply.handle.injEq] at hr
      subst hr
      refine ⟨rs, rfl, ?_⟩
      simp only
      rw [List.getElem?_append_right (Nat.le_refl _)]
      simp
  have h := nextReplies_eq n later (step_inv hinv _) hentry hopen
  generalize nextReplies env n (step env (after env ops) (.rows table cols minRow maxRow pred)).2 later = l at *
  have hlt := (List.getElem?_eq_some_iff.1 hi).1
  rw [h, List.getElem?_map, C28_scan_exact t tbl cols minRow maxRow pred rs hok hcols hrs _ i hlt] at hi
  simp only [Option.map_some, Option.some.injEq] at hi
  rw [← hi]
  cases (scanRows t tbl minRow maxRow pred)[i]? <;> rfl

/-- The scan of the sample history, with a delete after its first row. -/
example : nextReplies sampleStore 0 (after sampleStore (sampleHistory.take 18)) (sampleHistory.drop 18) =
    [.row (sampleRow 1 "a"), .row (sampleRow 2 "b"), .err .eof] ∧
    0 ∉ closes sampleStore (after sampleStore (sampleHistory.take 18)) (sampleHistory.drop 18) ∧
    (after sampleStore (sampleHistory.take 18)).rows.length = 1 := by decide +kernel

/-! ### C35: the store is sorted and tables are well kept -/

theorem run_sorted {env : StoreEnv} (ops : List Op) :
    SortedTree (committed (after env ops)) ∧
      ∀ i t, (after env ops).treeOf i = some t → SortedTree t := by
  induction ops using snocInduction with
  | nil =>
    refine ⟨sortedTree_nil, ?_⟩
    intro i t h
    rw [treeOf_eq] at h
    simp [after, run, World.initial] at h
  | snoc ops op ih =>
    have hi := reach_inv (env := env) ops
    have he := step_effect (env := env) (w := (run env World.initial ops).2) op
    unfold after at ih ⊢
    rw [(run_snoc ops op _).1]
    constructor
    · rcases effect_committed hi he with ⟨i, _, _, ht⟩ | ⟨_, e⟩
      · exact ih.2 i _ ht
      · rw [e]; exact ih.1
    · intro i t h
      rcases effect_tree hi he i t h with ⟨t0, ht0, rfl⟩ | ⟨_, _, rfl⟩
      · unfold treeAfter
        split
        · split
          · exact applyWrite_sorted (ih.2 i t0 ht0) _
          · exact ih.2 i t0 ht0
        · exact ih.2 i t0 ht0
      · exact ih.1

/-- C35: after every history the committed tree and the tree of every transaction are strictly
sorted by table and key, so no key is stored twice. -/
theorem C35_sorted (env : StoreEnv) (ops : List Op) :
    Ascending (committed (after env ops)) ∧
      ∀ i t, (after env ops).treeOf i = some t → Ascending t :=
  ⟨ascending_iff.2 (run_sorted ops).1, fun i t h => ascending_iff.2 ((run_sorted ops).2 i t h)⟩

theorem tInv_after {env : StoreEnv} {tid : TableId} {ops : List Op}
    (hd : ∀ i, Op.dropTable i tid ∉ ops) : TInv env tid (after env ops) :=
  run_tInv ops hd (tInv_initial env tid)

/-- C35: through every table that can be used, and was never dropped, every row is stored under
the key computed from its own columns. Missing: tables that were dropped, see
`C35_recreated_table_not_kept`. -/
theorem C35_tables_kept_partial (env : StoreEnv) (ops : List Op) (e : TableObj) (t : Tree)
    (he : e ∈ (after env ops).tables) (ht : (after env ops).treeOf e.tx = some t)
    (hd : ∀ i, Op.dropTable i e.tbl.tid ∉ ops) : TableOk e.tbl t ∧ KeyColumnsExist e.tbl.tt := by
  have hinv := tInv_after (env := env) hd
  have hok := hinv.trees e.tx t ht
  have hg := hinv.handle (e.tx, e.tbl) (mem_handles.2 (.inl ⟨e, he, rfl⟩)) rfl t ht
  obtain ⟨h1, h2⟩ := hok.kept _ hg
  exact ⟨tableOk_iff.2 ⟨hok.sorted, h1⟩, h2⟩

/-- C35: the rows of such a table have pairwise different keys. -/
theorem C35_keys_unique_partial (env : StoreEnv) (ops : List Op) (e : TableObj) (t : Tree)
    (he : e ∈ (after env ops).tables) (ht : (after env ops).treeOf e.tx = some t)
    (hd : ∀ i, Op.dropTable i e.tbl.tid ∉ ops) :
    (rowsOf t e.tbl.tid).Pairwise (fun a b => rowOrder (keyCols e.tbl.tt.key) a b = .lt) := by
  have hok := (C35_tables_kept_partial env ops e t he ht hd).1
  have := C28_scan_ordered t e.tbl none none none hok
  have hall : scanRows t e.tbl none none none = rowsOf t e.tbl.tid := by
    unfold scanRows
    rw [List.filter_eq_self]
    intro a _
    simp [atLeast, atMost, satisfies]
  rwa [hall] at this

example : ∃ e t, e ∈ (after sampleStore sampleHistory).tables ∧
    (after sampleStore sampleHistory).treeOf e.tx = some t ∧
    (∀ i, Op.dropTable i e.tbl.tid ∉ sampleHistory) := by
  have h1 : (after sampleStore sampleHistory).tables[1]?.map (fun e => (e.tx, e.tbl)) = some (2, sampleTable) := by
    decide +kernel
  obtain ⟨e, he, h⟩ := Option.map_eq_some_iff.1 h1
  have h2 : ((after sampleStore sampleHistory).treeOf 2).isSome := by decide +kernel
  obtain ⟨t, ht⟩ := Option.isSome_iff_exists.1 h2
  refine ⟨e, t, List.mem_of_getElem? he, ?_, ?_⟩
  · rw [show e.tx = 2 from congrArg Prod.fst h]; exact ht
  · intro i hi
    simp [sampleHistory, opsBegin, opsCommit, opsRollback, opCreate, opOpen] at hi

/-- A history that drops a table with a row and creates it again with another primary key. -/
def recreateHistory : List Op :=
  opsBegin 0 ++ [opCreate 0, opOpen 0, .insert 0 [sampleRow 7 "x"], .dropTable 0 512#32,
    .createTable 0 512#32 sampleType.name sampleType.columnNames sampleType.columnTypes
      (some [makeColumnKey 1#32 false]),
    .openTable 0 512#32 sampleType.name sampleType.columnNames sampleType.columnTypes
      [makeColumnKey 1#32 false]]

/-- C35 is false for a table created again: its old row is stored under another key. -/
theorem C35_recreated_table_not_kept : ∃ ops e t, e ∈ (after sampleStore ops).tables ∧
    (after sampleStore ops).treeOf e.tx = some t ∧ ¬ TableOk e.tbl t := by
  have h1 : (after sampleStore recreateHistory).tables[1]?.map (fun e => (e.tx, e.tbl)) =
      some (0, ⟨512#32, { sampleType with key := [makeColumnKey 1#32 false] }⟩) := by decide +kernel
  obtain ⟨e, he, h⟩ := Option.map_eq_some_iff.1 h1
  have h2 : ((after sampleStore recreateHistory).treeOf 0).map (fun t =>
      t.any fun it => decide (it.rel = toRelationId 512#32 0#32 ∧
        makeKey [makeColumnKey 1#32 false] it.row ≠ .ok it.key)) = some true := by decide +kernel
  obtain ⟨t, ht, h3⟩ := Option.map_eq_some_iff.1 h2
  refine ⟨recreateHistory, e, t, List.mem_of_getElem? he, ?_, ?_⟩
  · rw [show e.tx = 0 from congrArg Prod.fst h]; exact ht
  · intro hok
    obtain ⟨it, hit, h4⟩ := List.any_eq_true.1 h3
    obtain ⟨h5, h6⟩ := of_decide_eq_true h4
    have h7 := congrArg Prod.snd h
    simp only at h7
    have h8 := hok.keyed it hit (by rw [h7]; exact h5)
    rw [h7] at h8
    exact h6 h8

/-! ### C36: rollback -/

/-- What `beginLock` does when it does not wait. -/
theorem beginLock_handle {env : StoreEnv} {w : World} {i : Nat}
    (h : (step env w .beginLock).1 = .handle i) :
    i = w.txs.length ∧ (step env w .beginLock).2 =
      { w with locked := true, txs := w.txs ++ [⟨.begun, 0, 0⟩] } := by
  simp only [step] at h ⊢
  split at h
  · cases h
  · next hl => simp only [Reply.handle.injEq] at h; rw [if_neg hl]; exact ⟨h.symm, rfl⟩

theorem beginLock_committed {env : StoreEnv} {w : World} {i : Nat}
    (h : (step env w .beginLock).1 = .handle i) :
    committed (step env w .beginLock).2 = committed w := by
  rw [(beginLock_handle h).2]; rfl

theorem beginLock_new {env : StoreEnv} {w : World} {i : Nat}
    (h : (step env w .beginLock).1 = .handle i) :
    (∃ s, (step env w .beginLock).2.txs[i]? = some s) ∧ (step env w .beginLock).2.treeOf i = none := by
  obtain ⟨rfl, e⟩ := beginLock_handle h
  rw [e]
  have : (w.txs ++ [(⟨.begun, 0, 0⟩ : TxState)])[w.txs.length]? = some ⟨.begun, 0, 0⟩ := by simp
  refine ⟨⟨_, this⟩, ?_⟩
  rw [treeOf_eq]
  simp only [this]
  rfl

/-- C36: while a transaction has the store locked and did not commit, the committed state is what
it was when the transaction began, whatever it and others do. -/
theorem C36_held_unchanged (env : StoreEnv) (ops during : List Op) (i : Nat)
    (hb : (step env (after env ops) .beginLock).1 = .handle i)
    (hh : Holds (run env (step env (after env ops) .beginLock).2 during).2 i)
    (hnc : i ∉ commits env (step env (after env ops) .beginLock).2 during) :
    committed (run env (step env (after env ops) .beginLock).2 during).2 = committed (after env ops) := by
  have hi : WInv (after env ops) := reach_inv ops
  rw [committed_while_held during (step_inv hi _) (beginLock_new hb).1 hnc hh, beginLock_committed hb]

/-- C36: after `Rollback` the committed state is exactly what it was at `Begin`. -/
theorem C36_rollback (env : StoreEnv) (ops during : List Op) (i : Nat)
    (hb : (step env (after env ops) .beginLock).1 = .handle i)
    (hr : (step env (run env (step env (after env ops) .beginLock).2 during).2 (.rollback i)).1 = .done) :
    committed (step env (run env (step env (after env ops) .beginLock).2 during).2 (.rollback i)).2 =
      committed (after env ops) := by
  have hi0 : WInv (after env ops) := reach_inv ops
  have hi1 : WInv (step env (after env ops) .beginLock).2 := step_inv hi0 _
  have hi2 := run_inv (env := env) during hi1
  have he := step_effect (env := env)
    (w := (run env (step env (after env ops) .beginLock).2 during).2) (.rollback i)
  have hc : committed (step env (run env (step env (after env ops) .beginLock).2 during).2 (.rollback i)).2 =
      committed (run env (step env (after env ops) .beginLock).2 during).2 := by
    rcases effect_committed hi2 he with ⟨j, e, _⟩ | ⟨_, e⟩
    · cases e
    · exact e
  have hact : ∃ s, (run env (step env (after env ops) .beginLock).2 during).2.txs[i]? = some s ∧
      s.phase = .active := by
    simp only [step] at hr
    split at hr
    · cases hr
    · next p n hs => exact ⟨_, hs, rfl⟩
    · cases hr
  obtain ⟨s, hs, hp⟩ := hact
  obtain ⟨t, ht⟩ := treeOf_active hi2 hs hp
  rw [hc]
  exact C36_held_unchanged env ops during i hb ⟨s, hs, .inr (.inl hp)⟩ (active_not_committed hi1 ht)

/-- Transaction 1 of the sample history is rolled back. -/
example : (step sampleStore (after sampleStore (sampleHistory.take 6)) .beginLock).1 = .handle 1 ∧
    (step sampleStore (run sampleStore (step sampleStore (after sampleStore (sampleHistory.take 6)) .beginLock).2
      [.beginRead 1, opOpen 1, .insert 0 [sampleRow 7 "x"]]).2 (.rollback 1)).1 = .done := by decide +kernel

/-! ### C37: commit -/

/-- C37: after `Commit` the committed state is the one the transaction saw, which is the committed
state at its `Begin` with exactly its writes applied in order. -/
theorem C37_commit (env : StoreEnv) (ops during : List Op) (i : Nat)
    (hb : (step env (after env ops) .beginLock).1 = .handle i)
    (hr : (step env (run env (step env (after env ops) .beginLock).2 during).2 (.commit i)).1 = .done) :
    (run env (step env (after env ops) .beginLock).2 during).2.treeOf i =
      some (committed (step env (run env (step env (after env ops) .beginLock).2 during).2 (.commit i)).2) ∧
    committed (step env (run env (step env (after env ops) .beginLock).2 during).2 (.commit i)).2 =
      (writesBy env i (step env (after env ops) .beginLock).2 during).foldl (applyWrite env)
        (committed (after env ops)) := by
  have hi0 : WInv (after env ops) := reach_inv ops
  have hi1 : WInv (step env (after env ops) .beginLock).2 := step_inv hi0 _
  have hi2 := run_inv (env := env) during hi1
  have he := step_effect (env := env)
    (w := (run env (step env (after env ops) .beginLock).2 during).2) (.commit i)
  rcases effect_committed hi2 he with ⟨j, e, _, ht⟩ | ⟨h1, _⟩
  · cases e
    refine ⟨ht, ?_⟩
    have hv := view_eq (env := env) hi1 (by
      intro t h; rw [(beginLock_new hb).2] at h; cases h) during _ ht
    obtain ⟨s, hs, hp, _⟩ := treeOf_some.1 ht
    rw [hv, C36_held_unchanged env ops during i hb ⟨s, hs, .inr (.inl hp)⟩ (active_not_committed hi1 ht)]
  · exact absurd hr (h1 i rfl)

/-- C37: a transaction starts with the committed state. -/
theorem C37_begin_sees_committed (env : StoreEnv) (ops : List Op) (j : Nat)
    (hr : (step env (after env ops) (.beginRead j)).1 = .done) :
    (step env (after env ops) (.beginRead j)).2.treeOf j = some (committed (after env ops)) := by
  have hi : WInv (after env ops) := reach_inv ops
  simp only [step] at hr ⊢
  split at hr
  · next p n hs =>
    simp only
    rw [setTx_treeOf, hs]
    simp only [if_true]
    unfold committed
    rw [List.getD_eq_getElem?_getD, List.getElem?_eq_getElem hi.store]
    rfl
  · cases hr

/-- C37: and what it sees afterwards are its own writes over that, nothing else. -/
theorem C37_view (env : StoreEnv) (ops : List Op) (i : Nat) (t : Tree)
    (ht : (after env ops).treeOf i = some t) :
    t = (writesBy env i World.initial ops).foldl (applyWrite env) (committed (after env ops)) :=
  view_eq wInv_initial (by intro t h; rw [treeOf_eq] at h; simp [World.initial] at h) ops t ht

example : (step sampleStore (run sampleStore (step sampleStore World.initial .beginLock).2
    [.beginRead 0, opCreate 0]).2 (.commit 0)).1 = .done := by decide +kernel

/-! ### C38: uncommitted changes -/

/-- C38: an operation that is not a successful commit leaves the committed state. -/
theorem C38_only_commit (env : StoreEnv) (ops : List Op) (op : Op)
    (h : ∀ i, op = .commit i → (step env (after env ops) op).1 ≠ .done) :
    committed (step env (after env ops) op).2 = committed (after env ops) := by
  rcases effect_committed (reach_inv (env := env) ops) (step_effect (env := env) op) with
    ⟨i, e, hr, _⟩ | ⟨_, e⟩
  · exact absurd hr (h i e)
  · exact e

/-- An insert that changes the transaction's tree and not the committed one. -/
example : committed (step sampleStore (after sampleStore (sampleHistory.take 9)) (.insert 0 [sampleRow 7 "x"])).2 =
      committed (after sampleStore (sampleHistory.take 9)) ∧
    (step sampleStore (after sampleStore (sampleHistory.take 9)) (.insert 0 [sampleRow 7 "x"])).2.treeOf 1 ≠
      (after sampleStore (sampleHistory.take 9)).treeOf 1 := by decide +kernel

/-! ### C39: transactions are serial -/

/-- C39: at most one transaction has the store locked. -/
theorem C39_exclusive (env : StoreEnv) (ops : List Op) (i j : Nat)
    (hi : Holds (after env ops) i) (hj : Holds (after env ops) j) : i = j := by
  obtain ⟨s, hs, hp⟩ := holds_iff.1 hi
  obtain ⟨s', hs', hp'⟩ := holds_iff.1 hj
  exact holder_unique (reach_inv ops) hs hs' hp hp'

/-- C39: `Begin` waits exactly when another transaction has the store locked. -/
theorem C39_begin_waits (env : StoreEnv) (ops : List Op) :
    (step env (after env ops) .beginLock).1 = .blocked ↔ ∃ i, Holds (after env ops) i := by
  have hinv : WInv (after env ops) := reach_inv ops
  simp only [step]
  constructor
  · intro h
    split at h
    · next hl =>
      obtain ⟨s, hs, hp⟩ := hinv.locked hl
      exact ⟨_, holds_iff.2 ⟨s, hs, hp⟩⟩
    · cases h
  · rintro ⟨i, hh⟩
    obtain ⟨s, hs, hp⟩ := holds_iff.1 hh
    rw [if_pos (hinv.holder i s hs hp).2]

/-- C39: the committed state is the result of applying the writes of the committed transactions,
one transaction after the other. -/
theorem C39_serial (env : StoreEnv) (ops : List Op) :
    committed (after env ops) =
      (commits env World.initial ops).foldl
        (fun t i => (writesBy env i World.initial ops).foldl (applyWrite env) t) [] :=
  committed_serial ops

/-- C39: they commit in the order they began (transactions are numbered in that order). -/
theorem C39_order (env : StoreEnv) (ops : List Op) :
    (commits env World.initial ops).Pairwise (· < ·) :=
  commits_increasing ops

/-- C39: transactions are numbered in the order they lock the store. -/
theorem C39_numbered (env : StoreEnv) (ops : List Op) (i : Nat)
    (hb : (step env (after env ops) .beginLock).1 = .handle i) :
    i = (after env ops).txs.length ∧
      (step env (after env ops) .beginLock).2.txs.length = (after env ops).txs.length + 1 := by
  obtain ⟨h1, h2⟩ := beginLock_handle hb
  exact ⟨h1, by rw [h2]; simp⟩

example : Holds (after sampleStore sampleHistory) 2 := by
  refine ⟨⟨.active, 3, 1⟩, ?_, .inr (.inl rfl)⟩
  decide +kernel

example : commits sampleStore World.initial (sampleHistory ++ [.close 0] ++ opsCommit 2) = [0, 2] := by
  decide +kernel

/-! ### C40: completed transactions -/

/-- C40: on a completed transaction `Commit` and `Rollback` return an error and change nothing. -/
theorem C40_completed_refused (env : StoreEnv) (ops later : List Op) (i : Nat)
    (hr : (step env (after env ops) (.forget i)).1 = .done) (op : Op) (hop : op = .commit i ∨ op = .rollback i) :
    step env (run env (step env (after env ops) (.forget i)).2 later).2 op =
      (.err .other, (run env (step env (after env ops) (.forget i)).2 later).2) := by
  have hi0 : WInv (after env ops) := reach_inv ops
  have hs : ∃ s, (step env (after env ops) (.forget i)).2.txs[i]? = some s ∧ s.phase = .completed := by
    simp only [step] at hr ⊢
    split at hr
    · next p n hs =>
      exact ⟨_, modify_get.2 ⟨_, hs, rfl⟩, by simp⟩
    · cases hr
  obtain ⟨s, hs, hp⟩ := hs
  obtain ⟨s', hs', hr'⟩ := run_phase (env := env) later (step_inv hi0 (.forget i)) i s hs
  rw [hp] at hr'
  obtain ⟨ph, p, n⟩ := s'
  have : ph = .completed := by cases ph <;> simp [Phase.rank] at hr' <;> rfl
  subst this
  generalize (run env (step env (after env ops) (.forget i)).2 later).2 = w at *
  rcases hop with rfl | rfl <;> simp only [step, hs']

/-- C40: using a completed transaction, its tables or references to its rows panics and changes
nothing. -/
theorem C40_completed_panics (env : StoreEnv) (ops later : List Op) (i : Nat)
    (hr : (step env (after env ops) (.forget i)).1 = .done) (op : Op)
    (hop : (∃ tid tn cs ts key, op = .openTable i tid tn cs ts key) ∨
      (∃ tid tn cs ts key, op = .createTable i tid tn cs ts key) ∨ (∃ tid, op = .dropTable i tid) ∨
      (∃ n tbl, (run env (step env (after env ops) (.forget i)).2 later).2.tables[n]? = some ⟨i, tbl⟩ ∧
        ((∃ cs mn mx p, op = .rows n cs mn mx p) ∨ ∃ rs, op = .insert n rs)) ∨
      ∃ n tbl key,
        (run env (step env (after env ops) (.forget i)).2 later).2.refs[n]? = some ⟨i, tbl, key⟩ ∧
        ((∃ cs vs, op = .update n cs vs) ∨ op = .delete n)) :
    step env (run env (step env (after env ops) (.forget i)).2 later).2 op =
      (.panic, (run env (step env (after env ops) (.forget i)).2 later).2) := by
  have hi0 : WInv (after env ops) := reach_inv ops
  have hs : ∃ s, (step env (after env ops) (.forget i)).2.txs[i]? = some s ∧ s.phase = .completed := by
    simp only [step] at hr ⊢
    split at hr
    · next p n hs =>
      exact ⟨_, modify_get.2 ⟨_, hs, rfl⟩, by simp⟩
    · cases hr
  obtain ⟨s, hs, hp⟩ := hs
  obtain ⟨s', hs', hr'⟩ := run_phase (env := env) later (step_inv hi0 (.forget i)) i s hs
  rw [hp] at hr'
  obtain ⟨ph, p, n⟩ := s'
  have : ph = .completed := by cases ph <;> simp [Phase.rank] at hr' <;> rfl
  subst this
  generalize (run env (step env (after env ops) (.forget i)).2 later).2 = w at *
  have hw : ∀ f, w.withTree i f = (.panic, w) := by
    intro f
    simp [World.withTree, World.treeOf, World.completed, hs']
  rcases hop with ⟨_, _, _, _, _, rfl⟩ | ⟨_, _, _, _, _, rfl⟩ | ⟨_, rfl⟩ |
    ⟨n, tbl, ht, ⟨_, _, _, _, rfl⟩ | ⟨_, rfl⟩⟩ | ⟨n, tbl, key, ht, ⟨_, _, rfl⟩ | rfl⟩ <;>
    simp only [step, hw, *]

-- The table of transaction 1, which was rolled back.
example : (step sampleStore (after sampleStore (sampleHistory.take 12)) (.forget 1)).1 = .done ∧
    ((after sampleStore sampleHistory).tables[0]?).map (·.tx) = some 1 ∧
    (step sampleStore (after sampleStore sampleHistory) (.insert 0 [])).1 = .panic ∧
    (step sampleStore (after sampleStore sampleHistory) (opOpen 1)).1 = .panic := by decide +kernel

/-- C40: `Commit` and `Rollback` on any other transaction never take the lock from the one that
has it: only its own `unlock` does. -/
theorem C40_lock_kept (env : StoreEnv) (ops : List Op) (j : Nat) (op : Op)
    (hh : Holds (after env ops) j) (hop : op ≠ .unlock j) :
    Holds (step env (after env ops) op).2 j := by
  have hi : WInv (after env ops) := reach_inv ops
  obtain ⟨s, hs, hp⟩ := holds_iff.1 hh
  have mod : ∀ (i : Nat) (f : TxState → TxState),
      (∀ s0, (after env ops).txs[i]? = some s0 → s0.phase.holds = true → (f s0).phase.holds = true) →
      ∃ s', ((after env ops).txs.modify i f)[j]? = some s' ∧ s'.phase.holds = true := by
    intro i f hf
    refine ⟨_, modify_get.2 ⟨s, hs, rfl⟩, ?_⟩
    split
    · next hij => subst hij; exact hf s hs hp
    · exact hp
  have he := step_effect (env := env) (w := after env ops) op
  rw [holds_iff]
  revert he
  generalize step env (after env ops) op = q
  obtain ⟨r, w'⟩ := q
  intro he
  cases he with
  | same => exact ⟨s, hs, hp⟩
  | write ht hw =>
    rename_i i t wr
    obtain ⟨p, heap, _, _, _, _, _, e⟩ := writeStep_spec hi ht (applyWrite env t wr)
    show ∃ s, ((after env ops).writeStep i (applyWrite env t wr)).txs[j]? = some s ∧ s.phase.holds = true
    rw [e]
    exact mod i _ (fun s0 _ h => h)
  | begin =>
    have := (List.getElem?_eq_some_iff.1 hs).1
    exact ⟨s, by simp only; rw [List.getElem?_append_left this]; exact hs, hp⟩
  | read hs1 hp1 => exact mod _ _ (fun s0 _ _ => rfl)
  | commit => exact mod _ _ (fun s0 _ _ => rfl)
  | rollback => exact mod _ _ (fun s0 _ _ => rfl)
  | unlock hs1 hp1 _ =>
    exact absurd (congrArg Op.unlock (holder_unique hi hs1 hs
      (by rcases hp1 with e | e <;> rw [e] <;> rfl) hp)) hop
  | forget hs1 hp1 =>
    refine mod _ _ ?_
    intro s0 h0 hh0
    rw [hs1] at h0
    cases h0
    rw [hp1] at hh0
    cases hh0
  | tables => exact ⟨s, hs, hp⟩
  | rows => exact mod _ _ (fun s0 _ h => h)
  | next => exact ⟨s, hs, hp⟩
  | refs => exact ⟨s, hs, hp⟩
  | close => exact mod _ _ (fun s0 _ h => h)

/-- C40: the mutex is never unlocked when it is not locked. -/
theorem C40_never_fatal (env : StoreEnv) (ops : List Op) (op : Op) :
    (step env (after env ops) op).1 ≠ .fatal := by
  have hi : WInv (after env ops) := reach_inv ops
  have wt : ∀ {i} {f : Tree → Reply × World}, (∀ t, (f t).1 ≠ .fatal) →
      ((after env ops).withTree i f).1 ≠ .fatal := by
    intro i f hf
    unfold World.withTree
    split
    · exact hf _
    · split <;> simp
  have unit : ∀ r, Reply.ofUnit r ≠ .fatal := by
    intro r; unfold Reply.ofUnit; split <;> simp
  cases op <;> simp only [step]
  case beginLock => split <;> simp
  case beginRead => split <;> simp
  case commit => split <;> try split
                 all_goals simp
  case rollback => split <;> try split
                   all_goals simp
  case unlock i =>
    split
    · next hs =>
      have := (hi.holder _ _ hs rfl).2
      rw [if_pos this]; simp
    · next hs =>
      have := (hi.holder _ _ hs rfl).2
      rw [if_pos this]; simp
    · simp
  case forget => split <;> simp
  case openTable => exact wt (fun t => by split <;> simp)
  case createTable => exact wt (fun t => by split <;> simp)
  case dropTable => exact wt (fun t => by split <;> simp)
  case rows =>
    split
    · simp
    · exact wt (fun t => by split <;> simp)
  case insert =>
    split
    · simp
    · exact wt (fun t => unit _)
  case next => split <;> try split
               all_goals simp
  case current => split <;> try split
                  all_goals simp
  case close => split <;> try split
                all_goals simp
  case update =>
    split
    · simp
    · refine wt (fun t => ?_)
      split
      · simp
      · simp
      · exact unit _
  case delete =>
    split
    · simp
    · exact wt (fun t => by split <;> simp)

example : (step sampleStore (after sampleStore (sampleHistory.take 5)) (.forget 0)).1 = .done ∧
    (step sampleStore (after sampleStore sampleHistory) (.commit 0)).1 = .err .other := by decide +kernel

/-! ### C42, C43: definitions over histories -/

/-- C42: once a definition of a table is committed, every transaction sees it until the table is
dropped. -/
theorem C42_definition_stays (env : StoreEnv) (ops later : List Op) (tid : TableId) (tt : TableType)
    (hd : ∀ i, Op.dropTable i tid ∉ ops ++ later)
    (hc : getTableType env (committed (after env ops)) tid = .ok (some tt)) (i : Nat) (t : Tree)
    (ht : (after env (ops ++ later)).treeOf i = some t) :
    getTableType env t tid = .ok (some tt) ∧
    openTable env t tid tt.name tt.columnNames tt.columnTypes tt.key = .ok ⟨tid, tt⟩ := by
  have h1 := tInv_after (env := env) (ops := ops) (tid := tid)
    (fun i hm => hd i (List.mem_append_left _ hm))
  have h2 := run_keeps later (fun i hm => hd i (List.mem_append_right _ hm)) h1 hc
  have h3 := tInv_after (env := env) hd
  unfold after at h2 h3 ht
  rw [run_append] at h3 ht
  have := h3.keeps tt h2 i t ht
  exact ⟨this, openTable_ok.2 ⟨tt, this, rfl, rfl, rfl, rfl, rfl⟩⟩

/-- C42: a definition a transaction sees is committed with it. -/
theorem C42_definition_committed (env : StoreEnv) (ops : List Op) (i : Nat) (t : Tree) (tid : TableId)
    (ht : (after env ops).treeOf i = some t) (hr : (step env (after env ops) (.commit i)).1 = .done) :
    getTableType env (committed (step env (after env ops) (.commit i)).2) tid = getTableType env t tid := by
  rcases effect_committed (reach_inv (env := env) ops) (step_effect (env := env) (.commit i)) with
    ⟨j, e, _, h⟩ | ⟨h1, _⟩
  · cases e
    unfold after at ht
    rw [ht] at h
    cases h
    rfl
  · exact absurd hr (h1 i rfl)

/-- C43: a table that does not exist and was never dropped has no rows, so it is empty when it is
created. Missing: tables that were dropped, see `C43_recreated_table_not_empty`. -/
theorem C43_created_empty_partial (env : StoreEnv) (ops : List Op) (tid : TableId)
    (hd : ∀ i, Op.dropTable i tid ∉ ops) (i : Nat) (t t' : Tree)
    (ht : (after env ops).treeOf i = some t) (tn : TableName) (colNames : List Identifier)
    (colTypes : List ColumnType) (primary : Option (List ColumnKey))
    (hc : createTable env t tid tn colNames colTypes primary = .ok t') : rowsOf t' tid = [] := by
  obtain ⟨hge, hnone, _⟩ := createTable_ok.1 hc
  have hinv := tInv_after (env := env) hd
  have hok := hinv.trees i t ht
  have := createTable_other hok.sorted hc (rel_ne_types hge 0#32)
  rw [rowsOf_congr this]
  unfold rowsOf
  rw [List.map_eq_nil_iff, List.filter_eq_nil_iff]
  intro it hit hr
  exact hok.empty hge hnone it hit (by simpa using hr)

example : getTableType sampleStore (committed (after sampleStore (sampleHistory.take 6))) 512#32 =
    .ok (some sampleType) := by decide +kernel

example : ∃ t t', (after sampleStore (opsBegin 0)).treeOf 0 = some t ∧
    createTable sampleStore t 512#32 sampleType.name sampleType.columnNames sampleType.columnTypes
      (some sampleType.key) = .ok t' := ⟨[], _, by decide +kernel, rfl⟩

/-! ### C44: open scans -/

/-- C44: an active transaction can be committed or rolled back exactly when every scan it opened
has been closed; otherwise the call panics and changes nothing. -/
theorem C44_open_scans (env : StoreEnv) (ops : List Op) (i : Nat) (hact : Active (after env ops) i)
    (op : Op) (hop : op = .commit i ∨ op = .rollback i) :
    ((step env (after env ops) op).1 = .done ↔
      ∀ n e, (after env ops).rows[n]? = some e → e.tx = i → n ∈ closes env World.initial ops) ∧
    ((step env (after env ops) op).1 ≠ .done → step env (after env ops) op = (.panic, after env ops)) := by
  have hi : WInv (after env ops) := reach_inv ops
  obtain ⟨⟨ph, p, k⟩, hs, hp⟩ := hact
  simp only at hp
  subst hp
  have hk := hi.count i _ hs
  simp only at hk
  have hall : k = 0 ↔ ∀ n e, (after env ops).rows[n]? = some e → e.tx = i → n ∈ closes env World.initial ops := by
    rw [hk]
    constructor
    · intro h0 n e he htx
      have h0 : openRows (after env ops) i = 0 := by omega
      unfold openRows at h0
      rw [List.countP_eq_zero] at h0
      have := h0 e (List.mem_of_getElem? he)
      simp only [decide_eq_true_eq, not_and] at this
      have hneg := this htx
      apply Classical.byContradiction
      intro hn
      exact hneg ((open_iff ops n e he).2 hn)
    · intro h
      have : openRows (after env ops) i = 0 := by
        unfold openRows
        rw [List.countP_eq_zero]
        intro e hm
        obtain ⟨n, hn, hne⟩ := List.mem_iff_getElem.1 hm
        have he : (after env ops).rows[n]? = some e := by rw [List.getElem?_eq_getElem hn, hne]
        simp only [decide_eq_true_eq, not_and]
        intro htx hnext
        exact (open_iff ops n e he).1 hnext (h n e he htx)
      omega
  rw [← hall]
  rcases hop with rfl | rfl
  · simp only [step, hs]
    by_cases h0 : k = 0
    · simp [h0]
    · simp [h0]
  · simp only [step, hs]
    by_cases h0 : k = 0
    · simp [h0]
    · simp [h0]

/-- C44: a scan once closed stays closed: `Close` and `Next` on it panic. -/
theorem C44_closed_panics (env : StoreEnv) (ops : List Op) (n : Nat) (hc : n ∈ closes env World.initial ops) :
    (step env (after env ops) (.next n)).1 = .panic ∧
      step env (after env ops) (.close n) = (.panic, after env ops) := by
  have hlt := closes_length ops n hc
  have he : (after env ops).rows[n]? = some ((after env ops).rows[n]'hlt) := List.getElem?_eq_getElem hlt
  have hneg : ¬ 0 ≤ ((after env ops).rows[n]'hlt).obj.next := fun h =>
    (open_iff ops n _ he).1 h hc
  constructor
  · rw [step_next he]
    unfold RowsObj.nextRow
    rw [if_pos (by omega)]
    rfl
  · rcases step_close (env := env) he with ⟨h, _⟩ | ⟨_, h⟩
    · exact absurd h hneg
    · exact h

example : Active (after sampleStore sampleHistory) 2 ∧
    (step sampleStore (after sampleStore sampleHistory) (.commit 2)).1 = .panic ∧
    (step sampleStore (after sampleStore (sampleHistory ++ [.close 0])) (.commit 2)).1 = .done ∧
    0 ∈ closes sampleStore World.initial (sampleHistory ++ [.close 0]) := by
  refine ⟨⟨⟨.active, 3, 1⟩, ?_, rfl⟩, ?_, ?_, ?_⟩ <;> decide +kernel

end Maho
