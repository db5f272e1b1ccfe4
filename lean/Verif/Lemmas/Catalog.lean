import Verif.Lemmas.EngineSample
/-
Invariants of catalogs, long names, and replies after a history.
-/
namespace Maho
open Spec

/-! ### Replies after a history -/

/-- The state after a history of operations on a new store. -/
def stateAfter (env : EngineEnv) (ops : List EngineOp) : EngineState :=
  (engineRun env (EngineState.initial env) ops).2

/-- The reply to an operation after a history. -/
def replyAfter (env : EngineEnv) (ops : List EngineOp) (op : EngineOp) : EngineReply :=
  (engineStep env (stateAfter env ops) op).1

/-- The catalog after a history. -/
def catalogAfter (env : EngineEnv) (ops : List EngineOp) : CatalogState :=
  (catalogRun env ⟨Catalog.initial env, none⟩ ops).2

theorem engineRun_append (env : EngineEnv) : ∀ (a b : List EngineOp) (s : EngineState),
    engineRun env s (a ++ b) =
      ((engineRun env s a).1 ++ (engineRun env (engineRun env s a).2 b).1,
        (engineRun env (engineRun env s a).2 b).2)
  | [], _, _ => rfl
  | op :: a, b, s => by simp [engineRun, engineRun_append env a b]

theorem catalogRun_append (env : EngineEnv) : ∀ (a b : List EngineOp) (s : CatalogState),
    catalogRun env s (a ++ b) =
      ((catalogRun env s a).1 ++ (catalogRun env (catalogRun env s a).2 b).1,
        (catalogRun env (catalogRun env s a).2 b).2)
  | [], _, _ => rfl
  | op :: a, b, s => by simp [catalogRun, catalogRun_append env a b]

theorem stateAfter_snoc (env : EngineEnv) (ops : List EngineOp) (op : EngineOp) :
    stateAfter env (ops ++ [op]) = (engineStep env (stateAfter env ops) op).2 := by
  simp [stateAfter, engineRun_append, engineRun]

theorem catalogAfter_snoc (env : EngineEnv) (ops : List EngineOp) (op : EngineOp) :
    catalogAfter env (ops ++ [op]) = (catalogStep env (catalogAfter env ops) op).2 := by
  simp [catalogAfter, catalogRun_append, catalogRun]

theorem rep_after {env : EngineEnv} (hf : SystemFits env) {ops : List EngineOp}
    (hs : ∀ op ∈ ops, SmallOp env op) : RepState env (stateAfter env ops) (catalogAfter env ops) :=
  (engine_run ops (initial_rep env hf).2 hs).2

theorem reply_after {env : EngineEnv} (hf : SystemFits env) {ops : List EngineOp}
    (hs : ∀ op ∈ ops, SmallOp env op) {op : EngineOp} (hop : SmallOp env op) :
    replyAfter env ops op = (catalogStep env (catalogAfter env ops) op).1 :=
  (engine_step (rep_after hf hs) op hop).1

theorem active_after {env : EngineEnv} (hf : SystemFits env) {ops : List EngineOp}
    (hs : ∀ op ∈ ops, SmallOp env op) :
    (stateAfter env ops).active.isSome = (catalogAfter env ops).active.isSome := by
  have := (rep_after hf hs).2
  revert this
  cases (stateAfter env ops).active <;> cases (catalogAfter env ops).active <;> simp

/-! ### Long names -/

theorem typedSelect_panic {σ : Type} {env : EngineEnv} {ti : TypedInfo} {t : Tree}
    (h : TypedOk env ti t) {st : Struct} {mx : Option Struct} (hp : ti.structToRow st = .panic)
    (fn : Table → Bytes → Row → σ × Tree → Res Unit × (σ × Tree)) (x : σ) :
    typedSelect env ti (some st) mx fn (x, t) = (.panic, (x, t)) := by
  unfold typedSelect
  rw [h.openTyped]
  simp [TypedInfo.boundRow, hp]

theorem typedLookup_panic {env : EngineEnv} {ti : TypedInfo} {t : Tree}
    (h : TypedOk env ti t) {st : Struct} (hp : ti.structToRow st = .panic) :
    typedLookup env t ti st = .panic := by
  unfold typedLookup
  rw [typedSelect_panic h hp]

theorem typedInsert_panic {env : EngineEnv} {ti : TypedInfo} {t : Tree}
    (h : TypedOk env ti t) {st : Struct} (hp : ti.structToRow st = .panic) :
    typedInsert env t ti [st] = (.panic, t) := by
  unfold typedInsert
  rw [h.openTyped]
  simp [TypedInfo.structsToRows, hp]

theorem schStruct_long (env : EngineEnv) {d s : Bytes} (h : 128 < d.length ∨ 128 < s.length) :
    (schemasInfo env).structToRow (schemasRow d s) = .panic := by
  have hd := Nat.lt_or_ge 128 d.length
  simp [TypedInfo.structToRow, schemasInfo_eq, schemasRow, schemasFields, fieldsToRow, fieldToValue, nameColumn,
    scalarToValue, stringToValue]
  rcases hd with hd | hd
  · simp [hd]
  · have hs : 128 < s.length := by omega
    simp [Nat.not_lt.2 hd, hs]

theorem tblStruct_long (env : EngineEnv) {d s n : Bytes} {i : BitVec 64} {b : Option Bytes}
    (h : 128 < d.length ∨ 128 < s.length ∨ 128 < n.length) :
    (tablesInfo env).structToRow (tablesRow d s n i b) = .panic := by
  have hd := Nat.lt_or_ge 128 d.length
  have hs := Nat.lt_or_ge 128 s.length
  simp [TypedInfo.structToRow, tablesInfo_eq, tablesRow, tablesFields, fieldsToRow, fieldToValue, nameColumn,
    scalarToValue, stringToValue]
  rcases hd with hd | hd
  · simp [hd]
  · rcases hs with hs | hs
    · simp [Nat.not_lt.2 hd, hs]
    · have hn : 128 < n.length := by omega
      simp [Nat.not_lt.2 hd, Nat.not_lt.2 hs, hn]

theorem tblStruct_big (env : EngineEnv) {d s n : Bytes} {i : BitVec 64} {b : Bytes}
    (h : 8192 < b.length) :
    (tablesInfo env).structToRow (tablesRow d s n i (some b)) = .panic := by
  have hd := Nat.lt_or_ge 128 d.length
  have hs := Nat.lt_or_ge 128 s.length
  have hn := Nat.lt_or_ge 128 n.length
  by_cases hl : 128 < d.length ∨ 128 < s.length ∨ 128 < n.length
  · exact tblStruct_long env hl
  · have h1 : ¬ 128 < d.length := by omega
    have h2 : ¬ 128 < s.length := by omega
    have h3 : ¬ 128 < n.length := by omega
    simp [TypedInfo.structToRow, tablesInfo_eq, tablesRow, tablesFields, fieldsToRow, fieldToValue, nameColumn,
      numberColumn, scalarToValue, stringToValue, sliceToValue, h1, h2, h3, h]

theorem Rep.openTable_long {env : EngineEnv} {t : Tree} {c : Catalog} (h : Rep env t c)
    {tn : TableName} (hl : ¬ (Short env tn.database ∧ Short env tn.schema ∧ Short env tn.table)) :
    openEngineTable env t tn = .panic := by
  unfold openEngineTable
  rw [typedLookup_panic h.tbls (tblStruct_long env (by unfold Short at hl; omega))]

theorem Rep.listSchemas_long {env : EngineEnv} {t : Tree} {c : Catalog} (h : Rep env t c)
    {dn : Identifier} (hl : ¬ Short env dn) : Maho.listSchemas env t dn = .panic := by
  unfold Maho.listSchemas
  rw [typedLookup_panic h.dbs (dbStruct_long env (by unfold Short at hl; omega))]

theorem Rep.createDatabase_long {env : EngineEnv} {t : Tree} {c : Catalog} (h : Rep env t c)
    {dn : Identifier} (hl : ¬ Short env dn) : createDatabaseTx env t dn = (.panic, t) := by
  unfold createDatabaseTx
  rw [typedInsert_panic h.dbs (dbStruct_long env (by unfold Short at hl; omega))]

/-! ### Ids -/

/-- What holds of the ids of the tables in a catalog. -/
structure IdsOk (env : EngineEnv) (c : Catalog) : Prop where
  newest : c.tables.Pairwise (fun a b => b.id < a.id)
  below : ∀ e ∈ c.tables, e.id < c.next
  names : c.tables.Pairwise (fun a b => ¬ b.named a.database a.schema a.table = true)
  user : ∀ e ∈ c.tables, 512 ≤ e.id ∨ e ∈ (Catalog.initial env).tables
  next : 512 ≤ c.next

theorem idsOk_initial (env : EngineEnv) : IdsOk env (Catalog.initial env) := by
  refine ⟨?_, ?_, ?_, fun e he => .inr he, Nat.le_refl _⟩
  · simp [Catalog.initial, systemTables]
  · simp [Catalog.initial, systemTables]
  · have h1 : ascii "databases" ≠ ascii "sequences" := by decide
    simp only [Catalog.initial, systemTables, List.map_cons, List.map_nil, List.reverse_cons,
      List.reverse_nil, List.nil_append, List.cons_append, List.pairwise_cons, List.mem_cons,
      List.not_mem_nil, or_false, forall_eq_or_imp, forall_eq, false_implies, implies_true,
      List.Pairwise.nil, and_true, CatalogTable.named, Bool.and_eq_true, beq_iff_eq, true_and]
    decide

theorem IdsOk.of_tables {env : EngineEnv} {c c' : Catalog} (h : IdsOk env c) (ht : c'.tables = c.tables)
    (hn : c.next ≤ c'.next) : IdsOk env c' := by
  refine ⟨?_, ?_, ?_, ?_, Nat.le_trans h.next hn⟩
  · rw [ht]; exact h.newest
  · rw [ht]; intro e he; exact Nat.lt_of_lt_of_le (h.below e he) hn
  · rw [ht]; exact h.names
  · rw [ht]; exact h.user

theorem createTable_ids {env : EngineEnv} {c : Catalog} (h : IdsOk env c) (d s n : Bytes)
    (df : Definition) : IdsOk env (c.createTable d s n df).2 ∧
      (c.createTable d s n df).2.next ≤ c.next + 1 := by
  unfold Catalog.createTable
  split
  · exact ⟨h, by simp⟩
  · split
    · exact ⟨h.of_tables rfl (by simp), by simp⟩
    · next hno =>
      refine ⟨⟨?_, ?_, ?_, ?_, ?_⟩, by simp⟩
      · exact List.pairwise_cons.2 ⟨fun e he => h.below e he, h.newest⟩
      · intro e he
        rcases List.mem_cons.1 he with rfl | he
        · simp
        · exact Nat.lt_succ_of_lt (h.below e he)
      · refine List.pairwise_cons.2 ⟨?_, h.names⟩
        intro e he hnm
        apply hno
        rw [Catalog.find, List.find?_isSome]
        exact ⟨e, he, hnm⟩
      · intro e he
        rcases List.mem_cons.1 he with rfl | he
        · exact .inl h.next
        · exact h.user e he
      · exact Nat.le_succ_of_le h.next

/-- The invariant for both catalogs of a state, with a bound for the next id. -/
def IdsState (env : EngineEnv) (n : Nat) (s : CatalogState) : Prop :=
  (IdsOk env s.committed ∧ s.committed.next ≤ n) ∧
    ∀ c, s.active = some c → IdsOk env c ∧ c.next ≤ n

theorem IdsState.mono {env : EngineEnv} {n m : Nat} {s : CatalogState} (h : IdsState env n s)
    (hm : n ≤ m) : IdsState env m s :=
  ⟨⟨h.1.1, Nat.le_trans h.1.2 hm⟩, fun c hc => ⟨(h.2 c hc).1, Nat.le_trans (h.2 c hc).2 hm⟩⟩

theorem ids_write {env : EngineEnv} {n : Nat} {s : CatalogState} (h : IdsState env n s)
    {f : Catalog → Bool × Catalog}
    (hf : ∀ c, IdsOk env c → IdsOk env (f c).2 ∧ (f c).2.next ≤ c.next + 1) :
    IdsState env (n + 1) (s.write f).2 := by
  unfold CatalogState.write
  split
  · exact h.mono (Nat.le_succ n)
  · next c hc =>
    refine ⟨(h.mono (Nat.le_succ n)).1, ?_⟩
    intro c' hc'
    simp only [Option.some.injEq] at hc'
    subst hc'
    obtain ⟨h1, h2⟩ := h.2 c hc
    exact ⟨(hf c h1).1, Nat.le_trans (hf c h1).2 (Nat.succ_le_succ h2)⟩

theorem ids_auto {env : EngineEnv} {n : Nat} {s : CatalogState} (h : IdsState env n s)
    {f : Catalog → Bool × Catalog}
    (hf : ∀ c, IdsOk env c → IdsOk env (f c).2 ∧ (f c).2.next ≤ c.next + 1) :
    IdsState env (n + 1) (s.auto f).2 := by
  unfold CatalogState.auto
  split
  · exact h.mono (Nat.le_succ n)
  · simp only
    split
    · refine ⟨⟨(hf _ h.1.1).1, Nat.le_trans (hf _ h.1.1).2 (Nat.succ_le_succ h.1.2)⟩, ?_⟩
      intro c hc; cases hc
    · exact h.mono (Nat.le_succ n)

theorem ids_same {env : EngineEnv} {c c' : Catalog} (h : IdsOk env c) (h1 : c'.tables = c.tables)
    (h2 : c'.next = c.next) : IdsOk env c' ∧ c'.next ≤ c.next + 1 :=
  ⟨h.of_tables h1 (by omega), by omega⟩

theorem ids_step {env : EngineEnv} {n : Nat} {s : CatalogState} (h : IdsState env n s)
    (op : EngineOp) : IdsState env (n + 1) (catalogStep env s op).2 := by
  have hm := h.mono (Nat.le_succ n)
  cases op with
  | createDatabase dn opts =>
    simp only [catalogStep]
    split
    · exact hm
    · refine ids_auto h (fun c hc => ?_)
      unfold Catalog.createDatabase
      split <;> exact ids_same hc rfl rfl
  | dropDatabase dn ie =>
    refine ids_auto h (fun c hc => ?_)
    unfold Catalog.dropDatabase
    split <;> exact ids_same hc rfl rfl
  | listDatabases => simp only [catalogStep]; split <;> exact hm
  | begin =>
    simp only [catalogStep]
    split
    · exact hm
    · refine ⟨hm.1, ?_⟩
      intro c hc
      simp only [Option.some.injEq] at hc
      subst hc; exact hm.1
  | commit =>
    simp only [catalogStep]
    split
    · next c hc => exact ⟨hm.2 c hc, fun c hc => nomatch hc⟩
    · exact hm
  | rollback =>
    simp only [catalogStep]
    split
    · exact ⟨hm.1, fun c hc => nomatch hc⟩
    · exact hm
  | createSchema sn =>
    refine ids_write (f := fun c => c.createSchema _ _) h (fun c hc => ?_)
    simp only [Catalog.createSchema]
    split
    · exact ids_same hc rfl rfl
    · split <;> exact ids_same hc rfl rfl
  | dropSchema sn ie =>
    refine ids_write (f := fun c => c.dropSchema _ _ ie) h (fun c hc => ?_)
    simp only [Catalog.dropSchema]
    split <;> exact ids_same hc rfl rfl
  | listSchemas dn => simp only [catalogStep, CatalogState.read]; split <;> exact hm
  | openTable tn => simp only [catalogStep, CatalogState.read]; split <;> exact hm
  | createTable tn cn ct p => exact ids_write h (fun c hc => createTable_ids hc _ _ _ _)
  | dropTable tn => exact hm
  | listTables sn => exact hm
  | createIndex tn i k => exact hm
  | dropIndex tn i => exact hm

theorem ids_run {env : EngineEnv} (ops : List EngineOp) : ∀ {n : Nat} {s : CatalogState},
    IdsState env n s → IdsState env (n + ops.length) (catalogRun env s ops).2 := by
  induction ops with
  | nil => intro n s h; exact h
  | cons op ops ih =>
    intro n s h
    have := ih (ids_step h op)
    simp only [catalogRun, List.length_cons]
    rw [show n + (ops.length + 1) = n + 1 + ops.length by omega]
    exact this

theorem ids_after (env : EngineEnv) (ops : List EngineOp) :
    IdsState env (512 + ops.length) (catalogAfter env ops) :=
  ids_run ops ⟨⟨idsOk_initial env, Nat.le_refl _⟩, fun _ hc => nomatch hc⟩

/-- Two different entries have different ids. -/
theorem IdsOk.id_inj {env : EngineEnv} {c : Catalog} (h : IdsOk env c) {a b : CatalogTable}
    (ha : a ∈ c.tables) (hb : b ∈ c.tables) (he : a.id = b.id) : a = b := by
  have hp := h.newest
  generalize c.tables = l at ha hb hp
  induction l with
  | nil => cases ha
  | cons x xs ih =>
    obtain ⟨h1, h2⟩ := List.pairwise_cons.1 hp
    rcases List.mem_cons.1 ha with ea | ha'
    · rcases List.mem_cons.1 hb with eb | hb'
      · rw [ea, eb]
      · have := h1 b hb'; subst ea; omega
    · rcases List.mem_cons.1 hb with eb | hb'
      · have := h1 a ha'; subst eb; omega
      · exact ih ha' hb' h2

theorem find_mem {c : Catalog} {d s n : Bytes} {e : CatalogTable} (h : c.find d s n = some e) :
    e ∈ c.tables ∧ e.database = d ∧ e.schema = s ∧ e.table = n := by
  have h1 : e.named d s n = true :=
    List.find?_some (p := fun e : CatalogTable => e.named d s n) h
  simp [CatalogTable.named, and_assoc] at h1
  exact ⟨List.mem_of_find?_eq_some h, h1⟩

end Maho
