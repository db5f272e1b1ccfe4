import Verif.Lemmas.Writes
/-
Lemmas about the relation that holds the table types.
-/
namespace Maho
open Spec

/-- The key of a table id in the relation of table types. -/
def typeKey (tid : TableId) : Bytes := rowKey tableTypesKey [tidValue tid]

theorem typeKey_row (tid : TableId) (rest : Row) :
    makeKey tableTypesKey (tidValue tid :: rest) = .ok (typeKey tid) := by
  have h : HasColumns (keyCols tableTypesKey) (tidValue tid :: rest) := by
    intro kc hkc
    have : kc = (0, false) := by
      have : keyCols tableTypesKey = [(0, false)] := by decide
      rw [this] at hkc
      simpa using hkc
    subst this
    simp
  rw [makeKey_eq h]
  congr 1

theorem typeKey_inj {a b : TableId} (h : typeKey a = typeKey b) : a = b := by
  have h1 : bytesCompare (typeKey a) (typeKey b) = .eq := bytesCompare_eq_iff.2 h
  unfold typeKey at h1
  rw [rowKey_compare, rowOrder_eq_iff] at h1
  have := h1 (0, false) (by decide)
  simp only [List.getD_cons_zero, tidValue, SameKeyValue] at this
  injection this with this
  injection this with this
  have h2 := congrArg BitVec.toNat this
  apply BitVec.eq_of_toNat_eq
  have ha := a.isLt
  have hb := b.isLt
  simp only [BitVec.toNat_setWidth] at h2
  omega

/-- The relation of table types holds one encoded type per table id. -/
def TypesOk (env : StoreEnv) (t : Tree) : Prop :=
  ∀ it ∈ t, it.rel = tableTypesRelation → ∃ tid tt, it.key = typeKey tid ∧
    it.row = [tidValue tid, some (.bytes (env.encodeType tt))]

theorem rowToItem_type (tid : TableId) (rest : Row) :
    rowToItem tableTypesRelation tableTypesKey (some (tidValue tid :: rest)) =
      .ok ⟨tableTypesRelation, typeKey tid, tidValue tid :: rest⟩ := by
  simp only [rowToItem]
  rw [typeKey_row]
  rfl

theorem samePlace_congr {a b c : Item} (hr : b.rel = c.rel) (hk : b.key = c.key) :
    SamePlace a b ↔ SamePlace a c := by
  unfold SamePlace; rw [hr, hk]

theorem getTableType_some {env : StoreEnv} {t : Tree} (hs : SortedTree t) (hok : TypesOk env t)
    {tid : TableId} {tt : TableType} :
    getTableType env t tid = .ok (some tt) ↔ ∃ tt0, tt = tt0.mapIds env.storedId ∧
      (⟨tableTypesRelation, typeKey tid, [tidValue tid, some (.bytes (env.encodeType tt0))]⟩ : Item) ∈ t := by
  unfold getTableType
  rw [rowToItem_type]
  simp only [Res.bind_ok]
  cases hg : t.get ⟨tableTypesRelation, typeKey tid, [tidValue tid]⟩ with
  | none =>
    simp only [Res.ok.injEq, reduceCtorEq, false_iff]
    rintro ⟨tt0, _, hm⟩
    exact Tree.get_none.1 hg _ hm ⟨rfl, rfl⟩
  | some it =>
    obtain ⟨hit, h1, h2⟩ := Tree.get_some hg
    obtain ⟨tid', tt0, hk, hrow⟩ := hok it hit h1
    have : tid' = tid := typeKey_inj (hk.symm.trans h2)
    subst this
    simp only [hrow, env.decode_encode]
    have hit' : it = ⟨tableTypesRelation, typeKey tid', [tidValue tid', some (.bytes (env.encodeType tt0))]⟩ := by
      cases it; simp only at h1 h2 hrow; simp [h1, h2, hrow]
    constructor
    · intro h; cases h; exact ⟨tt0, rfl, hit' ▸ hit⟩
    · rintro ⟨tt1, rfl, hm⟩
      have := hs.unique hit hm ⟨h1, h2⟩
      rw [this] at hrow
      simp only [List.cons.injEq, Option.some.injEq, Value.bytes.injEq, and_true, true_and] at hrow
      have e := env.decode_encode tt1
      rw [hrow, env.decode_encode] at e
      injection e with e
      rw [e]

theorem getTableType_none {env : StoreEnv} {t : Tree} {tid : TableId} :
    getTableType env t tid = .ok none ↔
      ∀ it ∈ t, ¬ (it.rel = tableTypesRelation ∧ it.key = typeKey tid) := by
  unfold getTableType
  rw [rowToItem_type]
  simp only [Res.bind_ok]
  cases hg : t.get ⟨tableTypesRelation, typeKey tid, [tidValue tid]⟩ with
  | none => simp only [true_iff]; exact Tree.get_none.1 hg
  | some it =>
    obtain ⟨hit, h1, h2⟩ := Tree.get_some hg
    constructor
    · intro h
      simp only at h
      split at h
      · split at h <;> cases h
      · cases h
    · intro h; exact absurd ⟨h1, h2⟩ (h it hit)

theorem getTableType_cases {env : StoreEnv} {t : Tree} (hs : SortedTree t) (hok : TypesOk env t)
    (tid : TableId) : ∃ o, getTableType env t tid = .ok o := by
  by_cases h : ∀ it ∈ t, ¬ (it.rel = tableTypesRelation ∧ it.key = typeKey tid)
  · exact ⟨_, getTableType_none.2 h⟩
  · simp only [Classical.not_forall, Classical.not_not] at h
    obtain ⟨it, hit, h1, h2⟩ := h
    obtain ⟨tid', tt0, hk, hrow⟩ := hok it hit h1
    have : tid' = tid := typeKey_inj (hk.symm.trans h2)
    subst this
    refine ⟨_, (getTableType_some hs hok).2 ⟨tt0, rfl, ?_⟩⟩
    cases it; simp only at h1 h2 hrow; rw [← h1, ← h2, ← hrow]; exact hit

/-- The stored type of a table depends only on the relation of table types. -/
theorem Tree.get_congr {t t' : Tree} (hs : SortedTree t) {it : Item}
    (h : t.filter (fun x => x.rel == it.rel) = t'.filter (fun x => x.rel == it.rel)) :
    t.get it = t'.get it := by
  have hm : ∀ x, SamePlace x it → (x ∈ t ↔ x ∈ t') := by
    intro x hp
    have e : x ∈ t.filter (fun x => x.rel == it.rel) ↔ x ∈ t'.filter (fun x => x.rel == it.rel) := by
      rw [h]
    simp only [List.mem_filter, hp.1, beq_self_eq_true, and_true] at e
    exact e
  cases hg : t.get it with
  | none =>
    symm
    rw [Tree.get_none]
    intro x hx hp
    exact Tree.get_none.1 hg x ((hm x hp).2 hx) hp
  | some y =>
    obtain ⟨hy, hp⟩ := Tree.get_some hg
    have hhas : t'.has it = true := Tree.has_iff.2 ⟨y, (hm y hp).1 hy, hp⟩
    unfold Tree.has at hhas
    obtain ⟨z, hz⟩ := Option.isSome_iff_exists.1 hhas
    obtain ⟨hz', hzp⟩ := Tree.get_some hz
    rw [hz]
    congr 1
    exact hs.unique hy ((hm z hzp).2 hz') ⟨hp.1.trans hzp.1.symm, hp.2.trans hzp.2.symm⟩

theorem getTableType_congr {env : StoreEnv} {t t' : Tree} (hs : SortedTree t)
    (h : t.filter (fun x => x.rel == tableTypesRelation) = t'.filter (fun x => x.rel == tableTypesRelation))
    (tid : TableId) : getTableType env t tid = getTableType env t' tid := by
  unfold getTableType
  rw [rowToItem_type]
  simp only [Res.bind_ok]
  rw [Tree.get_congr hs h]

theorem openTable_ok {env : StoreEnv} {t : Tree} {tid : TableId} {tn : TableName}
    {colNames : List Identifier} {colTypes : List ColumnType} {primary : List ColumnKey} {tbl : Table} :
    openTable env t tid tn colNames colTypes primary = .ok tbl ↔
      ∃ tt, getTableType env t tid = .ok (some tt) ∧ tbl = ⟨tid, tt⟩ ∧ tn = tt.name ∧
        colNames = tt.columnNames ∧ colTypes = tt.columnTypes ∧ primary = tt.key := by
  unfold openTable
  rw [Res.bind_eq_ok]
  constructor
  · rintro ⟨o, ho, h⟩
    cases o with
    | none => cases h
    | some tt =>
      simp only at h
      split at h
      · cases h
      · split at h
        · cases h
        · split at h
          · cases h
          · split at h
            · cases h
            · next h1 h2 h3 h4 =>
              cases h
              exact ⟨tt, ho, rfl, Decidable.not_not.1 h1, Decidable.not_not.1 h2,
                Decidable.not_not.1 h3, Decidable.not_not.1 h4⟩
  · rintro ⟨tt, ho, rfl, rfl, rfl, rfl, rfl⟩
    exact ⟨_, ho, by simp⟩

theorem openTable_no_err {env : StoreEnv} {t : Tree} {tid : TableId} {tn : TableName}
    {colNames : List Identifier} {colTypes : List ColumnType} {primary : List ColumnKey} {e : Err} :
    openTable env t tid tn colNames colTypes primary ≠ .err e := by
  unfold openTable getTableType
  rw [rowToItem_type]
  simp only [Res.bind_ok]
  cases t.get ⟨tableTypesRelation, typeKey tid, [tidValue tid]⟩ with
  | none => simp
  | some it =>
    simp only
    split
    · split
      · simp only [Res.bind_ok]
        split
        · simp
        · split
          · simp
          · split
            · simp
            · split <;> simp
      · simp
    · simp

theorem setTableType_eq (env : StoreEnv) (t : Tree) (tid : TableId) (tt : TableType) :
    setTableType env t tid tt = .ok (t.put ⟨tableTypesRelation, typeKey tid,
      [tidValue tid, some (.bytes (env.encodeType tt))]⟩) := by
  unfold setTableType
  rw [rowToItem_type]
  rfl

theorem deleteTableType_eq (t : Tree) (tid : TableId) :
    deleteTableType t tid = .ok (t.delete ⟨tableTypesRelation, typeKey tid, [tidValue tid]⟩) := by
  unfold deleteTableType
  rw [rowToItem_type]
  rfl

/-- The conditions `CreateTable` checks on the key columns. -/
def keyInRange (colNames : List Identifier) (primary : List ColumnKey) : Prop :=
  ∀ ck ∈ primary, (ColumnKey.column ck).toNat < colNames.length

theorem createTable_ok {env : StoreEnv} {t t' : Tree} {tid : TableId} {tn : TableName}
    {colNames : List Identifier} {colTypes : List ColumnType} {primary : Option (List ColumnKey)} :
    createTable env t tid tn colNames colTypes primary = .ok t' ↔
      engineTableId ≤ tid ∧ getTableType env t tid = .ok none ∧
      colNames.length = colTypes.length ∧ ∃ key, primary = some key ∧
      rowidMisused colNames colTypes key = false ∧ keyInRange colNames key ∧
      t' = t.put ⟨tableTypesRelation, typeKey tid,
        [tidValue tid, some (.bytes (env.encodeType ⟨1#32, tn, colNames, colTypes, key⟩))]⟩ := by
  unfold createTable
  by_cases h1 : tid < engineTableId
  · rw [if_pos h1]
    simp only [reduceCtorEq, false_iff]
    rintro ⟨h2, _⟩
    simp only [BitVec.lt_def, BitVec.le_def] at h1 h2
    omega
  · rw [if_neg h1]
    rw [Res.bind_eq_ok]
    have h1' : engineTableId ≤ tid := by
      simp only [BitVec.lt_def, BitVec.le_def] at h1 ⊢; omega
    constructor
    · rintro ⟨o, ho, h⟩
      cases o with
      | some tt => cases h
      | none =>
        simp only at h
        split at h
        · cases h
        · next hlen =>
          split at h
          · cases h
          · next key =>
            split at h
            · cases h
            · next hr =>
              split at h
              · cases h
              · next hk =>
                rw [setTableType_eq] at h
                cases h
                refine ⟨h1', ho, Decidable.not_not.1 hlen, key, rfl, by simpa using hr, ?_, rfl⟩
                intro ck hck
                have := hk
                simp only [List.any_eq_true, not_exists] at this
                have := this ck
                simp only [hck, decide_eq_true_eq, true_and] at this
                omega
    · rintro ⟨_, ho, hlen, key, rfl, hr, hk, rfl⟩
      refine ⟨none, ho, ?_⟩
      simp only
      rw [if_neg (by simpa using hlen)]
      rw [if_neg (by simp [hr]), if_neg, setTableType_eq]
      simp only [List.any_eq_true, not_exists, decide_eq_true_eq, not_and]
      intro ck hck
      have := hk ck hck
      omega

/-- `CreateTable` returns an error only for a misused rowid column. -/
theorem createTable_err {env : StoreEnv} {t : Tree} {tid : TableId} {tn : TableName}
    {colNames : List Identifier} {colTypes : List ColumnType} {primary : Option (List ColumnKey)}
    {e : Err} (h : createTable env t tid tn colNames colTypes primary = .err e) :
    ∃ key, primary = some key ∧ rowidMisused colNames colTypes key = true := by
  unfold createTable at h
  split at h
  · cases h
  · cases hg : getTableType env t tid with
    | panic => rw [hg] at h; cases h
    | err e' =>
      exfalso
      unfold getTableType at hg
      rw [rowToItem_type] at hg
      simp only [Res.bind_ok] at hg
      split at hg
      · cases hg
      · split at hg
        · split at hg <;> cases hg
        · cases hg
    | ok o =>
      rw [hg] at h
      simp only [Res.bind_ok] at h
      cases o with
      | some tt => cases h
      | none =>
        simp only at h
        split at h
        · cases h
        · split at h
          · cases h
          · next key =>
            split at h
            · next hr => exact ⟨key, rfl, hr⟩
            · split at h
              · cases h
              · rw [setTableType_eq] at h; cases h

theorem dropTable_ok {env : StoreEnv} {t t' : Tree} {tid : TableId} :
    dropTable env t tid = .ok t' ↔ (∃ tt, getTableType env t tid = .ok (some tt)) ∧
      t.delete ⟨tableTypesRelation, typeKey tid, [tidValue tid]⟩ = some t' := by
  unfold dropTable
  rw [Res.bind_eq_ok]
  constructor
  · rintro ⟨o, ho, h⟩
    cases o with
    | none => cases h
    | some tt =>
      simp only [deleteTableType_eq, Res.bind_ok] at h
      split at h
      · cases h
      · next hd => cases h; exact ⟨⟨tt, ho⟩, hd⟩
  · rintro ⟨⟨tt, ho⟩, hd⟩
    refine ⟨some tt, ho, ?_⟩
    simp only [deleteTableType_eq, Res.bind_ok, hd]

theorem dropTable_no_err {env : StoreEnv} {t : Tree} {tid : TableId} {e : Err} :
    dropTable env t tid ≠ .err e := by
  intro h
  unfold dropTable at h
  cases hg : getTableType env t tid with
  | panic => rw [hg] at h; cases h
  | err e' =>
    unfold getTableType at hg
    rw [rowToItem_type] at hg
    simp only [Res.bind_ok] at hg
    split at hg
    · cases hg
    · split at hg
      · split at hg <;> cases hg
      · cases hg
  | ok o =>
    rw [hg] at h
    simp only [Res.bind_ok] at h
    cases o with
    | none => cases h
    | some tt =>
      simp only [deleteTableType_eq, Res.bind_ok] at h
      split at h <;> cases h

theorem rel_ne_types {tid : TableId} (h : engineTableId ≤ tid) (iid : IndexId) :
    tableTypesRelation ≠ toRelationId tid iid := by
  intro e
  obtain ⟨e, _⟩ := toRelationId_inj e
  subst e
  simp [engineTableId, BitVec.le_def] at h

theorem TypesOk.put {env : StoreEnv} {t : Tree} (h : TypesOk env t) {it : Item}
    (hit : it.rel = tableTypesRelation → ∃ tid tt, it.key = typeKey tid ∧
      it.row = [tidValue tid, some (.bytes (env.encodeType tt))]) : TypesOk env (t.put it) := by
  intro x hx hr
  rcases Tree.mem_put_sub hx with rfl | hx
  · exact hit hr
  · exact h x hx hr

theorem TypesOk.delete {env : StoreEnv} {t t' : Tree} (h : TypesOk env t) {it : Item}
    (hd : t.delete it = some t') : TypesOk env t' := by
  obtain ⟨x, _, _, hp⟩ := Tree.delete_perm hd
  exact fun y hy => h y (hp.mem_iff.2 (List.mem_cons_of_mem _ hy))

/-- A property of the items of one relation depends only on that relation. -/
theorem mem_rel_congr {t t' : Tree} {rel : BitVec 64}
    (h : t'.filter (fun x => x.rel == rel) = t.filter (fun x => x.rel == rel)) {x : Item}
    (hr : x.rel = rel) : x ∈ t' ↔ x ∈ t := by
  have e : x ∈ t'.filter (fun x => x.rel == rel) ↔ x ∈ t.filter (fun x => x.rel == rel) := by rw [h]
  simpa only [List.mem_filter, hr, beq_self_eq_true, and_true] using e

theorem TypesOk.congr {env : StoreEnv} {t t' : Tree} (h : TypesOk env t)
    (e : t'.filter (fun x => x.rel == tableTypesRelation) = t.filter (fun x => x.rel == tableTypesRelation)) :
    TypesOk env t' :=
  fun x hx hr => h x ((mem_rel_congr e hr).1 hx) hr

theorem Kept.congr {tid : TableId} {cts key} {t t' : Tree} (h : Kept tid cts key t)
    (e : t'.filter (fun x => x.rel == toRelationId tid 0#32) =
      t.filter (fun x => x.rel == toRelationId tid 0#32)) : Kept tid cts key t' :=
  ⟨fun x hx hr => h.keyed x ((mem_rel_congr e hr).1 hx) hr,
   fun x hx hr => h.width x ((mem_rel_congr e hr).1 hx) hr⟩

theorem deleteRow_other {t t' : Tree} {tbl : Table} {key : Bytes} (hs : SortedTree t)
    (h : deleteRow t tbl key = .ok t') {rel : BitVec 64} (hrel : toRelationId tbl.tid 0#32 ≠ rel) :
    t'.filter (fun it => it.rel == rel) = t.filter (fun it => it.rel == rel) := by
  obtain ⟨_, _, _, _, _, _, hd⟩ := deleteRow_ok hs h
  exact Tree.filter_delete hs hd hrel

theorem createTable_other {env : StoreEnv} {t t' : Tree} {tid : TableId} {tn : TableName}
    {colNames : List Identifier} {colTypes : List ColumnType} {primary : Option (List ColumnKey)}
    (hs : SortedTree t) (h : createTable env t tid tn colNames colTypes primary = .ok t')
    {rel : BitVec 64} (hrel : tableTypesRelation ≠ rel) :
    t'.filter (fun it => it.rel == rel) = t.filter (fun it => it.rel == rel) := by
  obtain ⟨_, _, _, _, _, _, _, rfl⟩ := createTable_ok.1 h
  exact Tree.filter_put hs hrel

theorem dropTable_other {env : StoreEnv} {t t' : Tree} {tid : TableId}
    (hs : SortedTree t) (h : dropTable env t tid = .ok t')
    {rel : BitVec 64} (hrel : tableTypesRelation ≠ rel) :
    t'.filter (fun it => it.rel == rel) = t.filter (fun it => it.rel == rel) := by
  obtain ⟨_, hd⟩ := dropTable_ok.1 h
  exact Tree.filter_delete hs hd hrel

/-- Creating and dropping a table leave the types of the other tables. -/
theorem getTableType_put_other {env : StoreEnv} {t : Tree} (hs : SortedTree t) {tid tid' : TableId}
    (hne : tid' ≠ tid) {row : Row} :
    getTableType env (t.put ⟨tableTypesRelation, typeKey tid, row⟩) tid' = getTableType env t tid' := by
  have hg : (t.put ⟨tableTypesRelation, typeKey tid, row⟩).get ⟨tableTypesRelation, typeKey tid', [tidValue tid']⟩ =
      t.get ⟨tableTypesRelation, typeKey tid', [tidValue tid']⟩ := by
    have hs' := Tree.sorted_put hs (⟨tableTypesRelation, typeKey tid, row⟩ : Item)
    cases hg : t.get ⟨tableTypesRelation, typeKey tid', [tidValue tid']⟩ with
    | none =>
      rw [Tree.get_none]
      intro x hx hp
      rcases Tree.mem_put_sub hx with rfl | hx
      · exact hne (typeKey_inj hp.2.symm)
      · exact Tree.get_none.1 hg x hx hp
    | some y =>
      obtain ⟨hy, hp⟩ := Tree.get_some hg
      refine (Tree.get_eq hs').2 ⟨(Tree.mem_put hs).2 ?_, hp⟩
      right
      exact ⟨hy, fun hp' => hne (typeKey_inj (hp.2.symm.trans hp'.2))⟩
  unfold getTableType
  rw [rowToItem_type]
  simp only [Res.bind_ok]
  rw [hg]

theorem getTableType_delete_other {env : StoreEnv} {t t' : Tree} (hs : SortedTree t)
    {tid tid' : TableId} (hne : tid' ≠ tid) {row : Row}
    (hd : t.delete ⟨tableTypesRelation, typeKey tid, row⟩ = some t') :
    getTableType env t' tid' = getTableType env t tid' := by
  obtain ⟨hs', hm, _⟩ := Tree.delete_some hs hd
  have hg : t'.get ⟨tableTypesRelation, typeKey tid', [tidValue tid']⟩ =
      t.get ⟨tableTypesRelation, typeKey tid', [tidValue tid']⟩ := by
    cases hg : t.get ⟨tableTypesRelation, typeKey tid', [tidValue tid']⟩ with
    | none =>
      rw [Tree.get_none]
      intro x hx hp
      exact Tree.get_none.1 hg x ((hm x).1 hx).1 hp
    | some y =>
      obtain ⟨hy, hp⟩ := Tree.get_some hg
      refine (Tree.get_eq hs').2 ⟨(hm y).2 ⟨hy, ?_⟩, hp⟩
      exact fun hp' => hne (typeKey_inj (hp.2.symm.trans hp'.2))
  unfold getTableType
  rw [rowToItem_type]
  simp only [Res.bind_ok]
  rw [hg]

end Maho
