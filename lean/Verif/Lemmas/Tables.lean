import Verif.Lemmas.History
import Verif.Lemmas.TableTypes
/-
A table that is never dropped: its definition and its rows in every tree of every history.
-/
namespace Maho
open Spec

/-- The store is sorted whatever is written. -/
theorem applyWrite_sorted {env : StoreEnv} {t : Tree} (hs : SortedTree t) (wr : Write) :
    SortedTree (applyWrite env t wr) := by
  cases wr with
  | create tid tn cn ct key =>
    simp only [applyWrite]
    split
    · next t' h =>
      obtain ⟨_, _, _, _, _, _, _, rfl⟩ := createTable_ok.1 h
      exact Tree.sorted_put hs _
    · exact hs
  | drop tid =>
    simp only [applyWrite]
    split
    · next t' h =>
      obtain ⟨_, hd⟩ := dropTable_ok.1 h
      exact (Tree.delete_some hs hd).1
    · exact hs
  | insert tbl rows => exact insertRows_sorted hs _
  | update tbl key cols vals => exact updateRow_sorted hs
  | delete tbl key =>
    simp only [applyWrite]
    split
    · next t' h => exact (deleteRow_ok hs h).1
    · exact hs

/-- What a tree of a history looks like to table `tid`. -/
structure TidOk (env : StoreEnv) (tid : TableId) (t : Tree) : Prop where
  sorted : SortedTree t
  types : TypesOk env t
  engine : ∀ id tt, getTableType env t id = .ok (some tt) → engineTableId ≤ id
  empty : engineTableId ≤ tid → getTableType env t tid = .ok none →
    ∀ it ∈ t, it.rel ≠ toRelationId tid 0#32
  kept : ∀ tt, getTableType env t tid = .ok (some tt) →
    Kept tid tt.columnTypes tt.key t ∧ KeyColumnsExist tt

theorem tidOk_nil (env : StoreEnv) (tid : TableId) : TidOk env tid [] := by
  have hn : ∀ id, getTableType env [] id = .ok none := fun id =>
    getTableType_none.2 (fun _ h => nomatch h)
  refine ⟨sortedTree_nil, (fun _ h => nomatch h), ?_, (fun _ _ _ h => nomatch h), ?_⟩
  · intro id tt h; rw [hn] at h; cases h
  · intro tt h; rw [hn] at h; cases h

/-- A write made with a handle opened for the table, and not dropping it. -/
def WriteOk (env : StoreEnv) (tid : TableId) (t : Tree) : Write → Prop
  | .create .. => True
  | .drop id => id ≠ tid
  | .insert tbl _ | .update tbl _ _ _ | .delete tbl _ =>
    engineTableId ≤ tbl.tid ∧ (tbl.tid = tid → getTableType env t tid = .ok (some tbl.tt))

theorem keyColumnsExist_mapIds {tt : TableType} {f : Identifier → Identifier} :
    KeyColumnsExist (tt.mapIds f) ↔ KeyColumnsExist tt := Iff.rfl

theorem tidOk_of_rows {env : StoreEnv} {tid : TableId} {t t' : Tree} (h : TidOk env tid t)
    (hs : SortedTree t') {tbl : Table} (hge : engineTableId ≤ tbl.tid)
    (htt : tbl.tid = tid → getTableType env t tid = .ok (some tbl.tt))
    (hother : ∀ rel, toRelationId tbl.tid 0#32 ≠ rel →
      t'.filter (fun it => it.rel == rel) = t.filter (fun it => it.rel == rel))
    (hkept : ∀ cts key, Kept tid cts key t →
      (tbl.tid = tid → tbl.tt.columnTypes = cts ∧ tbl.tt.key = key) → Kept tid cts key t') :
    TidOk env tid t' ∧ ∀ id, getTableType env t' id = getTableType env t id := by
  have e := hother tableTypesRelation (rel_ne_types hge _).symm
  have hg : ∀ id, getTableType env t' id = getTableType env t id := fun id =>
    getTableType_congr hs e id
  refine ⟨⟨hs, h.types.congr e, ?_, ?_, ?_⟩, hg⟩
  · intro id tt hid; rw [hg] at hid; exact h.engine id tt hid
  · intro hge2 hn it hit hr
    rw [hg] at hn
    have hne : tbl.tid ≠ tid := by
      intro he; rw [htt he] at hn; cases hn
    have hm := (mem_rel_congr (hother (toRelationId tid 0#32)
      (fun e => hne (toRelationId_inj e).1)) hr).1 hit
    exact h.empty hge2 hn it hm hr
  · intro tt hid
    rw [hg] at hid
    obtain ⟨h1, h2⟩ := h.kept tt hid
    refine ⟨hkept _ _ h1 ?_, h2⟩
    intro he
    have := htt he
    rw [hid] at this
    injection this with this
    injection this with this
    rw [this]
    exact ⟨rfl, rfl⟩

theorem applyWrite_tidOk {env : StoreEnv} {tid : TableId} {t : Tree} (h : TidOk env tid t)
    {wr : Write} (hw : WriteOk env tid t wr) :
    TidOk env tid (applyWrite env t wr) ∧
      ∀ tt, getTableType env t tid = .ok (some tt) →
        getTableType env (applyWrite env t wr) tid = .ok (some tt) := by
  cases wr with
  | create id tn cn ct key =>
    simp only [applyWrite]
    split
    · next t' hc =>
      obtain ⟨hge, hnone, hlen, k, hk, hro, hin, rfl⟩ := createTable_ok.1 hc
      have hs' := Tree.sorted_put h.sorted (⟨tableTypesRelation, typeKey id,
        [tidValue id, some (.bytes (env.encodeType ⟨1#32, tn, cn, ct, k⟩))]⟩ : Item)
      have hty : TypesOk env (t.put ⟨tableTypesRelation, typeKey id,
          [tidValue id, some (.bytes (env.encodeType ⟨1#32, tn, cn, ct, k⟩))]⟩) :=
        h.types.put (fun _ => ⟨id, _, rfl, rfl⟩)
      have hsome : getTableType env (t.put ⟨tableTypesRelation, typeKey id,
          [tidValue id, some (.bytes (env.encodeType ⟨1#32, tn, cn, ct, k⟩))]⟩) id =
          .ok (some ((⟨1#32, tn, cn, ct, k⟩ : TableType).mapIds env.storedId)) :=
        (getTableType_some hs' hty).2 ⟨_, rfl, (Tree.mem_put h.sorted).2 (.inl rfl)⟩
      refine ⟨⟨hs', hty, ?_, ?_, ?_⟩, ?_⟩
      · intro id' tt hid
        by_cases he : id' = id
        · subst he; exact hge
        · rw [getTableType_put_other h.sorted he] at hid
          exact h.engine id' tt hid
      · intro hge2 hn it hit hr
        by_cases he : tid = id
        · subst he; rw [hsome] at hn; cases hn
        · rw [getTableType_put_other h.sorted he] at hn
          rcases Tree.mem_put_sub hit with rfl | hit
          · exact rel_ne_types hge2 _ hr
          · exact h.empty hge2 hn it hit hr
      · intro tt hid
        by_cases he : tid = id
        · subst he
          rw [hsome] at hid
          injection hid with hid
          injection hid with hid
          subst hid
          refine ⟨⟨?_, ?_⟩, ?_⟩
          · intro it hit hr
            rcases Tree.mem_put_sub hit with rfl | hit
            · exact absurd hr (rel_ne_types hge _)
            · exact absurd hr (h.empty hge hnone it hit)
          · intro it hit hr
            rcases Tree.mem_put_sub hit with rfl | hit
            · exact absurd hr (rel_ne_types hge _)
            · exact absurd hr (h.empty hge hnone it hit)
          · intro kc hkc
            obtain ⟨ck, hck, rfl⟩ := List.mem_map.1 hkc
            have := hin ck hck
            rw [hlen] at this
            exact this
        · rw [getTableType_put_other h.sorted he] at hid
          obtain ⟨h1, h2⟩ := h.kept tt hid
          refine ⟨h1.put (fun hr => ?_), h2⟩
          exact absurd hr (rel_ne_types (h.engine tid tt hid) _)
      · intro tt hid
        by_cases he : tid = id
        · subst he; rw [hnone] at hid; cases hid
        · rw [getTableType_put_other h.sorted he]; exact hid
    · exact ⟨h, fun _ h => h⟩
  | drop id =>
    have hne : tid ≠ id := fun e => hw e.symm
    simp only [applyWrite]
    split
    · next t' hd =>
      obtain ⟨⟨tt0, _⟩, hd⟩ := dropTable_ok.1 hd
      have hs' := (Tree.delete_some h.sorted hd).1
      have hty := h.types.delete hd
      have hg := getTableType_delete_other (env := env) h.sorted hne hd
      refine ⟨⟨hs', hty, ?_, ?_, ?_⟩, ?_⟩
      · intro id' tt hid
        apply h.engine id' tt
        obtain ⟨tt1, e1, hm⟩ := (getTableType_some hs' hty).1 hid
        exact (getTableType_some h.sorted h.types).2 ⟨tt1, e1, (((Tree.delete_some h.sorted hd).2.1 _).1 hm).1⟩
      · intro hge2 hn it hit hr
        rw [hg] at hn
        exact h.empty hge2 hn it (((Tree.delete_some h.sorted hd).2.1 _).1 hit).1 hr
      · intro tt hid
        rw [hg] at hid
        obtain ⟨h1, h2⟩ := h.kept tt hid
        exact ⟨h1.delete hd, h2⟩
      · intro tt hid; rw [hg]; exact hid
    · exact ⟨h, fun _ h => h⟩
  | insert tbl rows =>
    have := tidOk_of_rows h (insertRows_sorted (env := env) (tbl := tbl) h.sorted rows) hw.1 hw.2
      (fun rel hr => insertRows_other h.sorted rows hr) (fun cts key hk hsame => insertRows_kept hk hsame rows)
    exact ⟨this.1, fun tt ht => by simp only [applyWrite]; rw [this.2]; exact ht⟩
  | update tbl key cols vals =>
    have := tidOk_of_rows h (updateRow_sorted (env := env) (tbl := tbl) (key := key) (cols := cols) (vals := vals) h.sorted)
      hw.1 hw.2
      (fun rel hr => updateRow_other h.sorted hr) (fun cts key hk hsame => updateRow_kept h.sorted hk hsame)
    exact ⟨this.1, fun tt ht => by simp only [applyWrite]; rw [this.2]; exact ht⟩
  | delete tbl key =>
    simp only [applyWrite]
    split
    · next t' hd =>
      obtain ⟨hs', _, _, _, _, _, hdel⟩ := deleteRow_ok h.sorted hd
      have := tidOk_of_rows h hs' hw.1 hw.2
        (fun rel hr => deleteRow_other h.sorted hd hr) (fun cts key hk hsame => hk.delete hdel)
      exact ⟨this.1, fun tt ht => by rw [this.2]; exact ht⟩
    · exact ⟨h, fun _ h => h⟩

/-- The transactions and tables of the objects that can be used to write. -/
def handles (w : World) : List (Nat × Table) :=
  w.tables.map (fun e => (e.tx, e.tbl)) ++ w.rows.map (fun e => (e.tx, e.tbl)) ++
    w.refs.map (fun e => (e.tx, e.tbl))

theorem mem_handles {w : World} {p : Nat × Table} : p ∈ handles w ↔
    (∃ e ∈ w.tables, p = (e.tx, e.tbl)) ∨ (∃ e ∈ w.rows, p = (e.tx, e.tbl)) ∨
      (∃ e ∈ w.refs, p = (e.tx, e.tbl)) := by
  unfold handles
  simp only [List.mem_append, List.mem_map, or_assoc, eq_comm (a := p)]

/-- A handle comes from opening the table. -/
theorem effect_handles {env : StoreEnv} {w w' : World} {op : Op} {r : Reply} (hi : WInv w)
    (h : Effect env w op r w') (p : Nat × Table) (hp : p ∈ handles w') :
    p ∈ handles w ∨ ∃ t, w.treeOf p.1 = some t ∧ w'.treeOf p.1 = some t ∧
      getTableType env t p.2.tid = .ok (some p.2.tt) := by
  cases h with
  | same => exact .inl hp
  | write ht hw =>
    rename_i i t wr
    obtain ⟨q, heap, _, _, _, _, _, e⟩ := writeStep_spec hi ht (applyWrite env t wr)
    rw [e] at hp
    exact .inl hp
  | begin => exact .inl hp
  | read => exact .inl hp
  | commit => exact .inl hp
  | rollback => exact .inl hp
  | unlock => exact .inl hp
  | forget => exact .inl hp
  | tables ht ho =>
    rename_i i t tid tn cn ct key tbl
    obtain ⟨tt, hg, rfl, _⟩ := openTable_ok.1 ho
    rcases mem_handles.1 hp with ⟨e, he, rfl⟩ | h | h
    · rcases List.mem_append.1 he with he | he
      · exact .inl (mem_handles.2 (.inl ⟨e, he, rfl⟩))
      · rw [List.mem_singleton] at he
        subst he
        exact .inr ⟨t, ht, ht, hg⟩
    · exact .inl (mem_handles.2 (.inr (.inl h)))
    · exact .inl (mem_handles.2 (.inr (.inr h)))
  | rows htb ht hr =>
    rename_i n i tbl t cols mn mx pred rs
    left
    rcases mem_handles.1 hp with h | ⟨e, he, rfl⟩ | h
    · exact mem_handles.2 (.inl h)
    · rcases List.mem_append.1 he with he | he
      · exact mem_handles.2 (.inr (.inl ⟨e, he, rfl⟩))
      · rw [List.mem_singleton] at he
        subst he
        exact mem_handles.2 (.inl ⟨_, List.mem_of_getElem? htb, rfl⟩)
    · exact mem_handles.2 (.inr (.inr h))
  | next he =>
    rename_i n e0
    left
    rcases mem_handles.1 hp with h | ⟨e, hm, rfl⟩ | h
    · exact mem_handles.2 (.inl h)
    · rcases List.mem_or_eq_of_mem_set hm with hm | rfl
      · exact mem_handles.2 (.inr (.inl ⟨e, hm, rfl⟩))
      · exact mem_handles.2 (.inr (.inl ⟨_, List.mem_of_getElem? he, rfl⟩))
    · exact mem_handles.2 (.inr (.inr h))
  | refs he hc =>
    rename_i n e0 key
    left
    rcases mem_handles.1 hp with h | h | ⟨e, hm, rfl⟩
    · exact mem_handles.2 (.inl h)
    · exact mem_handles.2 (.inr (.inl h))
    · rcases List.mem_append.1 hm with hm | hm
      · exact mem_handles.2 (.inr (.inr ⟨e, hm, rfl⟩))
      · rw [List.mem_singleton] at hm
        subst hm
        exact mem_handles.2 (.inr (.inl ⟨_, List.mem_of_getElem? he, rfl⟩))
  | close he hn =>
    left
    rcases mem_handles.1 hp with h | ⟨e, hm, rfl⟩ | h
    · exact mem_handles.2 (.inl h)
    · rcases List.mem_or_eq_of_mem_set hm with hm | rfl
      · exact mem_handles.2 (.inr (.inl ⟨e, hm, rfl⟩))
      · exact mem_handles.2 (.inr (.inl ⟨_, List.mem_of_getElem? he, rfl⟩))
    · exact mem_handles.2 (.inr (.inr h))

/-- The invariant of histories that do not drop table `tid`. -/
structure TInv (env : StoreEnv) (tid : TableId) (w : World) : Prop where
  inv : WInv w
  committed : TidOk env tid (committed w)
  trees : ∀ (i : Nat) (t : Tree), w.treeOf i = some t → TidOk env tid t
  keeps : ∀ (tt : TableType), getTableType env (Spec.committed w) tid = .ok (some tt) →
    ∀ (i : Nat) (t : Tree), w.treeOf i = some t → getTableType env t tid = .ok (some tt)
  begun : ∀ p ∈ handles w, ∃ s, w.txs[p.1]? = some s ∧ s.phase ≠ .begun
  engine : ∀ p ∈ handles w, engineTableId ≤ p.2.tid
  handle : ∀ p ∈ handles w, p.2.tid = tid → ∀ t, w.treeOf p.1 = some t →
    getTableType env t tid = .ok (some p.2.tt)

theorem tInv_initial (env : StoreEnv) (tid : TableId) : TInv env tid World.initial := by
  have ht : ∀ i, World.initial.treeOf i = none := by
    intro i; simp [treeOf_eq, World.initial]
  refine ⟨wInv_initial, tidOk_nil env tid, ?_, ?_, ?_, ?_, ?_⟩
  · intro i t h; rw [ht] at h; cases h
  · intro tt _ i t h; rw [ht] at h; cases h
  · intro p hp; exact nomatch hp
  · intro p hp; exact nomatch hp
  · intro p hp; exact nomatch hp

theorem TInv.writeOk {env : StoreEnv} {tid : TableId} {w : World} (h : TInv env tid w) {op : Op}
    (hop : ∀ i, op ≠ .dropTable i tid) {i : Nat} {wr : Write} (hw : writeOf w op = some (i, wr))
    {t : Tree} (ht : w.treeOf i = some t) : WriteOk env tid t wr := by
  have use : ∀ (p : Nat × Table), p ∈ handles w → p.1 = i → engineTableId ≤ p.2.tid ∧
      (p.2.tid = tid → getTableType env t tid = .ok (some p.2.tt)) := by
    intro p hp hpi
    subst hpi
    exact ⟨h.engine p hp, fun he => h.handle p hp he t ht⟩
  unfold writeOf at hw
  cases op <;> simp only at hw <;> try (cases hw; done)
  case createTable => split at hw <;> cases hw; trivial
  case dropTable tx id =>
    split at hw <;> cases hw
    intro he
    exact hop i (by rw [he])
  case insert n rows =>
    split at hw
    · next e he =>
      split at hw <;> cases hw
      exact use _ (mem_handles.2 (.inl ⟨e, List.mem_of_getElem? he, rfl⟩)) rfl
    · cases hw
  case update n cols vals =>
    split at hw
    · next e he =>
      split at hw <;> cases hw
      exact use _ (mem_handles.2 (.inr (.inr ⟨e, List.mem_of_getElem? he, rfl⟩))) rfl
    · cases hw
  case delete n =>
    split at hw
    · next e he =>
      split at hw <;> cases hw
      exact use _ (mem_handles.2 (.inr (.inr ⟨e, List.mem_of_getElem? he, rfl⟩))) rfl
    · cases hw

theorem treeAfter_tidOk {env : StoreEnv} {tid : TableId} {w : World} (h : TInv env tid w) {op : Op}
    (hop : ∀ i, op ≠ .dropTable i tid) {j : Nat} {t : Tree} (ht : w.treeOf j = some t) :
    TidOk env tid (treeAfter env w op j t) ∧
      ∀ tt, getTableType env t tid = .ok (some tt) →
        getTableType env (treeAfter env w op j t) tid = .ok (some tt) := by
  unfold treeAfter
  split
  · next i wr hwo =>
    split
    · next hij =>
      subst hij
      exact applyWrite_tidOk (h.trees _ t ht) (h.writeOk hop hwo ht)
    · exact ⟨h.trees j t ht, fun _ h => h⟩
  · exact ⟨h.trees j t ht, fun _ h => h⟩

/-- Two transactions do not hold the store. -/
theorem holder_unique {w : World} (hi : WInv w) {i j : Nat} {s s' : TxState} (h1 : w.txs[i]? = some s)
    (h2 : w.txs[j]? = some s') (p1 : s.phase.holds = true) (p2 : s'.phase.holds = true) : i = j := by
  have a := (hi.holder i s h1 p1).1
  have b := (hi.holder j s' h2 p2).1
  omega

theorem treeOf_unique {w : World} (hi : WInv w) {i j : Nat} {t t' : Tree} (h1 : w.treeOf i = some t)
    (h2 : w.treeOf j = some t') : i = j := by
  obtain ⟨s, hs, hp, _⟩ := treeOf_some.1 h1
  obtain ⟨s', hs', hp', _⟩ := treeOf_some.1 h2
  exact holder_unique hi hs hs' (by rw [hp]; rfl) (by rw [hp']; rfl)

/-- After a commit nobody is active. -/
theorem effect_commit_none {env : StoreEnv} {w w' : World} {i : Nat} (hi : WInv w)
    (h : Effect env w (.commit i) .done w') (j : Nat) : w'.treeOf j = none := by
  cases h with
  | same _ hc => exact absurd rfl (hc i rfl)
  | write ht hw => simp [writeOf] at hw
  | commit hs hp hr =>
    rename_i s
    rw [show World.treeOf { w.setTx i (fun s => { s with phase := .published }) with storeTree := s.tree } j =
      (w.setTx i (fun s => { s with phase := .published })).treeOf j from treeOf_congr rfl rfl,
      setTx_treeOf]
    split
    · rfl
    · next s1 hs1 =>
      by_cases hij : i = j
      · simp [hij]
      · simp only [hij, if_false]
        rw [if_neg]
        intro hp1
        exact hij (holder_unique hi hs hs1 (by rw [hp]; rfl) (by rw [hp1]; rfl))

theorem effect_tInv {env : StoreEnv} {tid : TableId} {w w' : World} {op : Op} {r : Reply}
    (h : TInv env tid w) (hop : ∀ i, op ≠ .dropTable i tid) (he : Effect env w op r w') :
    TInv env tid w' := by
  have hi := h.inv
  have hphase : ∀ p ∈ handles w, ∃ s, w'.txs[p.1]? = some s ∧ s.phase ≠ .begun := by
    intro p hp
    obtain ⟨s, hs, hb⟩ := h.begun p hp
    obtain ⟨s', hs', hr⟩ := effect_phase hi he p.1 s hs
    refine ⟨s', hs', fun e => ?_⟩
    rw [e] at hr
    cases hph : s.phase <;> rw [hph] at hr <;> simp [Phase.rank] at hr
    exact hb hph
  have htree : ∀ (i : Nat) (t' : Tree), w'.treeOf i = some t' → TidOk env tid t' := by
    intro i t' ht'
    rcases effect_tree hi he i t' ht' with ⟨t, ht, rfl⟩ | ⟨_, _, rfl⟩
    · exact (treeAfter_tidOk h hop ht).1
    · exact h.committed
  refine ⟨effect_inv hi he, ?_, htree, ?_, ?_, ?_, ?_⟩
  · rcases effect_committed hi he with ⟨i, _, _, ht⟩ | ⟨_, e⟩
    · exact h.trees i _ ht
    · rw [e]; exact h.committed
  · intro tt htt i t' ht'
    rcases effect_committed hi he with ⟨j, rfl, rfl, ht⟩ | ⟨_, e⟩
    · rw [effect_commit_none hi he i] at ht'; cases ht'
    · rw [e] at htt
      rcases effect_tree hi he i t' ht' with ⟨t, ht, rfl⟩ | ⟨_, _, rfl⟩
      · exact (treeAfter_tidOk h hop ht).2 tt (h.keeps tt htt i t ht)
      · exact htt
  · intro p hp
    rcases effect_handles hi he p hp with hp | ⟨t, ht, ht', _⟩
    · exact hphase p hp
    · obtain ⟨s, hs, hph, _⟩ := treeOf_some.1 ht'
      exact ⟨s, hs, by rw [hph]; simp⟩
  · intro p hp
    rcases effect_handles hi he p hp with hp | ⟨t, ht, ht', hg⟩
    · exact h.engine p hp
    · exact (h.trees _ t ht).engine _ _ hg
  · intro p hp hid t' ht'
    rcases effect_handles hi he p hp with hp | ⟨t, ht, ht2, hg⟩
    · rcases effect_tree hi he p.1 t' ht' with ⟨t, ht, rfl⟩ | ⟨hn, hb, rfl⟩
      · exact (treeAfter_tidOk h hop ht).2 _ (h.handle p hp hid t ht)
      · exfalso
        obtain ⟨s, hs, hb2⟩ := h.begun p hp
        subst hb
        cases he with
        | same hw hc => rw [hn] at ht'; cases ht'
        | write ht hw => simp [writeOf] at hw
        | read hs1 hp1 => rw [hs] at hs1; cases hs1; exact hb2 hp1
    · rw [ht2] at ht'
      cases ht'
      rw [← hid]; exact hg

theorem run_tInv {env : StoreEnv} {tid : TableId} (ops : List Op) : ∀ {w : World},
    (∀ i, Op.dropTable i tid ∉ ops) → TInv env tid w → TInv env tid (run env w ops).2 := by
  induction ops with
  | nil => intro w _ h; exact h
  | cons op ops ih =>
    intro w hop h
    refine ih (fun i hm => hop i (List.mem_cons_of_mem _ hm)) (effect_tInv h ?_ (step_effect op))
    rintro i rfl
    exact hop i (List.mem_cons_self ..)

/-- The committed definition of a table that is not dropped stays. -/
theorem run_keeps {env : StoreEnv} {tid : TableId} {tt : TableType} (ops : List Op) : ∀ {w : World},
    (∀ i, Op.dropTable i tid ∉ ops) → TInv env tid w →
    getTableType env (committed w) tid = .ok (some tt) →
    getTableType env (committed (run env w ops).2) tid = .ok (some tt) := by
  induction ops with
  | nil => intro w _ _ h; exact h
  | cons op ops ih =>
    intro w hop h htt
    have hop1 : ∀ i, op ≠ .dropTable i tid := by
      rintro i rfl
      exact hop i (List.mem_cons_self ..)
    refine ih (fun i hm => hop i (List.mem_cons_of_mem _ hm)) (effect_tInv h hop1 (step_effect op)) ?_
    rcases effect_committed h.inv (step_effect (env := env) (w := w) op) with ⟨i, _, _, ht⟩ | ⟨_, e⟩
    · exact h.keeps tt htt i _ ht
    · show getTableType env (committed (step env w op).2) tid = _
      rw [e]; exact htt

end Maho
