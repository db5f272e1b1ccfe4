import Verif.Lemmas.Storage
/-
Lemmas on the operations that change the tree.
-/
namespace Maho
open Spec

theorem Tree.put_perm {t : Tree} {it : Item} (h : t.has it = false) : (t.put it).Perm (it :: t) := by
  induction t with
  | nil => exact List.Perm.refl _
  | cons y ys ih =>
    have hn : ∀ x ∈ y :: ys, ¬ SamePlace x it := by
      intro x hx hp
      have := Tree.has_iff.2 ⟨x, hx, hp⟩
      rw [h] at this; cases this
    unfold Tree.put
    split
    · have : Tree.has ys it = false := by
        rw [Bool.eq_false_iff]
        intro h2
        obtain ⟨x, hx, hp⟩ := Tree.has_iff.1 h2
        exact hn x (List.mem_cons_of_mem _ hx) hp
      exact (List.Perm.cons y (ih this)).trans (List.Perm.swap it y ys)
    · split
      · exact List.Perm.refl _
      · next h1 h2 =>
        exact absurd (samePlace_iff.2 ⟨by simpa using h1, by simpa using h2⟩)
          (hn y (List.mem_cons_self ..))

theorem Tree.put_replace {t : Tree} (hs : SortedTree t) {it x : Item} (hx : x ∈ t) (hp : SamePlace x it) :
    ∃ rest : Tree, t.Perm (x :: rest) ∧ (t.put it).Perm (it :: rest) := by
  induction t with
  | nil => cases hx
  | cons y ys ih =>
    have hs' := List.pairwise_cons.1 hs
    unfold Tree.put
    split
    · next hlt =>
      rcases List.mem_cons.1 hx with rfl | hx
      · exact absurd hp (not_samePlace_of_less hlt)
      · obtain ⟨rest, h1, h2⟩ := ih hs'.2 hx
        exact ⟨y :: rest, (List.Perm.cons y h1).trans (List.Perm.swap _ _ _),
          (List.Perm.cons y h2).trans (List.Perm.swap _ _ _)⟩
    · split
      · next h1 hlt =>
        have hlx : lessItems it x = true := by
          rcases List.mem_cons.1 hx with rfl | hx
          · exact hlt
          · exact lessItems_trans hlt (hs'.1 x hx)
        exact absurd hp.symm (not_samePlace_of_less hlx)
      · next h1 h2 =>
        have hy : SamePlace y it := samePlace_iff.2 ⟨by simpa using h1, by simpa using h2⟩
        have : x = y := hs.unique hx (List.mem_cons_self ..) (hp.trans hy.symm)
        subst this
        exact ⟨ys, List.Perm.refl _, List.Perm.refl _⟩

theorem Tree.delete_perm {t t' : Tree} {it : Item} (h : t.delete it = some t') :
    ∃ x ∈ t, SamePlace x it ∧ t.Perm (x :: t') := by
  induction t generalizing t' with
  | nil => simp [Tree.delete] at h
  | cons y ys ih =>
    unfold Tree.delete at h
    split at h
    · obtain ⟨d, hd, rfl⟩ := Option.map_eq_some_iff.1 h
      obtain ⟨x, hx, hp, hperm⟩ := ih hd
      exact ⟨x, List.mem_cons_of_mem _ hx, hp,
        (List.Perm.cons y hperm).trans (List.Perm.swap _ _ _)⟩
    · split at h
      · cases h
      · next h1 h2 =>
        cases h
        exact ⟨y, List.mem_cons_self .., samePlace_iff.2 ⟨by simpa using h1, by simpa using h2⟩,
          List.Perm.refl _⟩

theorem Tree.filter_put {t : Tree} (hs : SortedTree t) {it : Item} {rel : BitVec 64}
    (h : it.rel ≠ rel) :
    (t.put it).filter (fun x => x.rel == rel) = t.filter (fun x => x.rel == rel) := by
  apply SortedTree.ext ((Tree.sorted_put hs it).filter _) (hs.filter _)
  intro x
  rw [List.mem_filter, List.mem_filter, Tree.mem_put hs]
  constructor
  · rintro ⟨rfl | ⟨h1, _⟩, h2⟩
    · simp at h2; exact absurd h2 h
    · exact ⟨h1, h2⟩
  · rintro ⟨h1, h2⟩
    refine ⟨.inr ⟨h1, ?_⟩, h2⟩
    rintro ⟨e, _⟩
    simp at h2
    exact h (e.symm.trans h2)

theorem Tree.filter_delete {t t' : Tree} (hs : SortedTree t) {it : Item} {rel : BitVec 64}
    (hd : t.delete it = some t') (h : it.rel ≠ rel) :
    t'.filter (fun x => x.rel == rel) = t.filter (fun x => x.rel == rel) := by
  obtain ⟨h1, h2, _⟩ := Tree.delete_some hs hd
  apply SortedTree.ext (h1.filter _) (hs.filter _)
  intro x
  rw [List.mem_filter, List.mem_filter, h2]
  constructor
  · rintro ⟨⟨h1, _⟩, h2⟩; exact ⟨h1, h2⟩
  · rintro ⟨h1, h2⟩
    refine ⟨⟨h1, ?_⟩, h2⟩
    rintro ⟨e, _⟩
    simp at h2
    exact h (e.symm.trans h2)

/-- The invariant of a table without reference to the order: keyed and of the right width. -/
structure Kept (tid : TableId) (cts : List ColumnType) (key : List ColumnKey) (t : Tree) : Prop where
  keyed : ∀ it ∈ t, it.rel = toRelationId tid 0#32 → makeKey key it.row = .ok it.key
  width : ∀ it ∈ t, it.rel = toRelationId tid 0#32 → it.row.length = cts.length

theorem tableOk_iff {tbl : Table} {t : Tree} :
    TableOk tbl t ↔ SortedTree t ∧ Kept tbl.tid tbl.tt.columnTypes tbl.tt.key t :=
  ⟨fun h => ⟨ascending_iff.1 h.sorted, h.keyed, h.width⟩,
   fun h => ⟨ascending_iff.2 h.1, h.2.keyed, h.2.width⟩⟩

theorem Kept.put {tid : TableId} {cts key} {t : Tree} (h : Kept tid cts key t) {it : Item}
    (hk : it.rel = toRelationId tid 0#32 → makeKey key it.row = .ok it.key ∧ it.row.length = cts.length) :
    Kept tid cts key (t.put it) := by
  constructor
  · intro x hx hr
    rcases Tree.mem_put_sub hx with rfl | hx
    · exact (hk hr).1
    · exact h.keyed x hx hr
  · intro x hx hr
    rcases Tree.mem_put_sub hx with rfl | hx
    · exact (hk hr).2
    · exact h.width x hx hr

theorem Kept.delete {tid : TableId} {cts key} {t t' : Tree} (h : Kept tid cts key t) {it : Item}
    (hd : t.delete it = some t') : Kept tid cts key t' := by
  obtain ⟨x, _, _, hp⟩ := Tree.delete_perm hd
  exact ⟨fun y hy => h.keyed y (hp.mem_iff.2 (List.mem_cons_of_mem _ hy)),
    fun y hy => h.width y (hp.mem_iff.2 (List.mem_cons_of_mem _ hy))⟩

theorem rowsOf_perm {s t : Tree} (h : s.Perm t) (tid : TableId) :
    (rowsOf s tid).Perm (rowsOf t tid) := by
  unfold rowsOf
  exact (h.filter _).map _

theorem rowsOf_cons_same {t : Tree} {it : Item} {tid : TableId} (h : it.rel = toRelationId tid 0#32) :
    rowsOf (it :: t) tid = it.row :: rowsOf t tid := by
  unfold rowsOf
  rw [List.filter_cons_of_pos (by simp [h])]
  rfl

theorem rowsOf_congr {s t : Tree} {tid : TableId}
    (h : s.filter (fun it => it.rel == toRelationId tid 0#32) =
      t.filter (fun it => it.rel == toRelationId tid 0#32)) : rowsOf s tid = rowsOf t tid := by
  unfold rowsOf
  rw [h]

theorem mem_rowsOf {t : Tree} {tid : TableId} {r : Row} :
    r ∈ rowsOf t tid ↔ ∃ it ∈ t, it.rel = toRelationId tid 0#32 ∧ it.row = r := by
  unfold rowsOf
  rw [List.mem_map]
  constructor
  · rintro ⟨it, h, rfl⟩
    obtain ⟨h1, h2⟩ := List.mem_filter.1 h
    exact ⟨it, h1, by simpa using h2, rfl⟩
  · rintro ⟨it, h1, h2, rfl⟩
    exact ⟨it, List.mem_filter.2 ⟨h1, by simp [h2]⟩, rfl⟩

theorem rowOrder_eq_symm {key : List KeyCol} {a b : Row} (h : rowOrder key a b = .eq) :
    rowOrder key b a = .eq := by
  rw [rowOrder_eq_iff] at *
  intro kc hk
  exact sameKeyValue_symm (h kc hk)

/-! ### Insert -/

/-- Inserting one row. -/
def insertOne (env : StoreEnv) (t : Tree) (tbl : Table) (row : Row) : Res Tree := do
  let c ← convertRow env.float tbl.tt.columnTypes row
  let it ← rowToItem (toRelationId tbl.tid primaryIndexId) tbl.tt.key (some c)
  if t.has it then .err .other else .ok (t.put it)

theorem insertRows_nil {env : StoreEnv} {t : Tree} {tbl : Table} :
    insertRows env t tbl [] = (.ok (), t) := rfl

theorem insertRows_cons {env : StoreEnv} {t : Tree} {tbl : Table} {row : Row} {rows : List Row} :
    insertRows env t tbl (row :: rows) =
      match insertOne env t tbl row with
      | .ok t' => insertRows env t' tbl rows
      | .err e => (.err e, t)
      | .panic => (.panic, t) := by
  conv => lhs; unfold insertRows
  unfold insertOne
  cases hc : convertRow env.float tbl.tt.columnTypes row with
  | panic => rfl
  | err e => rfl
  | ok c =>
    simp only [Res.bind_ok]
    cases hi : rowToItem (toRelationId tbl.tid primaryIndexId) tbl.tt.key (some c) with
    | panic => rfl
    | err e => rfl
    | ok it =>
      simp only [Res.bind_ok]
      cases hh : t.has it <;> simp

/-- The item of a row of the table. -/
def Table.item (tbl : Table) (c : Row) : Item := ⟨toRelationId tbl.tid 0#32, rowKey tbl.tt.key c, c⟩

theorem insertOne_ok {env : StoreEnv} {t t' : Tree} {tbl : Table} {row : Row} :
    insertOne env t tbl row = .ok t' ↔
      ∃ c, convertRow env.float tbl.tt.columnTypes row = .ok c ∧ HasColumns (keyCols tbl.tt.key) c ∧
        t.has (tbl.item c) = false ∧ t' = t.put (tbl.item c) := by
  unfold insertOne
  rw [Res.bind_eq_ok]
  constructor
  · rintro ⟨c, hc, h⟩
    rw [Res.bind_eq_ok] at h
    obtain ⟨it, hi, h⟩ := h
    obtain ⟨h1, rfl⟩ := rowToItem_some.1 hi
    split at h
    · cases h
    · next hh => cases h; exact ⟨c, hc, h1, by rw [Bool.eq_false_iff]; exact hh, rfl⟩
  · rintro ⟨c, hc, h1, hh, rfl⟩
    refine ⟨c, hc, ?_⟩
    rw [Res.bind_eq_ok]
    refine ⟨_, rowToItem_some.2 ⟨h1, rfl⟩, ?_⟩
    rw [if_neg (by rw [show (⟨toRelationId tbl.tid primaryIndexId, rowKey tbl.tt.key c, c⟩ : Item) = tbl.item c from rfl, hh]; simp)]
    rfl

/-- Induction over the rows an insert adds: anything that holds before and is kept by adding one
item of the table holds after, whatever the outcome. -/
theorem insertRows_induct {env : StoreEnv} {tbl : Table} (P : Tree → Prop) (rows : List Row) :
    ∀ t, P t → (∀ t c, P t → c.length = tbl.tt.columnTypes.length →
      HasColumns (keyCols tbl.tt.key) c → t.has (tbl.item c) = false → P (t.put (tbl.item c))) →
    P (insertRows env t tbl rows).2 := by
  induction rows with
  | nil => intro t h _; exact h
  | cons row rows ih =>
    intro t h hstep
    rw [insertRows_cons]
    cases ho : insertOne env t tbl row with
    | ok t' =>
      obtain ⟨c, hc, hcols, hh, rfl⟩ := insertOne_ok.1 ho
      exact ih _ (hstep t c h (convertRow_ok.1 hc).2.1 hcols hh) hstep
    | err e => exact h
    | panic => exact h

theorem insertRows_sorted {env : StoreEnv} {tbl : Table} {t : Tree} (hs : SortedTree t)
    (rows : List Row) : SortedTree (insertRows env t tbl rows).2 :=
  insertRows_induct SortedTree rows t hs (fun _ _ h _ _ _ => Tree.sorted_put h _)

theorem insertRows_kept {env : StoreEnv} {tbl : Table} {t : Tree} {tid : TableId} {cts key}
    (h : Kept tid cts key t) (hsame : tbl.tid = tid → tbl.tt.columnTypes = cts ∧ tbl.tt.key = key)
    (rows : List Row) : Kept tid cts key (insertRows env t tbl rows).2 := by
  refine insertRows_induct (Kept tid cts key) rows t h ?_
  intro t c ht hlen hcols _
  apply ht.put
  intro hrel
  obtain ⟨e, _⟩ := toRelationId_inj hrel
  obtain ⟨e1, e2⟩ := hsame e
  rw [e1] at hlen
  rw [e2] at hcols
  exact ⟨by simp only [Table.item]; rw [e2]; exact makeKey_eq hcols, hlen⟩

theorem insertRows_other {env : StoreEnv} {tbl : Table} {t : Tree} (hs : SortedTree t)
    (rows : List Row) {rel : BitVec 64} (hrel : toRelationId tbl.tid 0#32 ≠ rel) :
    (insertRows env t tbl rows).2.filter (fun it => it.rel == rel) =
      t.filter (fun it => it.rel == rel) := by
  have := insertRows_induct (env := env) (tbl := tbl)
    (fun t' => SortedTree t' ∧ t'.filter (fun it => it.rel == rel) = t.filter (fun it => it.rel == rel))
    rows t ⟨hs, rfl⟩ (by
      rintro t' c ⟨h1, h2⟩ _ _ _
      exact ⟨Tree.sorted_put h1 _, by rw [Tree.filter_put h1 (by exact hrel), h2]⟩)
  exact this.2

theorem has_iff_rowOrder {t : Tree} {tbl : Table} {c : Row}
    (hk : Kept tbl.tid tbl.tt.columnTypes tbl.tt.key t) :
    t.has (tbl.item c) = true ↔
      ∃ r ∈ rowsOf t tbl.tid, rowOrder (keyCols tbl.tt.key) c r = .eq := by
  rw [Tree.has_iff]
  constructor
  · rintro ⟨x, hx, h1, h2⟩
    refine ⟨x.row, mem_rowsOf.2 ⟨x, hx, h1, rfl⟩, ?_⟩
    have := (makeKey_ok_iff.1 (hk.keyed x hx h1)).2
    rw [← rowKey_compare, bytesCompare_eq_iff, ← this]
    exact h2.symm
  · rintro ⟨r, hr, ho⟩
    obtain ⟨x, hx, h1, rfl⟩ := mem_rowsOf.1 hr
    refine ⟨x, hx, h1, ?_⟩
    have := (makeKey_ok_iff.1 (hk.keyed x hx h1)).2
    rw [← rowKey_compare, bytesCompare_eq_iff] at ho
    rw [this]; exact ho.symm

theorem rowsOf_put_new {t : Tree} {tbl : Table} {c : Row} (hh : t.has (tbl.item c) = false) :
    (rowsOf (t.put (tbl.item c)) tbl.tid).Perm (c :: rowsOf t tbl.tid) := by
  have := rowsOf_perm (Tree.put_perm hh) tbl.tid
  rwa [rowsOf_cons_same rfl] at this

theorem insertRows_ok {env : StoreEnv} {tbl : Table} (rows : List Row) : ∀ {t : Tree}
    (_ : SortedTree t) (_ : Kept tbl.tid tbl.tt.columnTypes tbl.tt.key t),
    ((insertRows env t tbl rows).1 = .ok () ↔
      ∃ conv, All2 (fun r c => convertRow env.float tbl.tt.columnTypes r = .ok c) rows conv ∧
        (∀ c ∈ conv, HasColumns (keyCols tbl.tt.key) c) ∧
        NewKeys (keyCols tbl.tt.key) conv (rowsOf t tbl.tid)) ∧
    ∀ conv, (insertRows env t tbl rows).1 = .ok () →
      All2 (fun r c => convertRow env.float tbl.tt.columnTypes r = .ok c) rows conv →
      (rowsOf (insertRows env t tbl rows).2 tbl.tid).Perm (rowsOf t tbl.tid ++ conv) := by
  induction rows with
  | nil =>
    intro t hs hk
    refine ⟨⟨fun _ => ⟨[], All2.nil, by simp, by simp [NewKeys]⟩, fun _ => rfl⟩, ?_⟩
    intro conv _ hc
    cases hc
    simp [insertRows]
  | cons row rows ih =>
    intro t hs hk
    rw [insertRows_cons]
    by_cases hone : ∃ t', insertOne env t tbl row = .ok t'
    · obtain ⟨t', ho⟩ := hone
      rw [ho]
      simp only
      obtain ⟨c, hc, hcols, hh, rfl⟩ := insertOne_ok.1 ho
      have hs1 := Tree.sorted_put hs (tbl.item c)
      have hk1 : Kept tbl.tid tbl.tt.columnTypes tbl.tt.key (t.put (tbl.item c)) :=
        hk.put (fun _ => ⟨makeKey_eq hcols, (convertRow_ok.1 hc).2.1⟩)
      obtain ⟨ih1, ih2⟩ := ih hs1 hk1
      have hperm := rowsOf_put_new hh
      constructor
      · rw [ih1]
        constructor
        · rintro ⟨conv, h1, h2, h3, h4⟩
          refine ⟨c :: conv, All2.cons hc h1, ?_, ?_, ?_⟩
          · intro x hx
            rcases List.mem_cons.1 hx with rfl | hx
            · exact hcols
            · exact h2 x hx
          · refine List.pairwise_cons.2 ⟨?_, h3⟩
            intro x hx he
            exact h4 x hx c (hperm.mem_iff.2 (List.mem_cons_self ..)) (rowOrder_eq_symm he)
          · intro x hx r hr
            rcases List.mem_cons.1 hx with rfl | hx
            · intro he
              have := (has_iff_rowOrder hk).2 ⟨r, hr, he⟩
              rw [hh] at this; cases this
            · exact h4 x hx r (hperm.mem_iff.2 (List.mem_cons_of_mem _ hr))
        · rintro ⟨conv, h1, h2, h3, h4⟩
          cases h1 with
          | cons hc' h1 =>
            rename_i c' conv
            rw [hc] at hc'; cases hc'
            refine ⟨conv, h1, fun x hx => h2 x (List.mem_cons_of_mem _ hx),
              (List.pairwise_cons.1 h3).2, ?_⟩
            intro x hx r hr
            rcases List.mem_cons.1 (hperm.mem_iff.1 hr) with rfl | hr
            · intro he
              exact (List.pairwise_cons.1 h3).1 x hx (rowOrder_eq_symm he)
            · exact h4 x (List.mem_cons_of_mem _ hx) r hr
      · intro conv hok hconv
        cases hconv with
        | cons hc' h1 =>
          rename_i c' conv
          rw [hc] at hc'; cases hc'
          refine (ih2 conv hok h1).trans ?_
          refine (hperm.append_right conv).trans ?_
          simp only [List.cons_append]
          exact List.perm_middle.symm
    · have hbad : ∀ {α : Type} (f : Tree → α) (g : Err → α) (p : α), ∀ q : α → Prop,
          (∀ e, q (g e)) → q p →
          q (match insertOne env t tbl row with | .ok t' => f t' | .err e => g e | .panic => p) := by
        intro α f g p q h1 h2
        cases ho : insertOne env t tbl row with
        | ok t' => exact absurd ⟨t', ho⟩ hone
        | err e => exact h1 e
        | panic => exact h2
      have hne : ¬ (match insertOne env t tbl row with
          | .ok t' => insertRows env t' tbl rows
          | .err e => (.err e, t)
          | .panic => (.panic, t)).1 = Res.ok () :=
        hbad _ _ _ (fun x : Res Unit × Tree => ¬ x.1 = Res.ok ()) (fun e h => by cases h) (fun h => by cases h)
      refine ⟨⟨fun h => absurd h hne, ?_⟩, fun conv h => absurd h hne⟩
      rintro ⟨conv, h1, h2, h3, h4⟩
      cases h1 with
      | cons hc h1 =>
        rename_i c conv
        exfalso
        refine hone ⟨_, insertOne_ok.2 ⟨c, hc, h2 c (List.mem_cons_self ..), ?_, rfl⟩⟩
        rw [Bool.eq_false_iff]
        intro h
        obtain ⟨r, hr, ho⟩ := (has_iff_rowOrder hk).1 h
        exact h4 c (List.mem_cons_self ..) r hr ho

/-- An insert that does not succeed has done what inserting a proper prefix of its rows does. -/
theorem insertRows_fail {env : StoreEnv} {tbl : Table} (rows : List Row) : ∀ {t : Tree},
    (insertRows env t tbl rows).1 ≠ .ok () →
    ∃ pre row post, rows = pre ++ row :: post ∧ (insertRows env t tbl pre).1 = .ok () ∧
      (insertRows env t tbl rows).2 = (insertRows env t tbl pre).2 ∧
      insertRows env (insertRows env t tbl pre).2 tbl [row] =
        ((insertRows env t tbl rows).1, (insertRows env t tbl pre).2) := by
  induction rows with
  | nil => intro t h; exact absurd rfl h
  | cons row rows ih =>
    intro t h
    rw [insertRows_cons] at h ⊢
    cases ho : insertOne env t tbl row with
    | ok t' =>
      rw [ho] at h
      obtain ⟨pre, r, post, e1, e2, e3, e4⟩ := ih h
      have hpre : insertRows env t tbl (row :: pre) = insertRows env t' tbl pre := by
        rw [insertRows_cons, ho]
      exact ⟨row :: pre, r, post, by rw [e1]; rfl, by rw [hpre]; exact e2, by rw [hpre]; exact e3,
        by rw [hpre]; exact e4⟩
    | err e =>
      refine ⟨[], row, rows, rfl, rfl, rfl, ?_⟩
      rw [insertRows_nil, insertRows_cons, ho]
    | panic =>
      refine ⟨[], row, rows, rfl, rfl, rfl, ?_⟩
      rw [insertRows_nil, insertRows_cons, ho]

/-! ### Delete and update -/

theorem assignColumns_ok {pairs : List (ColumnNum × Option Value)} : ∀ {row r : Row},
    (assignColumns row pairs = .ok r ↔ (∀ p ∈ pairs, p.1.toNat < row.length) ∧
      r = pairs.foldl (fun r p => r.set p.1.toNat p.2) row) := by
  induction pairs with
  | nil => intro row r; simp [assignColumns, eq_comm]
  | cons p pairs ih =>
    intro row r
    obtain ⟨col, val⟩ := p
    unfold assignColumns
    by_cases h : col.toNat < row.length
    · rw [if_pos h, ih]
      simp [h]
    · rw [if_neg h]
      simp [h]

theorem foldl_set_length (pairs : List (ColumnNum × Option Value)) (row : Row) :
    (pairs.foldl (fun r p => r.set p.1.toNat p.2) row).length = row.length := by
  induction pairs generalizing row with
  | nil => rfl
  | cons p pairs ih => simp only [List.foldl_cons]; rw [ih]; simp

theorem assignColumns_no_err {pairs : List (ColumnNum × Option Value)} {e : Err} : ∀ {row : Row},
    assignColumns row pairs ≠ .err e := by
  induction pairs with
  | nil => intro row; simp [assignColumns]
  | cons p pairs ih =>
    intro row
    obtain ⟨col, val⟩ := p
    unfold assignColumns
    split
    · exact ih
    · simp

theorem foldl_set_getElem? (pairs : List (ColumnNum × Option Value)) (row : Row) (i : Nat) :
    (pairs.foldl (fun r p => r.set p.1.toNat p.2) row)[i]? =
      (row[i]?).map fun old =>
        match pairs.reverse.find? (fun p => p.1.toNat == i) with
        | some p => p.2
        | none => old := by
  induction pairs generalizing row with
  | nil => simp
  | cons p pairs ih =>
    simp only [List.foldl_cons, List.reverse_cons, List.find?_append]
    rw [ih]
    cases hf : pairs.reverse.find? (fun p => p.1.toNat == i) with
    | some q =>
      simp only [Option.some_or]
      rw [List.getElem?_set]
      split
      · next he =>
        subst he
        split
        · next hlt => rw [List.getElem?_eq_getElem hlt]; rfl
        · next hlt => rw [List.getElem?_eq_none (by omega)]
      · rfl
    | none =>
      simp only [Option.none_or]
      by_cases hp : p.1.toNat = i
      · subst hp
        simp only [List.find?_cons, beq_self_eq_true]
        rw [List.getElem?_set]
        simp only [if_true]
        split
        · next hlt => rw [List.getElem?_eq_getElem hlt]; rfl
        · next hlt => rw [List.getElem?_eq_none (by omega)]; rfl
      · have : (p.1.toNat == i) = false := by simpa using hp
        simp only [List.find?_cons, List.find?_nil, this]
        rw [List.getElem?_set_ne hp]

theorem foldl_set_eq (cols : List ColumnNum) (vals : List (Option Value)) (row : Row) :
    (cols.zip vals).foldl (fun r p => r.set p.1.toNat p.2) row = replaceColumns row cols vals := by
  apply List.ext_getElem?
  intro i
  rw [foldl_set_getElem?]
  unfold replaceColumns
  rw [List.getElem?_mapIdx]
  rfl

/-- The new row `Update` computes. -/
theorem updatedRow_ok {t : Tree} {tbl : Table} {key : Bytes} {cols : List ColumnNum}
    {vals : List (Option Value)} {r : Row} (hs : SortedTree t) :
    updatedRow t tbl key cols vals = .ok r ↔
      cols.length = vals.length ∧ ∃ it ∈ t, it.rel = toRelationId tbl.tid 0#32 ∧ it.key = key ∧
        (∀ c ∈ cols, c.toNat < it.row.length) ∧ r = replaceColumns it.row cols vals := by
  unfold updatedRow
  by_cases hl : cols.length = vals.length
  · rw [if_neg (by simpa using hl)]
    have hfst : ∀ (P : ColumnNum → Prop), (∀ p ∈ cols.zip vals, P p.1) ↔ ∀ c ∈ cols, P c := by
      intro P
      constructor
      · intro h c hc
        have hm : c ∈ (cols.zip vals).map Prod.fst := by
          rw [List.map_fst_zip (by omega)]; exact hc
        obtain ⟨p, hp, rfl⟩ := List.mem_map.1 hm
        exact h p hp
      · intro h p hp
        apply h
        have : p.1 ∈ (cols.zip vals).map Prod.fst := List.mem_map_of_mem hp
        rwa [List.map_fst_zip (by omega)] at this
    cases hg : t.get (keyToItem (toRelationId tbl.tid primaryIndexId) key) with
    | none =>
      simp only [reduceCtorEq, false_iff]
      rintro ⟨_, it, hit, h1, h2, _⟩
      exact Tree.get_none.1 hg it hit ⟨h1, h2⟩
    | some it =>
      obtain ⟨hit, h1, h2⟩ := Tree.get_some hg
      simp only [assignColumns_ok, foldl_set_eq]
      rw [hfst (fun c => c.toNat < it.row.length)]
      constructor
      · rintro ⟨h3, h4⟩
        exact ⟨hl, it, hit, h1, h2, h3, h4⟩
      · rintro ⟨_, it', hit', h1', h2', h3, h4⟩
        have : it = it' := hs.unique hit hit' ⟨h1.trans h1'.symm, h2.trans h2'.symm⟩
        subst this
        exact ⟨h3, h4⟩
  · rw [if_pos (by simpa using hl)]
    simp [hl]

theorem updatedRow_no_err {t : Tree} {tbl : Table} {key : Bytes} {cols : List ColumnNum}
    {vals : List (Option Value)} {e : Err} : updatedRow t tbl key cols vals ≠ .err e := by
  unfold updatedRow
  split
  · simp
  · split
    · simp
    · exact assignColumns_no_err

theorem replaceColumns_length (r : Row) (cols : List ColumnNum) (vals : List (Option Value)) :
    (replaceColumns r cols vals).length = r.length := by
  unfold replaceColumns; simp

/-- A column that is not given keeps its value. -/
theorem replaceColumns_other (r : Row) (cols : List ColumnNum) (vals : List (Option Value)) (i : Nat)
    (h : ∀ c ∈ cols, c.toNat ≠ i) : (replaceColumns r cols vals)[i]? = r[i]? := by
  unfold replaceColumns
  rw [List.getElem?_mapIdx]
  have : (cols.zip vals).reverse.find? (fun p => p.1.toNat == i) = none := by
    rw [List.find?_eq_none]
    intro p hp
    have hp := List.mem_reverse.1 hp
    have : p.1 ∈ cols := (List.of_mem_zip (a := p.1) (b := p.2) hp).1
    simpa using h p.1 this
  rw [this]
  cases r[i]? <;> rfl

theorem rowKey_congr {key : List ColumnKey} {r1 r2 : Row}
    (h : ∀ kc ∈ keyCols key, r1.getD kc.1 none = r2.getD kc.1 none) :
    rowKey key r1 = rowKey key r2 := by
  induction key with
  | nil => rfl
  | cons ck key ih =>
    unfold rowKey
    rw [h _ (List.mem_cons_self ..), ih (fun kc hkc => h kc (List.mem_cons_of_mem _ hkc))]

theorem columnKeyUpdated_false {key : List ColumnKey} {cols : List ColumnNum}
    (h : columnKeyUpdated key cols = false) :
    ∀ kc ∈ keyCols key, ∀ c ∈ cols, c.toNat ≠ kc.1 := by
  intro kc hkc c hc he
  obtain ⟨ck, hck, rfl⟩ := List.mem_map.1 hkc
  unfold columnKeyUpdated at h
  rw [List.any_eq_false] at h
  have := h ck hck
  rw [Bool.not_eq_true, List.any_eq_false] at this
  apply this c hc
  simp only [beq_iff_eq]
  exact BitVec.eq_of_toNat_eq he

/-- An update that leaves the key columns alone keeps the key. -/
theorem rowKey_replaceColumns {key : List ColumnKey} {cols : List ColumnNum}
    (h : columnKeyUpdated key cols = false) (r : Row) (vals : List (Option Value)) :
    rowKey key (replaceColumns r cols vals) = rowKey key r := by
  apply rowKey_congr
  intro kc hkc
  rw [List.getD_eq_getElem?_getD, List.getD_eq_getElem?_getD,
    replaceColumns_other _ _ _ _ (columnKeyUpdated_false h kc hkc)]

theorem deleteRow_ok {t t' : Tree} {tbl : Table} {key : Bytes} (hs : SortedTree t)
    (h : deleteRow t tbl key = .ok t') :
    SortedTree t' ∧ ∃ it ∈ t, it.rel = toRelationId tbl.tid 0#32 ∧ it.key = key ∧
      t.Perm (it :: t') ∧ t.delete (keyToItem (toRelationId tbl.tid primaryIndexId) key) = some t' := by
  unfold deleteRow at h
  split at h
  · cases h
  · next d hd =>
    cases h
    obtain ⟨x, hx, ⟨h1, h2⟩, hp⟩ := Tree.delete_perm hd
    exact ⟨(Tree.delete_some hs hd).1, x, hx, h1, h2, hp, hd⟩

theorem deleteRow_of_mem {t : Tree} {tbl : Table} {it : Item} (hs : SortedTree t) (hit : it ∈ t)
    (hrel : it.rel = toRelationId tbl.tid 0#32) : ∃ t', deleteRow t tbl it.key = .ok t' := by
  unfold deleteRow
  cases hd : t.delete (keyToItem (toRelationId tbl.tid primaryIndexId) it.key) with
  | none => exact absurd ⟨hrel, rfl⟩ ((Tree.delete_none hs).1 hd it hit)
  | some t' => exact ⟨t', rfl⟩

theorem deleteRow_no_err {t : Tree} {tbl : Table} {key : Bytes} {e : Err} :
    deleteRow t tbl key ≠ .err e := by
  unfold deleteRow
  split <;> simp

/-- Anything kept by removing an item of the table and by adding one is kept by an update,
whatever the outcome. -/
theorem updateRow_cases {env : StoreEnv} {t : Tree} {tbl : Table} {key : Bytes}
    {cols : List ColumnNum} {vals : List (Option Value)} (hs : SortedTree t) :
    (updateRow env t tbl key cols vals = (.panic, t)) ∨
    (∃ it ∈ t, it.rel = toRelationId tbl.tid 0#32 ∧ it.key = key ∧ cols.length = vals.length ∧
      (∀ c ∈ cols, c.toNat < it.row.length) ∧
      ((columnKeyUpdated tbl.tt.key cols = true ∧ ∃ t1, deleteRow t tbl key = .ok t1 ∧
          updateRow env t tbl key cols vals =
            insertRows env t1 tbl [replaceColumns it.row cols vals]) ∨
       (columnKeyUpdated tbl.tt.key cols = false ∧
          HasColumns (keyCols tbl.tt.key) (replaceColumns it.row cols vals) ∧
          updateRow env t tbl key cols vals =
            (.ok (), t.put (tbl.item (replaceColumns it.row cols vals)))))) := by
  unfold updateRow
  cases hu : updatedRow t tbl key cols vals with
  | panic => left; rfl
  | err e => exact absurd hu updatedRow_no_err
  | ok r =>
    obtain ⟨hl, it, hit, h1, h2, h3, rfl⟩ := (updatedRow_ok hs).1 hu
    simp only
    unfold storeUpdated
    cases hck : columnKeyUpdated tbl.tt.key cols with
    | true =>
      simp only [if_true]
      cases hd : deleteRow t tbl key with
      | panic => left; rfl
      | err e => exact absurd hd deleteRow_no_err
      | ok t1 => right; exact ⟨it, hit, h1, h2, hl, h3, .inl ⟨trivial, t1, rfl, rfl⟩⟩
    | false =>
      simp only [Bool.false_eq_true, if_false]
      cases hi : rowToItem (toRelationId tbl.tid primaryIndexId) tbl.tt.key
          (some (replaceColumns it.row cols vals)) with
      | panic => left; rfl
      | err e => exact absurd hi rowToItem_no_err
      | ok x =>
        obtain ⟨hc, rfl⟩ := rowToItem_some.1 hi
        right
        exact ⟨it, hit, h1, h2, hl, h3, .inr ⟨trivial, hc, rfl⟩⟩

theorem updateRow_sorted {env : StoreEnv} {t : Tree} {tbl : Table} {key : Bytes}
    {cols : List ColumnNum} {vals : List (Option Value)} (hs : SortedTree t) :
    SortedTree (updateRow env t tbl key cols vals).2 := by
  rcases updateRow_cases (env := env) (tbl := tbl) (key := key) (cols := cols) (vals := vals) hs with
    e | ⟨it, _, _, _, _, _, ⟨_, t1, hd, e⟩ | ⟨_, _, e⟩⟩
  · rw [e]; exact hs
  · rw [e]; exact insertRows_sorted (deleteRow_ok hs hd).1 _
  · rw [e]; exact Tree.sorted_put hs _

theorem updateRow_kept {env : StoreEnv} {t : Tree} {tbl : Table} {key : Bytes}
    {cols : List ColumnNum} {vals : List (Option Value)} (hs : SortedTree t)
    {tid : TableId} {cts ckey} (h : Kept tid cts ckey t)
    (hsame : tbl.tid = tid → tbl.tt.columnTypes = cts ∧ tbl.tt.key = ckey) :
    Kept tid cts ckey (updateRow env t tbl key cols vals).2 := by
  rcases updateRow_cases (env := env) (tbl := tbl) (key := key) (cols := cols) (vals := vals) hs with
    e | ⟨it, hit, hrel, _, _, _, ⟨_, t1, hd, e⟩ | ⟨_, hc, e⟩⟩
  · rw [e]; exact h
  · rw [e]
    obtain ⟨_, _, _, _, _, _, hdel⟩ := deleteRow_ok hs hd
    exact insertRows_kept (h.delete hdel) hsame _
  · rw [e]
    apply h.put
    intro hr
    obtain ⟨e, _⟩ := toRelationId_inj hr
    obtain ⟨e1, e2⟩ := hsame e
    refine ⟨by simp only [Table.item]; rw [← e2]; exact makeKey_eq hc, ?_⟩
    simp only [Table.item]
    rw [replaceColumns_length]
    exact h.width it hit (by rw [hrel, e])

theorem updateRow_other {env : StoreEnv} {t : Tree} {tbl : Table} {key : Bytes}
    {cols : List ColumnNum} {vals : List (Option Value)} (hs : SortedTree t)
    {rel : BitVec 64} (hrel : toRelationId tbl.tid 0#32 ≠ rel) :
    (updateRow env t tbl key cols vals).2.filter (fun it => it.rel == rel) =
      t.filter (fun it => it.rel == rel) := by
  rcases updateRow_cases (env := env) (tbl := tbl) (key := key) (cols := cols) (vals := vals) hs with
    e | ⟨it, _, _, _, _, _, ⟨_, t1, hd, e⟩ | ⟨_, _, e⟩⟩
  · rw [e]
  · rw [e]
    obtain ⟨hs1, _, _, _, _, _, hdel⟩ := deleteRow_ok hs hd
    rw [insertRows_other hs1 _ hrel, Tree.filter_delete hs hdel hrel]
  · rw [e]; exact Tree.filter_put hs (by exact hrel)

end Maho
