import Verif.Spec.Memory
import Verif.Lemmas.Storage
/-
Helper lemmas for C84: the store with memory does what a store that copies does.
-/
namespace Maho
open Maho.Spec

namespace Memory

/-- The bytes of the value are in memory. -/
def Inside (m : Memory) (c : Option MemVal) : Prop := ∀ a, c = some (.bytes a) → a < m.slices.length

/-- The bytes of all rows are in memory. -/
def Sound (m : Memory) : Prop := ∀ r ∈ m.rows, ∀ c ∈ r, m.Inside c

/-- There is more memory, and what was there is as before. -/
def Grows (m m' : Memory) : Prop :=
  (∃ s, m'.slices = m.slices ++ s) ∧ ∃ r, m'.rows = m.rows ++ r

theorem Grows.refl (m : Memory) : Grows m m := ⟨⟨[], by simp⟩, [], by simp⟩

theorem Grows.trans {m1 m2 m3 : Memory} (h1 : Grows m1 m2) (h2 : Grows m2 m3) : Grows m1 m3 := by
  obtain ⟨⟨s, e1⟩, r, e2⟩ := h1
  obtain ⟨⟨s', e3⟩, r', e4⟩ := h2
  exact ⟨⟨s ++ s', by rw [e3, e1, List.append_assoc]⟩, r ++ r', by rw [e4, e2, List.append_assoc]⟩

theorem Grows.inside {m m' : Memory} (h : Grows m m') {c : Option MemVal} (hc : m.Inside c) :
    m'.Inside c := by
  obtain ⟨⟨s, e⟩, -⟩ := h
  intro a ha
  have := hc a ha
  rw [e, List.length_append]
  omega

theorem Grows.length {m m' : Memory} (h : Grows m m') : m.rows.length ≤ m'.rows.length := by
  obtain ⟨-, r, e⟩ := h
  rw [e, List.length_append]
  omega

theorem Grows.value {m m' : Memory} (h : Grows m m') {c : Option MemVal} (hc : m.Inside c) :
    c.map m'.value = c.map m.value := by
  obtain ⟨⟨s, e⟩, -⟩ := h
  cases c with
  | none => rfl
  | some c =>
    cases c with
    | bytes a =>
      have := hc a rfl
      simp only [Option.map_some, Memory.value, e, List.getD_eq_getElem?_getD]
      rw [List.getElem?_append_left this]
    | _ => rfl

theorem Grows.cells {m m' : Memory} (h : Grows m m') {r : MemRow} (hr : ∀ c ∈ r, m.Inside c) :
    m'.cells r = m.cells r :=
  List.map_congr_left fun c hc => h.value (hr c hc)

theorem getD_mem {m : Memory} {a : Nat} (h : a < m.rows.length) : m.rows.getD a [] ∈ m.rows := by
  rw [List.getD_eq_getElem?_getD, List.getElem?_eq_getElem h]
  exact List.getElem_mem h

theorem Sound.getD {m : Memory} (hs : m.Sound) (a : Nat) : ∀ c ∈ m.rows.getD a [], m.Inside c := by
  intro c hc
  rcases Nat.lt_or_ge a m.rows.length with h | h
  · exact hs _ (getD_mem h) c hc
  · rw [List.getD_eq_getElem?_getD, List.getElem?_eq_none h] at hc
    simp at hc

theorem Grows.getD {m m' : Memory} (h : Grows m m') {a : Nat} (ha : a < m.rows.length) :
    m'.rows.getD a [] = m.rows.getD a [] := by
  obtain ⟨-, r, e⟩ := h
  rw [e, List.getD_eq_getElem?_getD, List.getElem?_append_left ha, List.getD_eq_getElem?_getD]

theorem Grows.row {m m' : Memory} (h : Grows m m') (hs : m.Sound) {a : Nat} (ha : a < m.rows.length) :
    m'.row a = m.row a := by
  unfold Memory.row
  rw [h.getD ha]
  exact h.cells (hs.getD a)

/-- New values: the memory has the values `vs` in `r`, and there are no new rows. -/
structure Made (m : Memory) (r : MemRow) (vs : Row) (m' : Memory) : Prop where
  grows : Grows m m'
  rows : m'.rows = m.rows
  inside : ∀ c ∈ r, m'.Inside c
  cells : m'.cells r = vs

theorem newValue_made (m : Memory) (v : Option Value) :
    Grows m (m.newValue v).2 ∧ (m.newValue v).2.rows = m.rows ∧ (m.newValue v).2.Inside (m.newValue v).1 ∧
      (m.newValue v).1.map (m.newValue v).2.value = v := by
  rcases v with _ | (_ | _ | _ | _ | b) <;>
    try exact ⟨Grows.refl m, rfl, (fun a h => by cases h), rfl⟩
  refine ⟨⟨⟨[b], rfl⟩, [], by simp [newValue]⟩, rfl, ?_, ?_⟩
  · intro a h
    cases h
    simp [newValue]
  · simp [newValue, Memory.value]

theorem Made.cons {m m1 m2 : Memory} {c : Option MemVal} {r : MemRow} {v : Option Value} {vs : Row}
    (h1 : Grows m m1) (h2 : m1.rows = m.rows) (h3 : m1.Inside c) (h4 : c.map m1.value = v)
    (h : Made m1 r vs m2) : Made m (c :: r) (v :: vs) m2 := by
  refine ⟨h1.trans h.grows, h.rows.trans h2, ?_, ?_⟩
  · intro x hx
    rcases List.mem_cons.mp hx with rfl | hx
    · exact h.grows.inside h3
    · exact h.inside x hx
  · show _ :: m2.cells r = _
    rw [h.cells, h.grows.value h3, h4]

theorem newValues_made : ∀ (vs : Row) (m : Memory), Made m (m.newValues vs).1 vs (m.newValues vs).2
  | [], m => ⟨Grows.refl m, rfl, by simp [newValues], rfl⟩
  | v :: vs, m => by
    obtain ⟨h1, h2, h3, h4⟩ := newValue_made m v
    exact Made.cons h1 h2 h3 h4 (newValues_made vs _)

theorem converted_made : ∀ (vs : Row) (src : MemRow) (m : Memory), (∀ c ∈ src, m.Inside c) →
    (∀ (i a : Nat) (b : Bytes), src[i]? = some (some (MemVal.bytes a)) →
      vs[i]? = some (some (Value.bytes b)) →
      m.slices.getD a [] = b) →
    Made m (m.converted src vs).1 vs (m.converted src vs).2
  | [], src, m, _, _ => ⟨Grows.refl m, rfl, by simp [converted], rfl⟩
  | v :: vs, src, m, hin, hk => by
    have key : ∀ (c : Option MemVal) (m1 : Memory), Grows m m1 → m1.rows = m.rows → m1.Inside c →
        c.map m1.value = v → Made m (c :: (m1.converted src.tail vs).1) (v :: vs)
          (m1.converted src.tail vs).2 := by
      intro c m1 h1 h2 h3 h4
      refine Made.cons h1 h2 h3 h4 (converted_made vs src.tail m1 ?_ ?_)
      · intro x hx
        exact h1.inside (hin x (List.mem_of_mem_tail hx))
      · intro i a b e1 e2
        rw [List.getElem?_tail] at e1
        have := hk (i + 1) a b e1 (by simpa using e2)
        have ha := hin _ (List.mem_of_getElem? e1) a rfl
        obtain ⟨⟨s, e⟩, -⟩ := h1
        rw [e, List.getD_eq_getElem?_getD, List.getElem?_append_left ha, ← List.getD_eq_getElem?_getD]
        exact this
    obtain ⟨h1, h2, h3, h4⟩ := newValue_made m v
    have other : Made m ((m.newValue v).1 :: ((m.newValue v).2.converted src.tail vs).1) (v :: vs)
        ((m.newValue v).2.converted src.tail vs).2 := key _ _ h1 h2 h3 h4
    cases src with
    | nil => exact other
    | cons c src =>
      rcases c with _ | (_ | _ | _ | _ | a)
      · exact other
      · exact other
      · exact other
      · exact other
      · exact other
      · rcases v with _ | (_ | _ | _ | _ | b)
        · exact other
        · exact other
        · exact other
        · exact other
        · exact other
        · refine key (some (.bytes a)) m (Grows.refl m) rfl (hin _ List.mem_cons_self) ?_
          simp only [Option.map_some, Memory.value, hk 0 a b rfl rfl]

/-- The row is stored in a new slice. -/
theorem Made.newRow {m m' : Memory} (hs : m.Sound) {r : MemRow} {vs : Row} (h : Made m r vs m') :
    (m'.newRow r).1 = m.rows.length ∧ Grows m (m'.newRow r).2 ∧ (m'.newRow r).2.Sound ∧
      (m'.newRow r).2.row m.rows.length = vs ∧ (m'.newRow r).2.rows.length = m.rows.length + 1 := by
  have hg : Grows m (m'.newRow r).2 := h.grows.trans ⟨⟨[], by simp [Memory.newRow]⟩, [r], rfl⟩
  refine ⟨by simp [Memory.newRow, h.rows], hg, ?_, ?_, by simp [Memory.newRow, h.rows]⟩
  · intro x hx c hc
    have : x ∈ m.rows ∨ x = r := by simpa [Memory.newRow, h.rows] using hx
    rcases this with hx | rfl
    · exact hg.inside (hs x hx c hc)
    · exact h.inside c hc
  · have e : (m'.newRow r).2.rows.getD m.rows.length [] = r := by
      simp [Memory.newRow, ← h.rows, List.getD_eq_getElem?_getD]
    unfold Memory.row
    rw [e]
    exact h.cells

/-! ### Trees -/

/-- The item with its row. -/
def item (m : Memory) (it : MemItem) : Item := ⟨it.rel, it.key, m.row it.row⟩

/-- The tree with its rows. -/
def tree (m : Memory) (t : List MemItem) : Tree := t.map m.item

theorem less_item (m : Memory) (a b : MemItem) : a.less b = lessItems (m.item a) (m.item b) := rfl

theorem less_key (m : Memory) (a : MemItem) (rel : BitVec 64) (key : Bytes) (row : Row) (n : Nat) :
    a.less ⟨rel, key, n⟩ = lessItems (m.item a) ⟨rel, key, row⟩ := rfl

theorem key_less (m : Memory) (a : MemItem) (rel : BitVec 64) (key : Bytes) (row : Row) (n : Nat) :
    MemItem.less ⟨rel, key, n⟩ a = lessItems ⟨rel, key, row⟩ (m.item a) := rfl

theorem tree_get (m : Memory) (rel : BitVec 64) (key : Bytes) (row : Row) (n : Nat) : ∀ t : MemTree,
    (t.get ⟨rel, key, n⟩).map m.item = (m.tree t).get ⟨rel, key, row⟩
  | [] => rfl
  | x :: t => by
    have ih := tree_get m rel key row n t
    unfold MemTree.get Tree.get Memory.tree at ih ⊢
    rw [List.map_cons, List.find?_cons, List.find?_cons, less_key m x rel key row n,
      key_less m x rel key row n]
    split
    · rfl
    · exact ih

theorem tree_put (m : Memory) (it : MemItem) : ∀ t : MemTree, m.tree (t.put it) = (m.tree t).put (m.item it)
  | [] => rfl
  | x :: t => by
    have ih := tree_put m it t
    unfold Memory.tree at ih ⊢
    unfold MemTree.put Tree.put
    rw [List.map_cons]
    dsimp only
    rw [less_item m x it, less_item m it x]
    split
    · rw [List.map_cons, ih]
    · split <;> simp

theorem tree_delete (m : Memory) (rel : BitVec 64) (key : Bytes) (n : Nat) : ∀ t : MemTree,
    (t.delete ⟨rel, key, n⟩).map m.tree = (m.tree t).delete ⟨rel, key, []⟩
  | [] => rfl
  | x :: t => by
    have ih := tree_delete m rel key n t
    have e : m.tree (x :: t) = m.item x :: m.tree t := rfl
    rw [e]
    unfold MemTree.delete Tree.delete
    rw [less_key m x rel key [] n, key_less m x rel key [] n]
    split
    · rw [← ih]
      cases MemTree.delete t ⟨rel, key, n⟩ <;> rfl
    · split <;> rfl

theorem mem_put {it x : MemItem} : ∀ {t : MemTree}, x ∈ t.put it → x = it ∨ x ∈ t
  | [], h => by simpa [MemTree.put] using h
  | y :: t, h => by
    unfold MemTree.put at h
    split at h
    · rcases List.mem_cons.mp h with rfl | h
      · exact .inr List.mem_cons_self
      · exact (mem_put h).imp_right (List.mem_cons_of_mem _)
    · split at h
      · exact List.mem_cons.mp h
      · exact (List.mem_cons.mp h).imp_right (List.mem_cons_of_mem _)

theorem mem_delete {it x : MemItem} : ∀ {t t' : MemTree}, t.delete it = some t' → x ∈ t' → x ∈ t
  | [], _, h, _ => by cases h
  | y :: t, t', h, hx => by
    unfold MemTree.delete at h
    split at h
    · cases hd : MemTree.delete t it with
      | none => rw [hd] at h; cases h
      | some t2 =>
        rw [hd] at h
        cases h
        rcases List.mem_cons.mp hx with rfl | hx
        · exact List.mem_cons_self
        · exact List.mem_cons_of_mem _ (mem_delete hd hx)
    · split at h
      · cases h
      · cases h
        exact List.mem_cons_of_mem _ hx

theorem mem_get {it x : MemItem} {t : MemTree} (h : t.get it = some x) : x ∈ t :=
  List.mem_of_find?_eq_some h

/-- Items whose rows are in memory. -/
def Holds (m : Memory) (t : List MemItem) : Prop := ∀ it ∈ t, it.row < m.rows.length

theorem Grows.tree {m m' : Memory} (h : Grows m m') (hs : m.Sound) {t : List MemItem} (ht : m.Holds t) :
    m'.tree t = m.tree t := by
  refine List.map_congr_left fun it hi => ?_
  unfold Memory.item
  rw [h.row hs (ht it hi)]

theorem Grows.holds {m m' : Memory} (h : Grows m m') {t : List MemItem} (ht : m.Holds t) : m'.Holds t :=
  fun it hi => Nat.lt_of_lt_of_le (ht it hi) h.length

end Memory

/-! ### Conversions -/

theorem convertCheck_same {ct : ColumnType} {v w : Option Value} (h : convertCheck ct v = .ok w) : v = w := by
  unfold convertCheck at h
  revert h
  repeat' split
  all_goals intro h
  all_goals first | cases h; rfl | cases h

/-- Bytes that stay bytes are not changed. -/
theorem convertValue_bytes {env : FloatEnv} {ct : ColumnType} {b b' : Bytes}
    (h : convertValue env ct (some (.bytes b)) = .ok (some (.bytes b'))) : b = b' := by
  unfold convertValue at h
  dsimp only at h
  cases hc : castValue env ct.type (some (.bytes b)) with
  | ok w =>
    rw [hc] at h
    have e : convertCheck ct w = .ok (some (.bytes b')) := h
    have := convertCheck_same e
    subst this
    unfold castValue at hc
    dsimp only at hc
    revert hc
    repeat' split
    all_goals intro hc
    all_goals first | cases hc; rfl | cases hc
  | _ => rw [hc] at h; cases h

theorem convertPrefix_bytes {env : FloatEnv} : ∀ {cts : List ColumnType} {vs ws : Row},
    convertPrefix env cts vs = .ok ws → ∀ (i : Nat) (b b' : Bytes), vs[i]? = some (some (.bytes b)) →
      ws[i]? = some (some (.bytes b')) → b = b'
  | cts, [], ws, h, i, b, b', h1, _ => by simp at h1
  | [], _ :: _, ws, h, _, _, _, _, _ => by cases h
  | ct :: cts, v :: vs, ws, h, i, b, b', h1, h2 => by
    unfold convertPrefix at h
    cases hv : convertValue env ct v with
    | ok w =>
      rw [hv] at h
      cases hp : convertPrefix env cts vs with
      | ok ws' =>
        rw [hp] at h
        cases h
        cases i with
        | zero =>
          simp at h1 h2
          subst h1 h2
          exact convertValue_bytes hv
        | succ i => exact convertPrefix_bytes hp i b b' (by simpa using h1) (by simpa using h2)
      | _ => rw [hp] at h; cases h
    | _ => rw [hv] at h; cases h

theorem convertPrefix_length {env : FloatEnv} : ∀ {cts : List ColumnType} {vs ws : Row},
    convertPrefix env cts vs = .ok ws → ws.length = vs.length
  | cts, [], ws, h => by cases cts <;> (cases h; rfl)
  | [], _ :: _, ws, h => by cases h
  | ct :: cts, v :: vs, ws, h => by
    unfold convertPrefix at h
    cases hv : convertValue env ct v with
    | ok w =>
      rw [hv] at h
      cases hp : convertPrefix env cts vs with
      | ok ws' =>
        rw [hp] at h
        cases h
        simp [convertPrefix_length hp]
      | _ => rw [hp] at h; cases h
    | _ => rw [hv] at h; cases h

theorem convertRow_bytes {env : FloatEnv} {cts : List ColumnType} {vs ws : Row}
    (h : convertRow env cts vs = .ok ws) (i : Nat) (b b' : Bytes) (h1 : vs[i]? = some (some (.bytes b)))
    (h2 : ws[i]? = some (some (.bytes b'))) : b = b' := by
  unfold convertRow at h
  split at h
  · cases h
  · cases hp : convertPrefix env cts vs with
    | ok ws' =>
      rw [hp] at h
      cases h
      have hl := convertPrefix_length hp
      have hi : i < vs.length := by
        rcases Nat.lt_or_ge i vs.length with h | h
        · exact h
        · rw [List.getElem?_eq_none h] at h1; cases h1
      rw [List.getElem?_append_left (by omega)] at h2
      exact convertPrefix_bytes hp i b b' h1 h2
    | _ => rw [hp] at h; cases h

/-! ### Inserting and updating -/

namespace Memory

/-- A tree after a call: its items are items of the tree before, or their rows are new; the rows of
other items have not changed. -/
structure After (m : Memory) (t : MemTree) (m' : Memory) (t' : MemTree) : Prop where
  grows : Grows m m'
  sound : m'.Sound
  holds : m'.Holds t'
  items : ∀ it ∈ t', it ∈ t ∨ m.rows.length ≤ it.row

theorem After.refl {m : Memory} {t : MemTree} (hs : m.Sound) (ht : m.Holds t) : After m t m t :=
  ⟨Grows.refl m, hs, ht, fun _ h => .inl h⟩

theorem After.trans {m1 m2 m3 : Memory} {t1 t2 t3 : MemTree} (h1 : After m1 t1 m2 t2)
    (h2 : After m2 t2 m3 t3) : After m1 t1 m3 t3 := by
  refine ⟨h1.grows.trans h2.grows, h2.sound, h2.holds, fun it hi => ?_⟩
  rcases h2.items it hi with h | h
  · exact h1.items it h
  · exact .inr (Nat.le_trans h1.grows.length h)

/-- A new row is put into the tree. -/
theorem after_put {m m' : Memory} (hs : m.Sound) {t : MemTree} (ht : m.Holds t) {r : MemRow} {vs : Row}
    (h : Made m r vs m') (rel : BitVec 64) (key : Bytes) :
    After m t (m'.newRow r).2 (t.put ⟨rel, key, (m'.newRow r).1⟩) ∧
      (m'.newRow r).2.tree (t.put ⟨rel, key, (m'.newRow r).1⟩) = (m.tree t).put ⟨rel, key, vs⟩ := by
  obtain ⟨e1, hg, hs', e2, e3⟩ := h.newRow hs
  rw [e1]
  refine ⟨⟨hg, hs', ?_, ?_⟩, ?_⟩
  · intro it hi
    rcases mem_put hi with rfl | hi
    · show m.rows.length < _
      omega
    · exact hg.holds ht it hi
  · intro it hi
    rcases mem_put hi with rfl | hi
    · exact .inr (Nat.le_refl _)
    · exact .inl hi
  · rw [tree_put, hg.tree hs ht]
    unfold Memory.item
    rw [e2]

theorem has_tree (m : Memory) (t : MemTree) (it : Item) :
    (t.get ⟨it.rel, it.key, 0⟩).isSome = (m.tree t).has it := by
  unfold Tree.has
  rw [← tree_get m it.rel it.key it.row 0 t, Option.isSome_map]

theorem cells_getElem? (m : Memory) (r : MemRow) (i : Nat) : (m.cells r)[i]? = (r[i]?).map (Option.map m.value) := by
  unfold Memory.cells
  rw [List.getElem?_map]

theorem insert_after (env : StoreEnv) (tbl : Table) : ∀ (rows : List Nat) (m : Memory) (t : MemTree),
    m.Sound → m.Holds t → (∀ a ∈ rows, a < m.rows.length) →
    ∃ r m' t', MemState.insert env m t tbl rows = (r, m', t') ∧ After m t m' t' ∧
      insertRows env (m.tree t) tbl (rows.map m.row) = (r, m'.tree t')
  | [], m, t, hs, ht, _ => ⟨_, _, _, rfl, After.refl hs ht, rfl⟩
  | a :: rows, m, t, hs, ht, hr => by
    have stay : ∀ r, ∃ r' m' t', ((r, m, t) : Res Unit × Memory × MemTree) = (r', m', t') ∧
        After m t m' t' ∧ ((r, m.tree t) : Res Unit × Tree) = (r', m'.tree t') :=
      fun r => ⟨_, _, _, rfl, After.refl hs ht, rfl⟩
    rw [List.map_cons]
    unfold MemState.insert insertRows
    cases hc : convertRow env.float tbl.tt.columnTypes (m.row a) with
    | panic => exact stay _
    | err e => exact stay _
    | ok row =>
      dsimp only
      cases hi : rowToItem (toRelationId tbl.tid primaryIndexId) tbl.tt.key (some row) with
      | panic => exact stay _
      | err e => exact stay _
      | ok it =>
        dsimp only
        rw [has_tree m t it]
        split
        · exact stay _
        · have hit : it.row = row := by
            rw [(rowToItem_some.mp hi).2]
          have hm := converted_made row (m.rows.getD a []) m (hs.getD a) (by
            intro i x b e1 e2
            refine convertRow_bytes hc i _ _ ?_ e2
            unfold Memory.row
            rw [cells_getElem?, e1]
            rfl)
          obtain ⟨h1, h2⟩ := after_put hs ht hm it.rel it.key
          obtain ⟨r, m', t', e1, e2, e3⟩ := insert_after env tbl rows _ _ h1.sound h1.holds
            (fun x hx => Nat.lt_of_lt_of_le (hr x (List.mem_cons_of_mem _ hx)) h1.grows.length)
          refine ⟨r, m', t', e1, h1.trans e2, ?_⟩
          rw [← e3, h2]
          have : it = ⟨it.rel, it.key, row⟩ := by rw [← hit]
          rw [this]
          congr 1
          refine List.map_congr_left fun x hx => ?_
          exact (h1.grows.row hs (hr x (List.mem_cons_of_mem _ hx))).symm

theorem assign_cells (m : Memory) : ∀ (asg : List (ColumnNum × Option MemVal)) (row : MemRow),
    (m.cells <$> MemState.assign row asg) =
      assignColumns (m.cells row) (asg.map fun a => (a.1, a.2.map m.value))
  | [], _ => rfl
  | (col, val) :: rest, row => by
    have hl : (m.cells row).length = row.length := by simp [Memory.cells]
    rw [List.map_cons]
    unfold MemState.assign assignColumns
    rw [hl]
    split
    · rw [assign_cells m rest]
      congr 1
      unfold Memory.cells
      rw [List.map_set]
    · rfl

theorem assign_inside {m : Memory} : ∀ {asg : List (ColumnNum × Option MemVal)} {row row' : MemRow},
    MemState.assign row asg = .ok row' → (∀ c ∈ row, m.Inside c) → (∀ a ∈ asg, m.Inside a.2) →
    ∀ c ∈ row', m.Inside c
  | [], row, row', h, h1, _ => by cases h; exact h1
  | (col, val) :: rest, row, row', h, h1, h2 => by
    unfold MemState.assign at h
    split at h
    · refine assign_inside h ?_ fun a ha => h2 a (List.mem_cons_of_mem _ ha)
      intro c hc
      rcases List.mem_or_eq_of_mem_set hc with hc | rfl
      · exact h1 c hc
      · exact h2 _ List.mem_cons_self
    · cases h

theorem zip_cells (m : Memory) (cols : List ColumnNum) (vals : MemRow) :
    (cols.zip vals).map (fun a => (a.1, a.2.map m.value)) = cols.zip (m.cells vals) := by
  unfold Memory.cells
  rw [List.zip_map_right]
  rfl

theorem After.shrink {m m' : Memory} {t t1 t2 : MemTree} (h : After m t1 m' t2) (h1 : ∀ it ∈ t1, it ∈ t) :
    After m t m' t2 :=
  ⟨h.grows, h.sound, h.holds, fun it hi => (h.items it hi).imp_left (h1 it)⟩

theorem update_after (env : StoreEnv) (tbl : Table) (key : Bytes) (cols : List ColumnNum) (vals : MemRow)
    {m : Memory} {t : MemTree} (hs : m.Sound) (ht : m.Holds t) (hv : ∀ c ∈ vals, m.Inside c) :
    ∃ r m' t', MemState.update env m t tbl key cols vals = (r, m', t') ∧ After m t m' t' ∧
      updateRow env (m.tree t) tbl key cols (m.cells vals) = (r, m'.tree t') := by
  have stay : ∀ r, ∃ r' m' t', ((r, m, t) : Res Unit × Memory × MemTree) = (r', m', t') ∧
      After m t m' t' ∧ ((r, m.tree t) : Res Unit × Tree) = (r', m'.tree t') :=
    fun r => ⟨_, _, _, rfl, After.refl hs ht, rfl⟩
  have hl : (m.cells vals).length = vals.length := by simp [Memory.cells]
  unfold MemState.update updateRow updatedRow
  rw [hl]
  dsimp only
  by_cases hc : cols.length ≠ vals.length
  · rw [if_pos hc, if_pos hc]
    exact stay _
  · rw [if_neg hc, if_neg hc]
    have hg := tree_get m (toRelationId tbl.tid primaryIndexId) key [] 0 t
    unfold keyToItem
    rw [← hg]
    cases hi : t.get ⟨toRelationId tbl.tid primaryIndexId, key, 0⟩ with
    | none => exact stay _
    | some it =>
      dsimp only [Option.map_some]
      have ha := assign_cells m (cols.zip vals) (m.rows.getD it.row [])
      rw [zip_cells] at ha
      have e : m.cells (m.rows.getD it.row []) = (m.item it).row := rfl
      rw [e] at ha
      rw [← ha]
      cases hr : MemState.assign (m.rows.getD it.row []) (cols.zip vals) with
      | panic => exact stay _
      | err e => exact stay _
      | ok row =>
        have hin := assign_inside (m := m) hr (hs.getD _) (by
          intro a hm
          exact hv _ (List.of_mem_zip (show (a.1, a.2) ∈ _ from hm)).2)
        have hm : Made m row (m.cells row) m := ⟨Grows.refl m, rfl, hin, rfl⟩
        obtain ⟨e1, hgr, hs', e2, e3⟩ := hm.newRow hs
        have hd := tree_delete m (toRelationId tbl.tid primaryIndexId) key 0 t
        have same : After m t (m.newRow row).2 t := ⟨hgr, hs', hgr.holds ht, fun _ h => .inl h⟩
        have htree : (m.newRow row).2.tree t = m.tree t := hgr.tree hs ht
        show ∃ r' m' t', (if columnKeyUpdated tbl.tt.key cols = true then _ else _) = _ ∧ _ ∧
          storeUpdated env (m.tree t) tbl key cols (m.cells row) = _
        unfold storeUpdated deleteRow keyToItem
        rw [← hd, e1, e2]
        split
        · cases hdel : t.delete ⟨toRelationId tbl.tid primaryIndexId, key, 0⟩ with
          | none => exact ⟨_, _, _, rfl, same, by rw [htree]; rfl⟩
          | some t2 =>
            have hsub : ∀ it ∈ t2, it ∈ t := fun x hx => mem_delete hdel hx
            have ht2 : m.Holds t2 := fun x hx => ht x (hsub x hx)
            obtain ⟨r, m', t', g1, g2, g3⟩ := insert_after env tbl [m.rows.length] (m.newRow row).2 t2 hs'
              (hgr.holds ht2) (by intro a h; rw [List.mem_singleton] at h; omega)
            refine ⟨r, m', t', g1, same.trans (g2.shrink hsub), ?_⟩
            rw [hgr.tree hs ht2, List.map_singleton, e2] at g3
            exact g3
        · cases hi : rowToItem (toRelationId tbl.tid primaryIndexId) tbl.tt.key (some (m.cells row)) with
          | panic => exact ⟨_, _, _, rfl, same, by rw [htree]⟩
          | err e => exact ⟨_, _, _, rfl, same, by rw [htree]⟩
          | ok it =>
            have hit : it = ⟨it.rel, it.key, m.cells row⟩ := by
              rw [(rowToItem_some.mp hi).2]
            obtain ⟨g1, g2⟩ := after_put hs ht hm it.rel it.key
            rw [e1] at g1 g2
            refine ⟨_, _, _, rfl, g1, ?_⟩
            rw [g2, ← hit]

/-! ### Scans -/

theorem scan_tree (m : Memory) (rel : BitVec 64) (maxItem : Option Item) (test : Row → Res Bool) :
    ∀ its : List MemItem, m.tree <$> MemState.scan m rel maxItem test its =
      scanItems rel maxItem test (m.tree its)
  | [] => rfl
  | it :: its => by
    have ih := scan_tree m rel maxItem test its
    have e : m.tree (it :: its) = m.item it :: m.tree its := rfl
    rw [e]
    unfold MemState.scan scanItems
    have e1 : (m.item it).rel = it.rel := rfl
    have e2 : (fun x => lessItems x (m.item it)) = fun x => lessItems x it.bare := rfl
    have e3 : (m.item it).row = m.row it.row := rfl
    rw [e1, e2, e3, ← ih]
    split
    · rfl
    · split
      · rfl
      · cases test (m.row it.row) with
        | ok keep =>
          cases MemState.scan m rel maxItem test its with
          | ok rest => cases keep <;> rfl
          | _ => rfl
        | _ => rfl

theorem dropWhile_tree (m : Memory) (minItem : Item) (t : MemTree) :
    m.tree (t.dropWhile fun x => lessItems x.bare minItem) = (m.tree t).from minItem := by
  unfold Tree.from
  induction t with
  | nil => rfl
  | cons x t ih =>
    have e : m.tree (x :: t) = m.item x :: m.tree t := rfl
    have e1 : lessItems (m.item x) minItem = lessItems x.bare minItem := rfl
    rw [e, List.dropWhile_cons, List.dropWhile_cons, e1]
    split
    · exact ih
    · rfl

theorem collect_tree (m : Memory) (t : MemTree) (tbl : Table) (minRow maxRow : Option Row)
    (pred : Option Predicate) :
    m.tree <$> MemState.collect m t tbl minRow maxRow pred = collectItems (m.tree t) tbl minRow maxRow pred := by
  have key : ∀ mx : Res (Option Item),
      m.tree <$> (mx >>= fun maxItem => rowTest tbl.tt pred >>= fun test =>
        rowToItem (toRelationId tbl.tid primaryIndexId) tbl.tt.key minRow >>= fun minItem =>
        MemState.scan m (toRelationId tbl.tid primaryIndexId) maxItem test
          (t.dropWhile fun x => lessItems x.bare minItem)) =
      (mx >>= fun maxItem => rowTest tbl.tt pred >>= fun test =>
        rowToItem (toRelationId tbl.tid primaryIndexId) tbl.tt.key minRow >>= fun minItem =>
        scanItems (toRelationId tbl.tid primaryIndexId) maxItem test ((m.tree t).from minItem)) := by
    intro mx
    cases mx with
    | ok maxItem =>
      cases rowTest tbl.tt pred with
      | ok test =>
        cases rowToItem (toRelationId tbl.tid primaryIndexId) tbl.tt.key minRow with
        | ok minItem =>
          show m.tree <$> MemState.scan m _ _ _ _ = scanItems _ _ _ _
          rw [scan_tree, dropWhile_tree]
        | _ => rfl
      | _ => rfl
    | _ => rfl
  cases maxRow <;> exact key _

theorem mem_scan {m : Memory} {rel : BitVec 64} {maxItem : Option Item} {test : Row → Res Bool} :
    ∀ {its r : List MemItem}, MemState.scan m rel maxItem test its = .ok r → ∀ it ∈ r, it ∈ its
  | [], r, h, it, hi => by cases h; exact hi
  | x :: its, r, h, it, hi => by
    unfold MemState.scan at h
    split at h
    · cases h; cases hi
    · split at h
      · cases h; cases hi
      · cases ht : test (m.row x.row) with
        | ok keep =>
          cases hsc : MemState.scan m rel maxItem test its with
          | ok rest =>
            rw [ht, hsc] at h
            have e : Res.ok (if keep then x :: rest else rest) = Res.ok r := h
            cases e
            split at hi
            · rcases List.mem_cons.mp hi with rfl | hi
              · exact List.mem_cons_self
              · exact List.mem_cons_of_mem _ (mem_scan hsc it hi)
            · exact List.mem_cons_of_mem _ (mem_scan hsc it hi)
          | _ => rw [ht, hsc] at h; cases h
        | _ => rw [ht] at h; cases h

theorem mem_collect {m : Memory} {t : MemTree} {tbl : Table} {minRow maxRow : Option Row}
    {pred : Option Predicate} {r : List MemItem}
    (h : MemState.collect m t tbl minRow maxRow pred = .ok r) : ∀ it ∈ r, it ∈ t := by
  have key : ∀ mx : Res (Option Item),
      (mx >>= fun maxItem => rowTest tbl.tt pred >>= fun test =>
        rowToItem (toRelationId tbl.tid primaryIndexId) tbl.tt.key minRow >>= fun minItem =>
        MemState.scan m (toRelationId tbl.tid primaryIndexId) maxItem test
          (t.dropWhile fun x => lessItems x.bare minItem)) = .ok r → ∀ it ∈ r, it ∈ t := by
    intro mx h
    cases mx with
    | ok maxItem =>
      cases h1 : rowTest tbl.tt pred with
      | ok test =>
        rw [h1] at h
        cases h2 : rowToItem (toRelationId tbl.tid primaryIndexId) tbl.tt.key minRow with
        | ok minItem =>
          rw [h2] at h
          intro it hi
          exact (List.dropWhile_sublist _).subset
            (mem_scan (show MemState.scan m _ maxItem test _ = .ok r from h) it hi)
        | _ => rw [h2] at h; cases h
      | _ => rw [h1] at h; cases h
    | _ => cases h
  cases maxRow with
  | none => exact key (.ok none) h
  | some row => exact key (rowToItem _ _ (some row) >>= fun it => .ok (some it)) h

theorem project_cells (m : Memory) (row : MemRow) : ∀ cols : List ColumnNum,
    m.cells <$> MemState.project row cols = projectRow (some cols) (m.cells row)
  | [] => rfl
  | col :: cols => by
    have e1 : MemState.project row (col :: cols) = match row[col.toNat]? with
        | none => .panic
        | some val => MemState.project row cols >>= fun vals => .ok (val :: vals) := rfl
    have e2 : projectRow (some (col :: cols)) (m.cells row) = match (m.cells row)[col.toNat]? with
        | none => .panic
        | some val => projectRow (some cols) (m.cells row) >>= fun vals => .ok (val :: vals) := rfl
    rw [e1, e2, ← project_cells m row cols, cells_getElem?]
    cases row[col.toNat]? with
    | none => rfl
    | some v =>
      dsimp only [Option.map_some]
      cases MemState.project row cols <;> rfl

theorem project_inside {m : Memory} {row : MemRow} (hr : ∀ c ∈ row, m.Inside c) :
    ∀ {cols : List ColumnNum} {r : MemRow}, MemState.project row cols = .ok r → ∀ c ∈ r, m.Inside c
  | [], r, h, c, hc => by cases h; cases hc
  | col :: cols, r, h, c, hc => by
    unfold MemState.project at h
    cases hg : row[col.toNat]? with
    | none => rw [hg] at h; cases h
    | some v =>
      rw [hg] at h
      cases hp : MemState.project row cols with
      | ok r' =>
        rw [hp] at h
        cases h
        rcases List.mem_cons.mp hc with rfl | hc
        · exact hr _ (List.mem_of_getElem? hg)
        · exact project_inside hr hp c hc
      | _ => rw [hp] at h; cases h

end Memory
/-! ### The two stores -/

namespace MemState
open Memory

/-- All items that the store and the scans have. -/
def Has (st : MemState) (it : MemItem) : Prop :=
  it ∈ st.stored ∨ it ∈ st.tree ∨ ∃ rs ∈ st.scans, it ∈ rs.items

/-- What a scan is for the store that copies. -/
def seen (m : Memory) (rs : MemRows) : Table × RowsObj := (rs.tbl, ⟨rs.cols, m.tree rs.items, rs.next⟩)

/-- The store with memory and the store that copies have the same in them, and a row of the caller
that is not from `Next` without columns is in memory of its own. -/
structure Sim (st : MemState) (c : CopyState) : Prop where
  sound : st.memory.Sound
  holds : ∀ it, st.Has it → it.row < st.memory.rows.length
  known : ∀ a ∈ st.vars, a < st.memory.rows.length
  vars : c.vars.map (·.vals) = st.vars.map st.memory.row
  own : ∀ (k : Nat) (x : CopyVar) (a : Nat), c.vars[k]? = some x → x.whole = false → st.vars[k]? = some a →
    (∀ it, st.Has it → it.row ≠ a) ∧ ∀ k2, st.vars[k2]? = some a → k2 = k
  stored : c.stored = st.memory.tree st.stored
  tree : c.tree = st.memory.tree st.tree
  scans : c.scans = st.scans.map (seen st.memory)

theorem sim_new : Sim MemState.new CopyState.new where
  sound := by intro r h; cases h
  holds := by
    intro it h
    rcases h with h | h | ⟨rs, h, -⟩ <;> cases h
  known := by intro a h; cases h
  vars := rfl
  own := by intro k x a h; simp [CopyState.new] at h
  stored := rfl
  tree := rfl
  scans := rfl

/-- Other memory in which all that was there is still there. -/
theorem Sim.grow {st : MemState} {c : CopyState} (h : Sim st c) {m' : Memory}
    (hg : Grows st.memory m') (hs : m'.Sound) : Sim { st with memory := m' } c where
  sound := hs
  holds := fun it hi => Nat.lt_of_lt_of_le (h.holds it hi) hg.length
  known := fun a ha => Nat.lt_of_lt_of_le (h.known a ha) hg.length
  vars := by
    rw [h.vars]
    exact List.map_congr_left fun a ha => (hg.row h.sound (h.known a ha)).symm
  own := h.own
  stored := by
    rw [h.stored]
    exact (hg.tree h.sound fun it hi => h.holds it (.inl hi)).symm
  tree := by
    rw [h.tree]
    exact (hg.tree h.sound fun it hi => h.holds it (.inr (.inl hi))).symm
  scans := by
    rw [h.scans]
    refine List.map_congr_left fun rs hr => ?_
    unfold seen
    rw [hg.tree h.sound fun it hi => h.holds it (.inr (.inr ⟨rs, hr, hi⟩))]

/-- Items that were there, or whose rows no row of the caller is. -/
theorem Sim.items {st : MemState} {c : CopyState} (h : Sim st c) {stored tree : MemTree}
    {scans : List MemRows} {cs ct : Tree} {cn : List (Table × RowsObj)}
    (hi : ∀ it, Has { st with stored := stored, tree := tree, scans := scans } it →
      st.Has it ∨ (∀ a ∈ st.vars, it.row ≠ a) ∧ it.row < st.memory.rows.length)
    (h1 : cs = st.memory.tree stored) (h2 : ct = st.memory.tree tree)
    (h3 : cn = scans.map (seen st.memory)) :
    Sim { st with stored := stored, tree := tree, scans := scans }
      { c with stored := cs, tree := ct, scans := cn } where
  sound := h.sound
  holds := fun it hit => (hi it hit).elim (h.holds it) (·.2)
  known := h.known
  vars := h.vars
  own := by
    intro k x a e1 e2 e3
    refine ⟨fun it hit => ?_, (h.own k x a e1 e2 e3).2⟩
    rcases hi it hit with hit | hit
    · exact (h.own k x a e1 e2 e3).1 it hit
    · exact hit.1 a (List.mem_of_getElem? e3)
  stored := h1
  tree := h2
  scans := h3

theorem Sim.length {st : MemState} {c : CopyState} (h : Sim st c) : c.vars.length = st.vars.length := by
  have := congrArg List.length h.vars
  simpa using this

theorem Sim.var {st : MemState} {c : CopyState} (h : Sim st c) (k : Nat) :
    c.var k = (st.vars[k]?).map st.memory.row := by
  unfold CopyState.var
  rw [← List.getElem?_map, h.vars, List.getElem?_map]

/-- A row for the caller: a row of an item, or a new one. -/
theorem Sim.add {st : MemState} {c : CopyState} (h : Sim st c) {a : Nat} (ha : a < st.memory.rows.length)
    {whole : Bool} {vals : Row} (hv : vals = st.memory.row a)
    (h1 : whole = true → ∃ it, st.Has it ∧ it.row = a)
    (h2 : whole = false → (∀ it, st.Has it → it.row ≠ a) ∧ ∀ x ∈ st.vars, x ≠ a) :
    Sim { st with vars := st.vars ++ [a] } { c with vars := c.vars ++ [⟨vals, whole⟩] } where
  sound := h.sound
  holds := h.holds
  known := by
    intro x hx
    rcases List.mem_append.mp hx with hx | hx
    · exact h.known x hx
    · rw [List.mem_singleton.mp hx]
      exact ha
  vars := by
    rw [List.map_append, List.map_append, h.vars, hv]
    rfl
  own := by
    intro k x b e1 e2 e3
    have hl := h.length
    dsimp only at e1 e3
    have here : ∀ k, (st.vars ++ [a])[k]? = some b → (k < st.vars.length ∧ st.vars[k]? = some b) ∨
        (k = st.vars.length ∧ b = a) := by
      intro k e
      rw [List.getElem?_append] at e
      split at e
      · exact .inl ⟨by assumption, e⟩
      · right
        have := List.mem_of_getElem? e
        have hb := List.mem_singleton.mp this
        have hk : k - st.vars.length < 1 := by
          rcases Nat.lt_or_ge (k - st.vars.length) 1 with h | h
          · exact h
          · rw [List.getElem?_eq_none (by simpa using h)] at e; cases e
        exact ⟨by omega, hb⟩
    rcases here k e3 with ⟨hk, e⟩ | ⟨hk, e⟩
    · rw [List.getElem?_append_left (by omega)] at e1
      obtain ⟨g1, g2⟩ := h.own k x b e1 e2 e
      refine ⟨g1, fun k2 hk2 => ?_⟩
      rcases here k2 hk2 with ⟨-, e'⟩ | ⟨-, e'⟩
      · exact g2 k2 e'
      · subst e'
        cases whole with
        | true =>
          obtain ⟨it, i1, i2⟩ := h1 rfl
          exact absurd i2 (g1 it i1)
        | false => exact absurd rfl ((h2 rfl).2 b (List.mem_of_getElem? e))
    · subst e
      rw [hk, ← hl, List.getElem?_append_right (Nat.le_refl _)] at e1
      simp at e1
      subst e1
      obtain ⟨g1, g2⟩ := h2 e2
      refine ⟨g1, fun k2 hk2 => ?_⟩
      rcases here k2 hk2 with ⟨-, e'⟩ | ⟨e', -⟩
      · exact absurd rfl (g2 b (List.mem_of_getElem? e'))
      · omega
  stored := h.stored
  tree := h.tree
  scans := h.scans

/-- A row that is new. -/
theorem Sim.addNew {st : MemState} {c : CopyState} (h : Sim st c) {m : Memory} {r : MemRow} {vals : Row}
    (hm : Made st.memory r vals m) :
    Sim { st with memory := (m.newRow r).2, vars := st.vars ++ [(m.newRow r).1] }
      { c with vars := c.vars ++ [⟨vals, false⟩] } := by
  obtain ⟨e1, hg, hs, e2, e3⟩ := hm.newRow h.sound
  rw [e1]
  refine (h.grow hg hs).add (a := st.memory.rows.length) ?_ e2.symm (by simp) ?_
  · show _ < (m.newRow r).2.rows.length
    omega
  · intro _
    refine ⟨fun it hi => ?_, fun x hx => ?_⟩
    · have := h.holds it hi
      omega
    · have := h.known x hx
      omega

/-- A value of a row of the caller is changed. -/
theorem Sim.set {st : MemState} {c : CopyState} (h : Sim st c) {k i a : Nat} {x : CopyVar}
    {v : Option Value} {cell : Option MemVal} (h1 : st.vars[k]? = some a) (h2 : c.vars[k]? = some x)
    (h3 : x.whole = false) (h4 : st.memory.Inside cell) (h5 : cell.map st.memory.value = v) :
    Sim { st with memory := { st.memory with
        rows := st.memory.rows.set a ((st.memory.rows.getD a []).set i cell) } }
      { c with vars := c.vars.set k { x with vals := x.vals.set i v } } := by
  have ha := h.known a (List.mem_of_getElem? h1)
  obtain ⟨g1, g2⟩ := h.own k x a h2 h3 h1
  have hx : x.vals = st.memory.row a := by
    have := h.var k
    unfold CopyState.var at this
    rw [h2, h1] at this
    exact Option.some.inj this
  have same : ∀ b, b ≠ a → Memory.row { st.memory with
      rows := st.memory.rows.set a ((st.memory.rows.getD a []).set i cell) } b = st.memory.row b := by
    generalize (st.memory.rows.getD a []).set i cell = r
    intro b hb
    unfold Memory.row
    dsimp only
    rw [List.getD_eq_getElem?_getD, List.getElem?_set_ne (Ne.symm hb), ← List.getD_eq_getElem?_getD]
    rfl
  have tsame : ∀ t : MemTree, (∀ it ∈ t, st.Has it) → Memory.tree { st.memory with
      rows := st.memory.rows.set a ((st.memory.rows.getD a []).set i cell) } t = st.memory.tree t := by
    intro t ht
    refine List.map_congr_left fun it hi => ?_
    unfold Memory.item
    rw [same _ (g1 it (ht it hi))]
  refine ⟨?_, ?_, ?_, ?_, ?_, ?_, ?_, ?_⟩
  · intro r hr y hy
    rcases List.mem_or_eq_of_mem_set hr with hr | rfl
    · exact h.sound r hr y hy
    · rcases List.mem_or_eq_of_mem_set hy with hy | rfl
      · exact h.sound.getD a y hy
      · exact h4
  · intro it hi
    have := h.holds it hi
    simpa using this
  · intro b hb
    have := h.known b hb
    simpa using this
  · refine List.ext_getElem? fun j => ?_
    have hj : (c.vars[j]?).map (·.vals) = (st.vars[j]?).map st.memory.row := by
      rw [← List.getElem?_map, h.vars, List.getElem?_map]
    dsimp only
    rw [List.getElem?_map, List.getElem?_map]
    by_cases e : k = j
    · subst e
      have hk : k < c.vars.length := by
        rcases Nat.lt_or_ge k c.vars.length with h | h
        · exact h
        · rw [List.getElem?_eq_none h] at h2; cases h2
      rw [List.getElem?_set_self hk, h1]
      simp only [Option.map_some, Option.some.injEq]
      have e1 : (st.memory.rows.set a ((st.memory.rows.getD a []).set i cell)).getD a [] =
          (st.memory.rows.getD a []).set i cell := by
        rw [List.getD_eq_getElem?_getD, List.getElem?_set_self ha]
        rfl
      have e2 : Memory.row { st.memory with
          rows := st.memory.rows.set a ((st.memory.rows.getD a []).set i cell) } a =
          st.memory.cells ((st.memory.rows.getD a []).set i cell) := by
        unfold Memory.row
        dsimp only
        rw [e1]
        rfl
      rw [e2, hx]
      unfold Memory.row Memory.cells
      rw [List.map_set, h5]
    · rw [List.getElem?_set_ne e, hj]
      cases hv : st.vars[j]? with
      | none => rfl
      | some b =>
        have hb : b ≠ a := fun e' => e (g2 j (e' ▸ hv)).symm
        simp only [Option.map_some, same b hb]
  · intro k2 y b e1 e2 e3
    dsimp only at e1 e3
    by_cases e : k = k2
    · subst e
      rw [h1] at e3
      cases e3
      exact ⟨g1, g2⟩
    · rw [List.getElem?_set_ne e] at e1
      exact h.own k2 y b e1 e2 e3
  · exact h.stored.trans (tsame _ fun it hi => .inl hi).symm
  · exact h.tree.trans (tsame _ fun it hi => .inr (.inl hi)).symm
  · rw [h.scans]
    refine List.map_congr_left fun rs hr => ?_
    unfold seen
    rw [tsame _ fun it hi => .inr (.inr ⟨rs, hr, hi⟩)]

theorem Sim.scan {st : MemState} {c : CopyState} (h : Sim st c) (s : Nat) :
    c.scans[s]? = (st.scans[s]?).map (seen st.memory) := by
  rw [h.scans, List.getElem?_map]

theorem current_seen (m : Memory) (rs : MemRows) : (seen m rs).2.current = current rs := by
  unfold seen RowsObj.current current
  dsimp only
  split
  · rfl
  · unfold Memory.tree
    rw [List.getElem?_map]
    cases rs.items[(rs.next - 1).toNat]? <;> rfl

theorem mem_vars {vars rows : List Nat} {ks : List Nat} (h : ks.mapM (vars[·]?) = some rows) :
    ∀ a ∈ rows, a ∈ vars := by
  induction ks generalizing rows with
  | nil => simp at h; subst h; intro a ha; cases ha
  | cons k ks ih =>
    rw [List.mapM_cons] at h
    cases hk : vars[k]? with
    | none => rw [hk] at h; cases h
    | some b =>
      rw [hk] at h
      cases hks : ks.mapM (vars[·]?) with
      | none => rw [hks] at h; cases h
      | some bs =>
        rw [hks] at h
        cases h
        intro a ha
        rcases List.mem_cons.mp ha with rfl | ha
        · exact List.mem_of_getElem? hk
        · exact ih hks a ha

theorem Sim.mapM {st : MemState} {c : CopyState} (h : Sim st c) (ks : List Nat) :
    ks.mapM c.var = (ks.mapM (st.vars[·]?)).map (·.map st.memory.row) := by
  induction ks with
  | nil => rfl
  | cons k ks ih =>
    rw [List.mapM_cons, List.mapM_cons, ih, h.var k]
    cases st.vars[k]? with
    | none => rfl
    | some a => cases ks.mapM (st.vars[·]?) <;> rfl

/-- After a call that changes the tree only. -/
theorem Sim.after {st : MemState} {c : CopyState} (h : Sim st c) {m : Memory} {t : MemTree}
    (ha : After st.memory st.tree m t) :
    Sim { st with memory := m, tree := t } { c with tree := m.tree t } := by
  have hg := h.grow ha.grows ha.sound
  refine hg.items (stored := st.stored) (scans := st.scans) ?_ hg.stored rfl hg.scans
  intro it hi
  rcases hi with hi | hi | hi
  · exact .inl (.inl hi)
  · rcases ha.items it hi with hi' | hi'
    · exact .inl (.inr (.inl hi'))
    · refine .inr ⟨fun a hv => ?_, ha.holds it hi⟩
      have := h.known a hv
      omega
  · exact .inl (.inr (.inr hi))

theorem Sim.tree_holds {st : MemState} {c : CopyState} (h : Sim st c) : st.memory.Holds st.tree :=
  fun it hi => h.holds it (.inr (.inl hi))

/-- One step. -/
theorem Sim.step (env : StoreEnv) {st : MemState} {c : CopyState} (h : Sim st c) {call : MemCall}
    (hk : c.Keeps call) :
    (st.step env call).1 = (c.step env call).1 ∧ Sim (st.step env call).2 (c.step env call).2 := by
  cases call with
  | row vals => exact ⟨rfl, h.addNew (newValues_made vals st.memory)⟩
  | cell k i val =>
    have hv := h.var k
    unfold MemState.step CopyState.step CopyState.setCell
    dsimp only
    unfold CopyState.var at hv
    cases h1 : st.vars[k]? with
    | none =>
      rw [h1] at hv
      cases h2 : c.vars[k]? with
      | none => exact ⟨rfl, h⟩
      | some x => rw [h2] at hv; cases hv
    | some a =>
      rw [h1] at hv
      cases h2 : c.vars[k]? with
      | none => rw [h2] at hv; cases hv
      | some x =>
        rw [h2] at hv
        have hx : x.vals = st.memory.row a := Option.some.inj hv
        have hl : x.vals.length = (st.memory.rows.getD a []).length := by
          rw [hx]
          simp [Memory.row, Memory.cells]
        dsimp only
        rw [hl]
        split
        · obtain ⟨g1, g2, g3, g4⟩ := newValue_made st.memory val
          have hs : (st.memory.newValue val).2.Sound := by
            intro r hr y hy
            rw [g2] at hr
            exact g1.inside (h.sound r hr y hy)
          exact ⟨rfl, (h.grow g1 hs).set h1 h2 (hk x h2) g3 g4⟩
        · exact ⟨rfl, h⟩
  | copy k i k2 i2 =>
    have hv := h.var k
    have hv2 := h.var k2
    unfold MemState.step CopyState.step CopyState.setCell
    dsimp only
    rw [hv2]
    unfold CopyState.var at hv
    cases h1 : st.vars[k]? with
    | none =>
      rw [h1] at hv
      cases h2 : c.vars[k]? with
      | none =>
        cases st.vars[k2]? with
        | none => exact ⟨rfl, h⟩
        | some a2 =>
          dsimp only [Option.map_some]
          cases (st.memory.row a2)[i2]? <;> exact ⟨rfl, h⟩
      | some x => rw [h2] at hv; cases hv
    | some a =>
      rw [h1] at hv
      cases h2 : c.vars[k]? with
      | none => rw [h2] at hv; cases hv
      | some x =>
        rw [h2] at hv
        have hx : x.vals = st.memory.row a := Option.some.inj hv
        have hl : x.vals.length = (st.memory.rows.getD a []).length := by
          rw [hx]
          simp [Memory.row, Memory.cells]
        cases h3 : st.vars[k2]? with
        | none => exact ⟨rfl, h⟩
        | some a2 =>
          dsimp only [Option.map_some]
          have hc : (st.memory.row a2)[i2]? =
              ((st.memory.rows.getD a2 [])[i2]?).map (Option.map st.memory.value) := cells_getElem? _ _ _
          rw [hc]
          cases h4 : (st.memory.rows.getD a2 [])[i2]? with
          | none => exact ⟨rfl, h⟩
          | some cell =>
            dsimp only [Option.map_some]
            rw [hl]
            split
            · exact ⟨rfl, h.set h1 h2 (hk x h2) (h.sound.getD a2 _ (List.mem_of_getElem? h4)) rfl⟩
            · exact ⟨rfl, h⟩
  | byte k i j b => exact hk.elim
  | read k =>
    unfold MemState.step CopyState.step
    dsimp only
    rw [h.var k]
    cases st.vars[k]? <;> exact ⟨rfl, h⟩
  | insert tbl ks =>
    unfold MemState.step CopyState.step
    dsimp only
    rw [h.mapM ks]
    cases hm : ks.mapM (st.vars[·]?) with
    | none => exact ⟨rfl, h⟩
    | some rows =>
      obtain ⟨r, m', t', e1, e2, e3⟩ := insert_after env tbl rows st.memory st.tree h.sound h.tree_holds
        (fun a ha => h.known a (mem_vars hm a ha))
      dsimp only [Option.map_some]
      rw [h.tree, e1, e3]
      exact ⟨rfl, h.after e2⟩
  | rows tbl cols minRow maxRow pred =>
    have e : ∀ r : Option Nat, r.bind c.var = (r.bind (st.vars[·]?)).map st.memory.row := by
      intro r
      cases r with
      | none => rfl
      | some k => exact h.var k
    unfold MemState.step CopyState.step tableRows
    dsimp only
    rw [e minRow, e maxRow, h.tree, ← collect_tree]
    cases hc : MemState.collect st.memory st.tree tbl ((minRow.bind (st.vars[·]?)).map st.memory.row)
        ((maxRow.bind (st.vars[·]?)).map st.memory.row) pred with
    | ok items =>
      refine ⟨rfl, ?_⟩
      refine h.items (stored := st.stored) (tree := st.tree) ?_ h.stored rfl ?_
      · intro it hi
        rcases hi with hi | hi | ⟨rs, hr, hi⟩
        · exact .inl (.inl hi)
        · exact .inl (.inr (.inl hi))
        · rcases List.mem_append.mp hr with hr | hr
          · exact .inl (.inr (.inr ⟨rs, hr, hi⟩))
          · rw [List.mem_singleton.mp hr] at hi
            exact .inl (.inr (.inl (mem_collect hc it hi)))
      · rw [List.map_append, h.scans]
        rfl
    | err e => exact ⟨rfl, h⟩
    | panic => exact ⟨rfl, h⟩
  | next s =>
    have hsc := h.scan s
    unfold MemState.step CopyState.step
    dsimp only
    rw [hsc]
    cases hs : st.scans[s]? with
    | none => exact ⟨rfl, h⟩
    | some rs =>
      have hrs := List.mem_of_getElem? hs
      -- the scan after the call
      have moved : ∀ (m : Memory) (n : Int), Grows st.memory m → m.Sound →
          Sim { st with memory := m, scans := st.scans.set s { rs with next := n } }
            { c with scans := c.scans.set s (rs.tbl, ⟨rs.cols, st.memory.tree rs.items, n⟩) } := by
        intro m n hg hs'
        have hgr := h.grow hg hs'
        refine hgr.items (stored := st.stored) (tree := st.tree) ?_ hgr.stored hgr.tree ?_
        · intro it hi
          rcases hi with hi | hi | ⟨r, hr, hi⟩
          · exact .inl (.inl hi)
          · exact .inl (.inr (.inl hi))
          · rcases List.mem_or_eq_of_mem_set hr with hr | rfl
            · exact .inl (.inr (.inr ⟨r, hr, hi⟩))
            · exact .inl (.inr (.inr ⟨rs, hrs, hi⟩))
        · rw [List.map_set, hgr.scans]
          unfold seen
          dsimp only
          rw [hg.tree h.sound fun it hi => h.holds it (.inr (.inr ⟨rs, hrs, hi⟩))]
      have hself : st.memory.Sound := h.sound
      dsimp only [Option.map_some, seen]
      unfold MemState.nextRow RowsObj.nextRow
      dsimp only
      by_cases hn : rs.next < 0
      · rw [if_pos hn, if_pos hn]
        exact ⟨rfl, moved st.memory rs.next (Grows.refl _) hself⟩
      · rw [if_neg hn, if_neg hn]
        have hit : (st.memory.tree rs.items)[rs.next.toNat]? = (rs.items[rs.next.toNat]?).map st.memory.item := by
          unfold Memory.tree
          rw [List.getElem?_map]
        rw [hit]
        cases hi : rs.items[rs.next.toNat]? with
        | none => exact ⟨rfl, moved st.memory rs.next (Grows.refl _) hself⟩
        | some it =>
          have hmem := List.mem_of_getElem? hi
          dsimp only [Option.map_some]
          cases hcols : rs.cols with
          | none =>
            refine ⟨rfl, ?_⟩
            have := moved st.memory (rs.next + 1) (Grows.refl _) hself
            rw [hcols] at this
            refine this.add (a := it.row) (whole := true) (h.holds it (.inr (.inr ⟨rs, hrs, hmem⟩))) rfl ?_ (by simp)
            intro _
            refine ⟨it, .inr (.inr ⟨{ rs with cols := none, next := rs.next + 1 }, ?_, hmem⟩), rfl⟩
            refine List.mem_of_getElem? (i := s) (List.getElem?_set_self ?_)
            rcases Nat.lt_or_ge s st.scans.length with h | h
            · exact h
            · rw [List.getElem?_eq_none h] at hs; cases hs
          | some cols =>
            have hp := project_cells st.memory (st.memory.rows.getD it.row []) cols
            have e : st.memory.cells (st.memory.rows.getD it.row []) = (st.memory.item it).row := rfl
            rw [e] at hp
            rw [← hp]
            dsimp only
            have hmv := moved st.memory (rs.next + 1) (Grows.refl _) hself
            rw [hcols] at hmv
            cases hpr : MemState.project (st.memory.rows.getD it.row []) cols with
            | panic => exact ⟨rfl, hmv⟩
            | err e => exact ⟨rfl, hmv⟩
            | ok r =>
              have hm : Made st.memory r (st.memory.cells r) st.memory :=
                ⟨Grows.refl _, rfl, project_inside (h.sound.getD it.row) hpr, rfl⟩
              obtain ⟨e1, -, -, e2, -⟩ := hm.newRow h.sound
              refine ⟨?_, hmv.addNew hm⟩
              show Res.ok (some ((st.memory.newRow r).2.row (st.memory.newRow r).1)) = Res.ok (some (st.memory.cells r))
              rw [e1, e2]
  | update s cols k =>
    unfold MemState.step CopyState.step
    dsimp only
    rw [h.scan s, h.var k]
    cases hs : st.scans[s]? with
    | none => exact ⟨rfl, h⟩
    | some rs =>
      cases hv : st.vars[k]? with
      | none => exact ⟨rfl, h⟩
      | some a =>
        have hc := current_seen st.memory rs
        dsimp only [Option.map_some, seen] at hc ⊢
        rw [hc]
        cases MemState.current rs with
        | panic => exact ⟨rfl, h⟩
        | err e => exact ⟨rfl, h⟩
        | ok key =>
          obtain ⟨r, m', t', e1, e2, e3⟩ := update_after env rs.tbl key cols (st.memory.rows.getD a [])
            h.sound h.tree_holds (h.sound.getD a)
          dsimp only
          have e : st.memory.row a = st.memory.cells (st.memory.rows.getD a []) := rfl
          rw [h.tree, e, e1, e3]
          exact ⟨rfl, h.after e2⟩
  | delete s =>
    unfold MemState.step CopyState.step
    dsimp only
    rw [h.scan s]
    cases hs : st.scans[s]? with
    | none => exact ⟨rfl, h⟩
    | some rs =>
      have hc := current_seen st.memory rs
      dsimp only [Option.map_some, seen] at hc ⊢
      rw [hc]
      cases MemState.current rs with
      | panic => exact ⟨rfl, h⟩
      | err e => exact ⟨rfl, h⟩
      | ok key =>
        have hd := tree_delete st.memory (toRelationId rs.tbl.tid primaryIndexId) key 0 st.tree
        dsimp only
        unfold deleteRow keyToItem
        rw [h.tree, ← hd]
        cases hdel : st.tree.delete ⟨toRelationId rs.tbl.tid primaryIndexId, key, 0⟩ with
        | none => exact ⟨rfl, h⟩
        | some t =>
          have hsub : ∀ it ∈ t, it ∈ st.tree := fun x hx => mem_delete hdel hx
          exact ⟨rfl, h.after ⟨Grows.refl _, h.sound, fun it hi => h.tree_holds it (hsub it hi),
            fun it hi => .inl (hsub it hi)⟩⟩
  | commit =>
    refine ⟨rfl, h.items (stored := st.tree) (tree := st.tree) ?_ h.tree h.tree ?_⟩
    · intro it hi
      rcases hi with hi | hi | ⟨r, hr, hi⟩
      · exact .inl (.inr (.inl hi))
      · exact .inl (.inr (.inl hi))
      · obtain ⟨rs, hrs, rfl⟩ := List.mem_map.mp hr
        exact .inl (.inr (.inr ⟨rs, hrs, hi⟩))
    · unfold CopyState.closed
      rw [h.scans, List.map_map, List.map_map]
      rfl
  | rollback =>
    refine ⟨rfl, h.items (stored := st.stored) (tree := st.stored) ?_ h.stored h.stored ?_⟩
    · intro it hi
      rcases hi with hi | hi | ⟨r, hr, hi⟩
      · exact .inl (.inl hi)
      · exact .inl (.inl hi)
      · obtain ⟨rs, hrs, rfl⟩ := List.mem_map.mp hr
        exact .inl (.inr (.inr ⟨rs, hrs, hi⟩))
    · unfold CopyState.closed
      rw [h.scans, List.map_map, List.map_map]
      rfl

theorem Sim.run (env : StoreEnv) : ∀ (calls : List MemCall) {st : MemState} {c : CopyState}, Sim st c →
    CopyState.AllKeep env c calls → MemState.run env st calls = CopyState.run env c calls
  | [], _, _, _, _ => rfl
  | call :: calls, st, c, h, hk => by
    obtain ⟨e, h'⟩ := h.step env hk.1
    show _ :: MemState.run env (st.step env call).2 calls = _ :: CopyState.run env (c.step env call).2 calls
    rw [Sim.run env calls h' hk.2]
    exact congrArg (· :: _) e

end MemState
end Maho
