import Verif.Spec.World
import Verif.Lemmas.TableTypes
/-
The invariant of the store and what one operation does to the trees.
-/
namespace Maho
open Spec

def Phase.holds : Phase → Bool
  | .begun | .active | .published | .releasing => true
  | .unlocked | .completed => false

theorem holds_iff {w : World} {i : Nat} :
    Holds w i ↔ ∃ s, w.txs[i]? = some s ∧ s.phase.holds = true := by
  unfold Holds
  constructor
  · rintro ⟨s, h, hp⟩
    refine ⟨s, h, ?_⟩
    rcases hp with hp | hp | hp | hp <;> rw [hp] <;> rfl
  · rintro ⟨s, h, hp⟩
    refine ⟨s, h, ?_⟩
    cases hs : s.phase <;> rw [hs] at hp <;> simp [Phase.holds] at hp <;> simp

structure WInv (w : World) : Prop where
  store : w.storeTree < w.heap.length
  tree : ∀ (i : Nat) (s : TxState), w.txs[i]? = some s → s.phase = .active → s.tree < w.heap.length
  holder : ∀ (i : Nat) (s : TxState), w.txs[i]? = some s → s.phase.holds = true → i + 1 = w.txs.length ∧ w.locked = true
  locked : w.locked = true → ∃ s, w.txs[w.txs.length - 1]? = some s ∧ s.phase.holds = true
  count : ∀ (i : Nat) (s : TxState), w.txs[i]? = some s → s.rowsCount = (openRows w i : Int)
  idle : ∀ (i : Nat) (s : TxState), w.txs[i]? = some s → s.phase ≠ .active → s.rowsCount = 0
  rowsTx : ∀ e ∈ w.rows, e.tx < w.txs.length
  tablesTx : ∀ e ∈ w.tables, e.tx < w.txs.length
  refsTx : ∀ e ∈ w.refs, e.tx < w.txs.length

theorem wInv_initial : WInv World.initial := by
  constructor <;> simp [World.initial]

theorem treeOf_some {w : World} {i : Nat} {t : Tree} :
    w.treeOf i = some t ↔ ∃ s, w.txs[i]? = some s ∧ s.phase = .active ∧ w.heap[s.tree]? = some t := by
  unfold World.treeOf
  constructor
  · intro h
    split at h
    · next p n hs => exact ⟨_, hs, rfl, h⟩
    · cases h
  · rintro ⟨⟨ph, p, n⟩, hs, hp, ht⟩
    simp only at hp ht
    subst hp
    rw [hs]
    exact ht

theorem treeOf_active {w : World} (hi : WInv w) {i : Nat} {s : TxState} (hs : w.txs[i]? = some s)
    (hp : s.phase = .active) : ∃ t, w.treeOf i = some t := by
  have := hi.tree i s hs hp
  exact ⟨_, treeOf_some.2 ⟨s, hs, hp, List.getElem?_eq_getElem this⟩⟩

/-! ### The write step -/

/-- The state after a write of `t'` by transaction `i`. -/
def World.writeStep (w : World) (i : Nat) (t' : Tree) : World := (w.forWrite i).store i t'

/-- The effect of a write on the parts of the world. -/
theorem writeStep_spec {w : World} (hi : WInv w) {i : Nat} {t : Tree} (ht : w.treeOf i = some t)
    (t' : Tree) :
    ∃ p heap, p < heap.length ∧ p ≠ w.storeTree ∧ w.heap.length ≤ heap.length ∧
      (∀ q, q < w.heap.length → q ≠ p → heap[q]? = w.heap[q]?) ∧ heap[p]? = some t' ∧
      w.writeStep i t' = { w with heap := heap, txs := w.txs.modify i fun s => { s with tree := p } } := by
  obtain ⟨⟨ph, p, n⟩, hs, hp, hh⟩ := treeOf_some.1 ht
  simp only at hp hh
  subst hp
  have hlt := hi.tree i _ hs rfl
  simp only at hlt
  unfold World.writeStep World.forWrite
  simp only [hs]
  by_cases hps : p = w.storeTree
  · rw [if_pos hps]
    unfold World.store
    simp only
    rw [List.getElem?_modify]
    simp only [hs, if_true]
    refine ⟨w.heap.length, (w.heap ++ [w.heap.getD p []]).set w.heap.length t', ?_, ?_, ?_, ?_, ?_, ?_⟩
    · simp
    · have := hi.store; omega
    · simp
    · intro q hq hne
      rw [List.getElem?_set_ne (by omega), List.getElem?_append_left hq]
    · rw [List.getElem?_set_self (by simp)]
    · rfl
  · rw [if_neg hps]
    unfold World.store
    simp only [hs]
    refine ⟨p, w.heap.set p t', by simpa using hlt, hps, by simp, ?_, by rw [List.getElem?_set_self hlt], ?_⟩
    · intro q _ hne
      rw [List.getElem?_set_ne (by omega)]
    · have hmod : w.txs.modify i (fun s => { s with tree := p }) = w.txs := by
        apply List.ext_getElem?
        intro j
        rw [List.getElem?_modify]
        by_cases hij : i = j
        · subst hij; rw [hs]; simp
        · cases w.txs[j]? <;> simp [hij]
      rw [hmod]

/-- A write of the same tree. -/
theorem writeStep_inv {w : World} (hi : WInv w) {i : Nat} {t : Tree} (ht : w.treeOf i = some t)
    (t' : Tree) : WInv (w.writeStep i t') := by
  obtain ⟨p, heap, h1, h2, h3, h4, h5, e⟩ := writeStep_spec hi ht t'
  rw [e]
  have key : ∀ (j : Nat) s, (w.txs.modify i fun s => { s with tree := p })[j]? = some s →
      ∃ s0, w.txs[j]? = some s0 ∧ s.phase = s0.phase ∧ s.rowsCount = s0.rowsCount ∧
        (s.tree = p ∨ s.tree = s0.tree) := by
    intro j s hs
    rw [List.getElem?_modify] at hs
    cases hj : w.txs[j]? with
    | none => rw [hj] at hs; simp at hs
    | some s0 =>
      rw [hj] at hs
      by_cases hij : i = j
      · simp only [hij, if_true, Option.map_eq_map, Option.map_some, Option.some.injEq] at hs
        subst hs; exact ⟨s0, rfl, rfl, rfl, .inl rfl⟩
      · simp only [hij, if_false, Option.map_eq_map, Option.map_some, Option.some.injEq] at hs
        subst hs; exact ⟨s0, rfl, rfl, rfl, .inr rfl⟩
  constructor
  · have := hi.store; simp only; omega
  · intro j s hs hp
    obtain ⟨s0, hs0, e1, _, e3⟩ := key j s hs
    have := hi.tree j s0 hs0 (e1 ▸ hp)
    simp only
    rcases e3 with e3 | e3 <;> omega
  · intro j s hs hp
    obtain ⟨s0, hs0, e1, _, _⟩ := key j s hs
    have := hi.holder j s0 hs0 (e1 ▸ hp)
    simpa using this
  · intro hl
    obtain ⟨s, hs, hp⟩ := hi.locked hl
    simp only [List.length_modify]
    refine ⟨_, by rw [List.getElem?_modify, hs]; rfl, ?_⟩
    by_cases hij : i = w.txs.length - 1
    · simp only [hij, if_true]; exact hp
    · simp only [hij, if_false]; exact hp
  · intro j s hs
    obtain ⟨s0, hs0, _, e2, _⟩ := key j s hs
    rw [e2]; exact hi.count j s0 hs0
  · intro j s hs hp
    obtain ⟨s0, hs0, e1, e2, _⟩ := key j s hs
    rw [e2]; exact hi.idle j s0 hs0 (e1 ▸ hp)
  · simpa using hi.rowsTx
  · simpa using hi.tablesTx
  · simpa using hi.refsTx

theorem writeStep_treeOf {w : World} (hi : WInv w) {i : Nat} {t : Tree} (ht : w.treeOf i = some t)
    (t' : Tree) (j : Nat) : (w.writeStep i t').treeOf j = if j = i then some t' else w.treeOf j := by
  obtain ⟨p, heap, h1, h2, h3, h4, h5, e⟩ := writeStep_spec hi ht t'
  rw [e]
  obtain ⟨s, hs, hp, _⟩ := treeOf_some.1 ht
  by_cases hj : j = i
  · subst hj
    rw [if_pos rfl]
    apply treeOf_some.2
    refine ⟨{ s with tree := p }, ?_, hp, h5⟩
    simp [hs]
  · rw [if_neg hj]
    have hn : ∀ {t}, w.treeOf j ≠ some t := by
      intro t hjt
      obtain ⟨s2, hs2, hp2, _⟩ := treeOf_some.1 hjt
      have a := (hi.holder i s hs (by rw [hp]; rfl)).1
      have b := (hi.holder j s2 hs2 (by rw [hp2]; rfl)).1
      omega
    have hnone : w.treeOf j = none := by
      cases h : w.treeOf j with
      | none => rfl
      | some t => exact absurd h hn
    rw [hnone]
    cases h : World.treeOf { w with heap := heap, txs := w.txs.modify i fun s => { s with tree := p } } j with
    | none => rfl
    | some t1 =>
      exfalso
      obtain ⟨s2, hs2, hp2, _⟩ := treeOf_some.1 h
      simp only [List.getElem?_modify] at hs2
      have : i ≠ j := fun h => hj h.symm
      simp only [this, if_false] at hs2
      cases hw : w.txs[j]? with
      | none => rw [hw] at hs2; simp at hs2
      | some s3 =>
        rw [hw] at hs2
        simp at hs2
        subst hs2
        obtain ⟨t2, ht2⟩ := treeOf_active hi hw hp2
        exact hn ht2

theorem writeStep_committed {w : World} (hi : WInv w) {i : Nat} {t : Tree} (ht : w.treeOf i = some t)
    (t' : Tree) : committed (w.writeStep i t') = committed w := by
  obtain ⟨p, heap, h1, h2, h3, h4, h5, e⟩ := writeStep_spec hi ht t'
  rw [e]
  unfold committed
  simp only [List.getD_eq_getElem?_getD]
  rw [h4 w.storeTree hi.store (fun h => h2 h.symm)]

theorem writeStep_rest {w : World} (hi : WInv w) {i : Nat} {t : Tree} (ht : w.treeOf i = some t)
    (t' : Tree) : (w.writeStep i t').tables = w.tables ∧ (w.writeStep i t').rows = w.rows ∧
      (w.writeStep i t').refs = w.refs ∧ (w.writeStep i t').locked = w.locked ∧
      (w.writeStep i t').txs.length = w.txs.length ∧
      ∀ j : Nat, ((w.writeStep i t').txs[j]?).map (fun s => (s.phase, s.rowsCount)) =
        (w.txs[j]?).map (fun s => (s.phase, s.rowsCount)) := by
  obtain ⟨p, heap, h1, h2, h3, h4, h5, e⟩ := writeStep_spec hi ht t'
  rw [e]
  refine ⟨rfl, rfl, rfl, rfl, by simp, ?_⟩
  intro j
  simp only [List.getElem?_modify]
  cases w.txs[j]? with
  | none => rfl
  | some s => by_cases h : i = j <;> simp [h]

/-- Copying the tree is the same as writing the tree that is there. -/
theorem forWrite_eq {w : World} {i : Nat} {t : Tree} (ht : w.treeOf i = some t) :
    w.forWrite i = w.writeStep i t := by
  obtain ⟨⟨ph, p, n⟩, hs, hp, hh⟩ := treeOf_some.1 ht
  simp only at hp hh
  subst hp
  unfold World.writeStep World.forWrite
  simp only [hs]
  by_cases hps : p = w.storeTree
  · rw [if_pos hps]
    unfold World.store
    simp only
    rw [List.getElem?_modify]
    simp only [hs, if_true]
    have : (w.heap ++ [w.heap.getD p []]).set w.heap.length t = w.heap ++ [w.heap.getD p []] := by
      apply List.ext_getElem?
      intro j
      rw [List.getElem?_set]
      split
      · next h =>
        subst h
        simp [List.getD_eq_getElem?_getD, hh]
      · rfl
    simp only [Option.map_eq_map, Option.map_some, this]
  · rw [if_neg hps]
    unfold World.store
    simp only [hs]
    have : w.heap.set p t = w.heap := by
      apply List.ext_getElem?
      intro j
      rw [List.getElem?_set]
      split
      · next h =>
        subst h
        rw [hh]
        split
        · rfl
        · next hlt => rw [List.getElem?_eq_none (by omega)] at hh; cases hh
      · rfl
    rw [this]


/-! ### What one operation does -/

/-- The effect of an operation on the world. -/
inductive Effect (env : StoreEnv) (w : World) : Op → Reply → World → Prop
  | same {op r} : (∀ i wr t, writeOf w op = some (i, wr) → w.treeOf i = some t → applyWrite env t wr = t) →
      (∀ i, op = .commit i → r ≠ .done) → Effect env w op r w
  | write {op r i t wr} : w.treeOf i = some t → writeOf w op = some (i, wr) →
      Effect env w op r (w.writeStep i (applyWrite env t wr))
  | begin : w.locked = false → Effect env w .beginLock (.handle w.txs.length)
      { w with locked := true, txs := w.txs ++ [⟨.begun, 0, 0⟩] }
  | read {i s} : w.txs[i]? = some s → s.phase = .begun → Effect env w (.beginRead i) .done
      (w.setTx i fun s => { s with phase := .active, tree := w.storeTree })
  | commit {i s} : w.txs[i]? = some s → s.phase = .active → s.rowsCount = 0 →
      Effect env w (.commit i) .done
        { w.setTx i (fun s => { s with phase := .published }) with storeTree := s.tree }
  | rollback {i s} : w.txs[i]? = some s → s.phase = .active → s.rowsCount = 0 →
      Effect env w (.rollback i) .done (w.setTx i fun s => { s with phase := .releasing })
  | unlock {i s} : w.txs[i]? = some s → s.phase = .published ∨ s.phase = .releasing → w.locked = true →
      Effect env w (.unlock i) .done
        { w.setTx i (fun s => { s with phase := .unlocked }) with locked := false }
  | forget {i s} : w.txs[i]? = some s → s.phase = .unlocked → Effect env w (.forget i) .done
      (w.setTx i fun s => { s with phase := .completed, tree := 0 })
  | tables {i t tid tn cn ct key tbl} : w.treeOf i = some t →
      openTable env t tid tn cn ct key = .ok tbl →
      Effect env w (.openTable i tid tn cn ct key) (.handle w.tables.length)
        { w with tables := w.tables ++ [⟨i, tbl⟩] }
  | rows {n i tbl t cols mn mx pred rs} : w.tables[n]? = some ⟨i, tbl⟩ → w.treeOf i = some t →
      tableRows t tbl cols mn mx pred = .ok rs →
      Effect env w (.rows n cols mn mx pred) (.handle w.rows.length)
        { w.setTx i (fun s => { s with rowsCount := s.rowsCount + 1 }) with
          rows := w.rows ++ [⟨i, tbl, rs⟩] }
  | next {n e r} : w.rows[n]? = some e →
      Effect env w (.next n) r { w with rows := w.rows.set n { e with obj := e.obj.nextRow.2 } }
  | refs {n e key} : w.rows[n]? = some e → e.obj.current = .ok key →
      Effect env w (.current n) (.handle w.refs.length)
        { w with refs := w.refs ++ [⟨e.tx, e.tbl, key⟩] }
  | close {n e} : w.rows[n]? = some e → 0 ≤ e.obj.next → Effect env w (.close n) .done
      { w.setTx e.tx (fun s => { s with rowsCount := s.rowsCount - 1 }) with
        rows := w.rows.set n { e with obj := { e.obj with next := -1 } } }

theorem withTree_cases {w : World} {i : Nat} (f : Tree → Reply × World) :
    (∃ t, w.treeOf i = some t ∧ w.withTree i f = f t) ∨
    (w.treeOf i = none ∧ ((w.withTree i f) = (.panic, w) ∨ (w.withTree i f) = (.impossible, w))) := by
  unfold World.withTree
  cases h : w.treeOf i with
  | some t => exact .inl ⟨t, rfl, rfl⟩
  | none =>
    right
    refine ⟨rfl, ?_⟩
    simp only
    split
    · exact .inl rfl
    · exact .inr rfl

theorem applyWrite_update {env : StoreEnv} {t : Tree} {tbl : Table} {key : Bytes}
    {cols : List ColumnNum} {vals : List (Option Value)} :
    applyWrite env t (.update tbl key cols vals) =
      match updatedRow t tbl key cols vals with
      | .ok row => (storeUpdated env t tbl key cols row).2
      | _ => t := by
  simp only [applyWrite, updateRow]
  cases updatedRow t tbl key cols vals <;> rfl

theorem step_effect {env : StoreEnv} {w : World} (op : Op) :
    Effect env w op (step env w op).1 (step env w op).2 := by
  have noWrite : ∀ {op}, (∀ i wr, writeOf w op ≠ some (i, wr)) →
      ∀ i wr t, writeOf w op = some (i, wr) → w.treeOf i = some t → applyWrite env t wr = t :=
    fun h i wr t hw _ => absurd hw (h i wr)
  cases op with
  | beginLock =>
    simp only [step]
    cases hl : w.locked with
    | true => exact .same (noWrite (by simp [writeOf])) (by simp)
    | false => exact .begin hl
  | beginRead i =>
    simp only [step]
    split
    · next hs => exact .read hs rfl
    · exact .same (noWrite (by simp [writeOf])) (by simp)
  | commit i =>
    simp only [step]
    split
    · exact .same (noWrite (by simp [writeOf])) (by simp)
    · next p n hs =>
      split
      · exact .same (noWrite (by simp [writeOf])) (by simp)
      · next hn => exact .commit hs rfl (Decidable.not_not.1 hn)
    · exact .same (noWrite (by simp [writeOf])) (by simp)
  | rollback i =>
    simp only [step]
    split
    · exact .same (noWrite (by simp [writeOf])) (by simp)
    · next p n hs =>
      split
      · exact .same (noWrite (by simp [writeOf])) (by simp)
      · next hn => exact .rollback hs rfl (Decidable.not_not.1 hn)
    · exact .same (noWrite (by simp [writeOf])) (by simp)
  | unlock i =>
    simp only [step]
    split
    · next hs =>
      cases hl : w.locked with
      | true => exact .unlock hs (.inl rfl) hl
      | false => exact .same (noWrite (by simp [writeOf])) (by simp)
    · next hs =>
      cases hl : w.locked with
      | true => exact .unlock hs (.inr rfl) hl
      | false => exact .same (noWrite (by simp [writeOf])) (by simp)
    · exact .same (noWrite (by simp [writeOf])) (by simp)
  | forget i =>
    simp only [step]
    split
    · next hs => exact .forget hs rfl
    · exact .same (noWrite (by simp [writeOf])) (by simp)
  | openTable i tid tn cn ct key =>
    simp only [step]
    rcases withTree_cases (w := w) (i := i) _ with ⟨t, ht, e⟩ | ⟨_, e | e⟩
    · rw [e]
      split
      · next h => exact .tables ht h
      · exact .same (noWrite (by simp [writeOf])) (by simp)
      · exact .same (noWrite (by simp [writeOf])) (by simp)
    · rw [e]; exact .same (noWrite (by simp [writeOf])) (by simp)
    · rw [e]; exact .same (noWrite (by simp [writeOf])) (by simp)
  | createTable i tid tn cn ct key =>
    simp only [step]
    rcases withTree_cases (w := w) (i := i) _ with ⟨t, ht, e⟩ | ⟨hn, e | e⟩
    · rw [e]
      have hw : writeOf w (.createTable i tid tn cn ct key) = some (i, .create tid tn cn ct key) := by
        simp [writeOf, ht]
      split
      · next t' h =>
        have : applyWrite env t (.create tid tn cn ct key) = t' := by simp [applyWrite, h]
        rw [← this]
        exact .write ht hw
      · next h =>
        refine .same ?_ (by simp)
        intro j wr t2 hw2 ht2
        rw [hw] at hw2; cases hw2
        rw [ht] at ht2; cases ht2
        simp [applyWrite, h]
      · next h =>
        refine .same ?_ (by simp)
        intro j wr t2 hw2 ht2
        rw [hw] at hw2; cases hw2
        rw [ht] at ht2; cases ht2
        simp [applyWrite, h]
    · rw [e]; exact .same (noWrite (by simp [writeOf, hn])) (by simp)
    · rw [e]; exact .same (noWrite (by simp [writeOf, hn])) (by simp)
  | dropTable i tid =>
    simp only [step]
    rcases withTree_cases (w := w) (i := i) _ with ⟨t, ht, e⟩ | ⟨hn, e | e⟩
    · rw [e]
      have hw : writeOf w (.dropTable i tid) = some (i, .drop tid) := by simp [writeOf, ht]
      split
      · next t' h =>
        have : applyWrite env t (.drop tid) = t' := by simp [applyWrite, h]
        rw [← this]
        exact .write ht hw
      · next h =>
        refine .same ?_ (by simp)
        intro j wr t2 hw2 ht2
        rw [hw] at hw2; cases hw2
        rw [ht] at ht2; cases ht2
        simp [applyWrite, h]
      · next h =>
        refine .same ?_ (by simp)
        intro j wr t2 hw2 ht2
        rw [hw] at hw2; cases hw2
        rw [ht] at ht2; cases ht2
        simp [applyWrite, h]
    · rw [e]; exact .same (noWrite (by simp [writeOf, hn])) (by simp)
    · rw [e]; exact .same (noWrite (by simp [writeOf, hn])) (by simp)
  | rows n cols mn mx pred =>
    simp only [step]
    split
    · exact .same (noWrite (by simp [writeOf])) (by simp)
    · next i tbl htb =>
      rcases withTree_cases (w := w) (i := i) _ with ⟨t, ht, e⟩ | ⟨hn, e | e⟩
      · rw [e]
        split
        · next rs h => exact .rows htb ht h
        · exact .same (noWrite (by simp [writeOf])) (by simp)
        · exact .same (noWrite (by simp [writeOf])) (by simp)
      · rw [e]; exact .same (noWrite (by simp [writeOf])) (by simp)
      · rw [e]; exact .same (noWrite (by simp [writeOf])) (by simp)
  | insert n rows =>
    simp only [step]
    split
    · next h => exact .same (noWrite (by simp [writeOf, h])) (by simp)
    · next i tbl htb =>
      rcases withTree_cases (w := w) (i := i) _ with ⟨t, ht, e⟩ | ⟨hn, e | e⟩
      · rw [e]
        exact .write ht (wr := .insert tbl rows) (by simp [writeOf, htb, ht])
      · rw [e]; exact .same (noWrite (by simp [writeOf, htb, hn])) (by simp)
      · rw [e]; exact .same (noWrite (by simp [writeOf, htb, hn])) (by simp)
  | next n =>
    simp only [step]
    split
    · exact .same (noWrite (by simp [writeOf])) (by simp)
    · next e he =>
      split
      · exact .next he
      · exact .next he
      · exact .next he
  | current n =>
    simp only [step]
    split
    · exact .same (noWrite (by simp [writeOf])) (by simp)
    · next e he =>
      split
      · next key hk => exact .refs he hk
      · exact .same (noWrite (by simp [writeOf])) (by simp)
      · exact .same (noWrite (by simp [writeOf])) (by simp)
  | close n =>
    simp only [step]
    split
    · exact .same (noWrite (by simp [writeOf])) (by simp)
    · next e he =>
      unfold RowsObj.close
      split
      · next rs h =>
        split at h
        · cases h
        · next hn => cases h; exact .close he (by omega)
      · next h => split at h <;> cases h
      · exact .same (noWrite (by simp [writeOf])) (by simp)
  | update n cols vals =>
    simp only [step]
    split
    · next h => exact .same (noWrite (by simp [writeOf, h])) (by simp)
    · next i tbl key href =>
      rcases withTree_cases (w := w) (i := i) _ with ⟨t, ht, e⟩ | ⟨hn, e | e⟩
      · rw [e]
        have hw : writeOf w (.update n cols vals) = some (i, .update tbl key cols vals) := by
          simp [writeOf, href, ht]
        split
        · next h =>
          refine .same ?_ (by simp)
          intro j wr t2 hw2 ht2
          rw [hw] at hw2; cases hw2
          rw [ht] at ht2; cases ht2
          rw [applyWrite_update, h]
        · next h =>
          refine .same ?_ (by simp)
          intro j wr t2 hw2 ht2
          rw [hw] at hw2; cases hw2
          rw [ht] at ht2; cases ht2
          rw [applyWrite_update, h]
        · next row h =>
          have := Effect.write (env := env) (r := .ofUnit (storeUpdated env t tbl key cols row).1) ht hw
          rw [applyWrite_update, h] at this
          exact this
      · rw [e]; exact .same (noWrite (by simp [writeOf, href, hn])) (by simp)
      · rw [e]; exact .same (noWrite (by simp [writeOf, href, hn])) (by simp)
  | delete n =>
    simp only [step]
    split
    · next h => exact .same (noWrite (by simp [writeOf, h])) (by simp)
    · next i tbl key href =>
      rcases withTree_cases (w := w) (i := i) _ with ⟨t, ht, e⟩ | ⟨hn, e | e⟩
      · rw [e]
        have hw : writeOf w (.delete n) = some (i, .delete tbl key) := by
          simp [writeOf, href, ht]
        split
        · next t' h =>
          have : applyWrite env t (.delete tbl key) = t' := by simp [applyWrite, h]
          rw [← this]
          exact .write ht hw
        · next e h => exact absurd h deleteRow_no_err
        · next h =>
          have he : applyWrite env t (.delete tbl key) = t := by simp [applyWrite, h]
          have := Effect.write (env := env) (r := .panic) ht hw
          rw [he, ← forWrite_eq ht] at this
          exact this
      · rw [e]; exact .same (noWrite (by simp [writeOf, href, hn])) (by simp)
      · rw [e]; exact .same (noWrite (by simp [writeOf, href, hn])) (by simp)

theorem modify_get {txs : List TxState} {i j : Nat} {f : TxState → TxState} {s : TxState} :
    (txs.modify i f)[j]? = some s ↔ ∃ s0, txs[j]? = some s0 ∧ s = if i = j then f s0 else s0 := by
  rw [List.getElem?_modify]
  cases txs[j]? with
  | none => simp
  | some s0 =>
    by_cases h : i = j
    · simp [h, eq_comm]
    · simp [h, eq_comm]

theorem openRows_set {w : World} {n : Nat} {e e' : RowsEntry} (he : w.rows[n]? = some e) (i : Nat) :
    (w.rows.set n e').countP (fun e => decide (e.tx = i ∧ 0 ≤ e.obj.next)) +
      (if e.tx = i ∧ 0 ≤ e.obj.next then 1 else 0) =
    openRows w i + (if e'.tx = i ∧ 0 ≤ e'.obj.next then 1 else 0) := by
  unfold openRows
  generalize w.rows = l at he
  induction l generalizing n with
  | nil => simp at he
  | cons x xs ih =>
    cases n with
    | zero =>
      simp only [List.getElem?_cons_zero, Option.some.injEq] at he
      subst he
      simp only [List.set_cons_zero, List.countP_cons, decide_eq_true_eq]
      omega
    | succ n =>
      simp only [List.getElem?_cons_succ] at he
      have := ih he
      simp only [List.set_cons_succ, List.countP_cons]
      omega

theorem nextRow_sign (rs : RowsObj) : 0 ≤ rs.nextRow.2.next ↔ 0 ≤ rs.next := by
  unfold RowsObj.nextRow
  split
  · rfl
  · split
    · rfl
    · simp only; omega

theorem effect_inv {env : StoreEnv} {w w' : World} {op : Op} {r : Reply} (hi : WInv w)
    (h : Effect env w op r w') : WInv w' := by
  have upd : ∀ (i : Nat) (f : TxState → TxState) (s : TxState) (hs : w.txs[i]? = some s),
      s.phase.holds = true → i + 1 = w.txs.length := fun i f s hs hp => (hi.holder i s hs hp).1
  cases h with
  | same => exact hi
  | write ht hw => exact writeStep_inv hi ht _
  | begin hl =>
    have hno : ∀ (i : Nat) s, w.txs[i]? = some s → s.phase.holds = false := by
      intro i s hs
      cases hp : s.phase.holds with
      | false => rfl
      | true => have := (hi.holder i s hs hp).2; rw [hl] at this; cases this
    have get : ∀ (i : Nat) s, (w.txs ++ [⟨.begun, 0, 0⟩])[i]? = some s →
        (w.txs[i]? = some s) ∨ (i = w.txs.length ∧ s = ⟨.begun, 0, 0⟩) := by
      intro i s hs
      rcases Nat.lt_or_ge i w.txs.length with hlt | hge
      · rw [List.getElem?_append_left hlt] at hs; exact .inl hs
      · rw [List.getElem?_append_right hge] at hs
        rcases Nat.eq_zero_or_pos (i - w.txs.length) with h0 | h0
        · rw [h0] at hs
          simp only [List.getElem?_cons_zero, Option.some.injEq] at hs
          exact .inr ⟨by omega, hs.symm⟩
        · rw [List.getElem?_eq_none (by simp only [List.length_singleton]; omega)] at hs; cases hs
    have zero : openRows w w.txs.length = 0 := by
      unfold openRows
      rw [List.countP_eq_zero]
      intro e he
      have := hi.rowsTx e he
      simp only [decide_eq_true_eq]
      omega
    constructor
    · exact hi.store
    · intro i s hs hp
      rcases get i s hs with h | ⟨_, rfl⟩
      · exact hi.tree i s h hp
      · cases hp
    · intro i s hs hp
      rcases get i s hs with h | ⟨rfl, rfl⟩
      · rw [hno i s h] at hp; cases hp
      · simp
    · intro _
      simp only [List.length_append, List.length_singleton, Nat.add_sub_cancel]
      exact ⟨⟨.begun, 0, 0⟩, by simp, rfl⟩
    · intro i s hs
      rcases get i s hs with h | ⟨rfl, rfl⟩
      · exact hi.count i s h
      · simp only [openRows] at zero ⊢
        rw [zero]; rfl
    · intro i s hs hp
      rcases get i s hs with h | ⟨rfl, rfl⟩
      · exact hi.idle i s h hp
      · rfl
    · intro e he; have := hi.rowsTx e he; simp only [List.length_append]; omega
    · intro e he; have := hi.tablesTx e he; simp only [List.length_append]; omega
    · intro e he; have := hi.refsTx e he; simp only [List.length_append]; omega
  | read hs hp =>
    rename_i i s
    constructor
    · exact hi.store
    · intro j s' hs' hp'
      obtain ⟨s0, h0, e⟩ := modify_get.1 hs'
      split at e
      · subst e; exact hi.store
      · subst e; exact hi.tree j s' h0 hp'
    · intro j s' hs' hp'
      obtain ⟨s0, h0, e⟩ := modify_get.1 hs'
      simp only [World.setTx, List.length_modify]
      split at e
      · next hij =>
        subst hij
        exact hi.holder i s hs (by rw [hp]; rfl)
      · subst e; exact hi.holder j s' h0 hp'
    · intro hl
      simp only [World.setTx, List.length_modify]
      have hlast := (hi.holder i s hs (by rw [hp]; rfl)).1
      have : w.txs.length - 1 = i := by omega
      rw [this]
      exact ⟨_, modify_get.2 ⟨s, hs, rfl⟩, by simp [Phase.holds]⟩
    · intro j s' hs'
      obtain ⟨s0, h0, e⟩ := modify_get.1 hs'
      have := hi.count j s0 h0
      split at e <;> subst e <;> exact this
    · intro j s' hs' hp'
      obtain ⟨s0, h0, e⟩ := modify_get.1 hs'
      split at e
      · subst e; exact absurd rfl hp'
      · subst e; exact hi.idle j s' h0 hp'
    · simpa [World.setTx] using hi.rowsTx
    · simpa [World.setTx] using hi.tablesTx
    · simpa [World.setTx] using hi.refsTx
  | commit hs hp hr =>
    rename_i i s
    constructor
    · exact hi.tree i s hs hp
    · intro j s' hs' hp'
      obtain ⟨s0, h0, e⟩ := modify_get.1 hs'
      split at e
      · subst e; cases hp'
      · subst e; exact hi.tree j s' h0 hp'
    · intro j s' hs' hp'
      obtain ⟨s0, h0, e⟩ := modify_get.1 hs'
      simp only [World.setTx, List.length_modify]
      split at e
      · next hij => subst hij; exact hi.holder i s hs (by rw [hp]; rfl)
      · subst e; exact hi.holder j s' h0 hp'
    · intro hl
      simp only [World.setTx, List.length_modify]
      have hlast := (hi.holder i s hs (by rw [hp]; rfl)).1
      have : w.txs.length - 1 = i := by omega
      rw [this]
      exact ⟨_, modify_get.2 ⟨s, hs, rfl⟩, by simp [Phase.holds]⟩
    · intro j s' hs'
      obtain ⟨s0, h0, e⟩ := modify_get.1 hs'
      have := hi.count j s0 h0
      split at e <;> subst e <;> exact this
    · intro j s' hs' hp'
      obtain ⟨s0, h0, e⟩ := modify_get.1 hs'
      split at e
      · next hij =>
        subst hij; subst e
        rw [hs] at h0; cases h0
        exact hr
      · subst e; exact hi.idle j s' h0 hp'
    · simpa [World.setTx] using hi.rowsTx
    · simpa [World.setTx] using hi.tablesTx
    · simpa [World.setTx] using hi.refsTx
  | rollback hs hp hr =>
    rename_i i s
    constructor
    · exact hi.store
    · intro j s' hs' hp'
      obtain ⟨s0, h0, e⟩ := modify_get.1 hs'
      split at e
      · subst e; cases hp'
      · subst e; exact hi.tree j s' h0 hp'
    · intro j s' hs' hp'
      obtain ⟨s0, h0, e⟩ := modify_get.1 hs'
      simp only [World.setTx, List.length_modify]
      split at e
      · next hij => subst hij; exact hi.holder i s hs (by rw [hp]; rfl)
      · subst e; exact hi.holder j s' h0 hp'
    · intro hl
      simp only [World.setTx, List.length_modify]
      have hlast := (hi.holder i s hs (by rw [hp]; rfl)).1
      have : w.txs.length - 1 = i := by omega
      rw [this]
      exact ⟨_, modify_get.2 ⟨s, hs, rfl⟩, by simp [Phase.holds]⟩
    · intro j s' hs'
      obtain ⟨s0, h0, e⟩ := modify_get.1 hs'
      have := hi.count j s0 h0
      split at e <;> subst e <;> exact this
    · intro j s' hs' hp'
      obtain ⟨s0, h0, e⟩ := modify_get.1 hs'
      split at e
      · next hij =>
        subst hij; subst e
        rw [hs] at h0; cases h0
        exact hr
      · subst e; exact hi.idle j s' h0 hp'
    · simpa [World.setTx] using hi.rowsTx
    · simpa [World.setTx] using hi.tablesTx
    · simpa [World.setTx] using hi.refsTx
  | unlock hs hp hl =>
    rename_i i s
    have hhold : s.phase.holds = true := by rcases hp with hp | hp <;> rw [hp] <;> rfl
    constructor
    · exact hi.store
    · intro j s' hs' hp'
      obtain ⟨s0, h0, e⟩ := modify_get.1 hs'
      split at e
      · subst e; cases hp'
      · subst e; exact hi.tree j s' h0 hp'
    · intro j s' hs' hp'
      obtain ⟨s0, h0, e⟩ := modify_get.1 hs'
      split at e
      · subst e; cases hp'
      · next hij =>
        subst e
        have a := (hi.holder j s' h0 hp').1
        have b := (hi.holder i s hs hhold).1
        omega
    · intro hl; cases hl
    · intro j s' hs'
      obtain ⟨s0, h0, e⟩ := modify_get.1 hs'
      have := hi.count j s0 h0
      split at e <;> subst e <;> exact this
    · intro j s' hs' hp'
      obtain ⟨s0, h0, e⟩ := modify_get.1 hs'
      split at e
      · next hij =>
        subst hij; subst e
        rw [hs] at h0; cases h0
        exact hi.idle i s hs (by rcases hp with hp | hp <;> rw [hp] <;> simp)
      · subst e; exact hi.idle j s' h0 hp'
    · simpa [World.setTx] using hi.rowsTx
    · simpa [World.setTx] using hi.tablesTx
    · simpa [World.setTx] using hi.refsTx
  | forget hs hp =>
    rename_i i s
    constructor
    · exact hi.store
    · intro j s' hs' hp'
      obtain ⟨s0, h0, e⟩ := modify_get.1 hs'
      split at e
      · subst e; cases hp'
      · subst e; exact hi.tree j s' h0 hp'
    · intro j s' hs' hp'
      obtain ⟨s0, h0, e⟩ := modify_get.1 hs'
      simp only [World.setTx, List.length_modify]
      split at e
      · subst e; cases hp'
      · subst e; exact hi.holder j s' h0 hp'
    · intro hl
      simp only [World.setTx, List.length_modify]
      obtain ⟨s1, hs1, hp1⟩ := hi.locked hl
      refine ⟨_, modify_get.2 ⟨s1, hs1, rfl⟩, ?_⟩
      split
      · next hij =>
        rw [← hij, hs] at hs1; cases hs1
        rw [hp] at hp1; cases hp1
      · exact hp1
    · intro j s' hs'
      obtain ⟨s0, h0, e⟩ := modify_get.1 hs'
      have := hi.count j s0 h0
      split at e <;> subst e <;> exact this
    · intro j s' hs' hp'
      obtain ⟨s0, h0, e⟩ := modify_get.1 hs'
      split at e
      · next hij =>
        subst hij; subst e
        rw [hs] at h0; cases h0
        exact hi.idle i s hs (by rw [hp]; simp)
      · subst e; exact hi.idle j s' h0 hp'
    · simpa [World.setTx] using hi.rowsTx
    · simpa [World.setTx] using hi.tablesTx
    · simpa [World.setTx] using hi.refsTx
  | tables ht ho =>
    rename_i i t tid tn cn ct key tbl
    refine ⟨hi.store, hi.tree, hi.holder, hi.locked, hi.count, hi.idle, hi.rowsTx, ?_, hi.refsTx⟩
    intro e he
    rcases List.mem_append.1 he with he | he
    · exact hi.tablesTx e he
    · simp only [List.mem_singleton] at he
      subst he
      obtain ⟨s, hs, _⟩ := treeOf_some.1 ht
      exact (List.getElem?_eq_some_iff.1 hs).1
  | rows htb ht hr =>
    rename_i n i tbl t cols mn mx pred rs
    obtain ⟨s, hs, hp, _⟩ := treeOf_some.1 ht
    have hrs : rs.next = 0 := by
      unfold tableRows at hr
      rw [Res.bind_eq_ok] at hr
      obtain ⟨items, _, hr⟩ := hr
      cases hr; rfl
    constructor
    · exact hi.store
    · intro j s' hs' hp'
      obtain ⟨s0, h0, e⟩ := modify_get.1 hs'
      have := hi.tree j s0 h0
      split at e <;> subst e <;> exact this hp'
    · intro j s' hs' hp'
      obtain ⟨s0, h0, e⟩ := modify_get.1 hs'
      simp only [World.setTx, List.length_modify]
      have := hi.holder j s0 h0
      split at e <;> subst e <;> exact this hp'
    · intro hl
      simp only [World.setTx, List.length_modify]
      obtain ⟨s1, hs1, hp1⟩ := hi.locked hl
      refine ⟨_, modify_get.2 ⟨s1, hs1, rfl⟩, ?_⟩
      split <;> exact hp1
    · intro j s' hs'
      obtain ⟨s0, h0, e⟩ := modify_get.1 hs'
      have := hi.count j s0 h0
      simp only [openRows, List.countP_append, List.countP_singleton] at this ⊢
      split at e
      · next hij =>
        subst e; subst hij
        simp only [hrs, decide_eq_true_eq]
        simp [-Bool.decide_and]
        omega
      · next hij =>
        subst e
        simp [hij, -Bool.decide_and]
        omega
    · intro j s' hs' hp'
      obtain ⟨s0, h0, e⟩ := modify_get.1 hs'
      split at e
      · next hij =>
        subst hij; subst e
        rw [hs] at h0; cases h0
        exact absurd hp hp'
      · subst e; exact hi.idle j s' h0 hp'
    · intro e he
      simp only [World.setTx, List.length_modify]
      rcases List.mem_append.1 he with he | he
      · exact hi.rowsTx e he
      · simp only [List.mem_singleton] at he
        subst he
        exact (List.getElem?_eq_some_iff.1 hs).1
    · simpa [World.setTx] using hi.tablesTx
    · simpa [World.setTx] using hi.refsTx
  | next he =>
    rename_i n e
    refine ⟨hi.store, hi.tree, hi.holder, hi.locked, ?_, hi.idle, ?_, hi.tablesTx, hi.refsTx⟩
    · intro j s hs
      have h1 := hi.count j s hs
      have h2 := openRows_set (e' := { e with obj := e.obj.nextRow.2 }) he j
      simp only [nextRow_sign] at h2
      simp only [openRows] at h1 h2 ⊢
      omega
    · intro x hx
      rcases List.mem_or_eq_of_mem_set hx with hx | rfl
      · exact hi.rowsTx x hx
      · exact hi.rowsTx e (List.mem_of_getElem? he)
  | refs he hc =>
    rename_i n e key
    refine ⟨hi.store, hi.tree, hi.holder, hi.locked, hi.count, hi.idle, hi.rowsTx, hi.tablesTx, ?_⟩
    intro x hx
    rcases List.mem_append.1 hx with hx | hx
    · exact hi.refsTx x hx
    · simp only [List.mem_singleton] at hx
      subst hx
      exact hi.rowsTx e (List.mem_of_getElem? he)
  | close he hn =>
    rename_i n e
    have hlt := hi.rowsTx e (List.mem_of_getElem? he)
    have hset := openRows_set (e' := { e with obj := { e.obj with next := -1 } }) he
    simp only at hset
    have hpos : 0 < openRows w e.tx := by
      unfold openRows
      rw [List.countP_pos_iff]
      exact ⟨e, List.mem_of_getElem? he, by simp [hn]⟩
    constructor
    · exact hi.store
    · intro j s' hs' hp'
      obtain ⟨s0, h0, e⟩ := modify_get.1 hs'
      have := hi.tree j s0 h0
      split at e <;> subst e <;> exact this hp'
    · intro j s' hs' hp'
      obtain ⟨s0, h0, e⟩ := modify_get.1 hs'
      simp only [World.setTx, List.length_modify]
      have := hi.holder j s0 h0
      split at e <;> subst e <;> exact this hp'
    · intro hl
      simp only [World.setTx, List.length_modify]
      obtain ⟨s1, hs1, hp1⟩ := hi.locked hl
      refine ⟨_, modify_get.2 ⟨s1, hs1, rfl⟩, ?_⟩
      split <;> exact hp1
    · intro j s' hs'
      obtain ⟨s0, h0, e'⟩ := modify_get.1 hs'
      have h1 := hi.count j s0 h0
      have h2 := hset j
      simp only [openRows] at h1 h2 ⊢
      split at e'
      · next hij =>
        subst e'; subst hij
        simp only [hn, and_self, if_true] at h2
        simp [-Bool.decide_and] at h2 ⊢
        omega
      · next hij =>
        subst e'
        simp [hij, -Bool.decide_and] at h2 ⊢
        omega
    · intro j s' hs' hp'
      obtain ⟨s0, h0, e'⟩ := modify_get.1 hs'
      split at e'
      · next hij =>
        subst hij; subst e'
        have h1 := hi.count _ s0 h0
        have h2 := hi.idle _ s0 h0 hp'
        omega
      · subst e'; exact hi.idle j s' h0 hp'
    · intro x hx
      simp only [World.setTx, List.length_modify]
      rcases List.mem_or_eq_of_mem_set hx with hx | rfl
      · exact hi.rowsTx x hx
      · exact hlt
    · simpa [World.setTx] using hi.tablesTx
    · simpa [World.setTx] using hi.refsTx

end Maho
