import Verif.Lemmas.World
/-
What operations and histories do to the committed state and to the trees of transactions.
-/
namespace Maho
open Spec

theorem step_inv {env : StoreEnv} {w : World} (hi : WInv w) (op : Op) : WInv (step env w op).2 :=
  effect_inv hi (step_effect op)

theorem run_inv {env : StoreEnv} (ops : List Op) : ∀ {w : World}, WInv w → WInv (run env w ops).2 := by
  induction ops with
  | nil => intro w hi; exact hi
  | cons op ops ih => intro w hi; exact ih (step_inv hi op)

theorem reach_inv {env : StoreEnv} (ops : List Op) : WInv (run env World.initial ops).2 :=
  run_inv ops wInv_initial

/-- The tree of a transaction after an operation, given the tree before. -/
def treeAfter (env : StoreEnv) (w : World) (op : Op) (j : Nat) (t : Tree) : Tree :=
  match writeOf w op with
  | some (i, wr) => if i = j then applyWrite env t wr else t
  | none => t

theorem setTx_treeOf {w : World} {i j : Nat} {f : TxState → TxState} :
    (w.setTx i f).treeOf j =
      match w.txs[j]? with
      | none => none
      | some s =>
        let s' := if i = j then f s else s
        if s'.phase = .active then w.heap[s'.tree]? else none := by
  unfold World.treeOf World.setTx
  simp only [List.getElem?_modify]
  cases w.txs[j]? with
  | none => rfl
  | some s =>
    simp only [Option.map_eq_map, Option.map_some]
    by_cases hij : i = j
    · simp only [hij, if_true]
      rcases hf : f s with ⟨ph, p, n⟩
      cases ph <;> simp
    · simp only [hij, if_false]
      rcases s with ⟨ph, p, n⟩
      cases ph <;> simp

theorem treeOf_eq {w : World} {j : Nat} :
    w.treeOf j = match w.txs[j]? with
      | none => none
      | some s => if s.phase = .active then w.heap[s.tree]? else none := by
  unfold World.treeOf
  cases w.txs[j]? with
  | none => rfl
  | some s =>
    rcases s with ⟨ph, p, n⟩
    cases ph <;> simp

theorem treeOf_congr {w w' : World} {j : Nat} (h1 : w'.txs = w.txs) (h2 : w'.heap = w.heap) :
    w'.treeOf j = w.treeOf j := by
  rw [treeOf_eq, treeOf_eq, h1, h2]

/-- The tree of a transaction only changes by its own writes; it starts as the committed state. -/
theorem effect_tree {env : StoreEnv} {w w' : World} {op : Op} {r : Reply} (hi : WInv w)
    (h : Effect env w op r w') (j : Nat) (t' : Tree) (ht' : w'.treeOf j = some t') :
    (∃ t, w.treeOf j = some t ∧ t' = treeAfter env w op j t) ∨
      (w.treeOf j = none ∧ op = .beginRead j ∧ t' = committed w) := by
  have quiet : writeOf w op = none → ∀ t, treeAfter env w op j t = t := by
    intro h t; unfold treeAfter; rw [h]
  cases h with
  | same hw _ =>
    left
    refine ⟨t', ht', ?_⟩
    unfold treeAfter
    split
    · next i wr hwo =>
      split
      · next hij => subst hij; exact (hw _ wr t' hwo ht').symm
      · rfl
    · rfl
  | write ht hw =>
    rename_i i t wr
    rw [writeStep_treeOf hi ht] at ht'
    left
    split at ht'
    · next hij =>
      subst hij
      cases ht'
      refine ⟨t, ht, ?_⟩
      unfold treeAfter
      rw [hw]; simp
    · next hij =>
      refine ⟨t', ht', ?_⟩
      unfold treeAfter
      rw [hw]
      simp only
      rw [if_neg (fun h => hij h.symm)]
  | begin hl =>
    left
    refine ⟨t', ?_, (quiet rfl _).symm⟩
    obtain ⟨s, hs, hp, ht⟩ := treeOf_some.1 ht'
    simp only at hs ht
    rcases Nat.lt_or_ge j w.txs.length with hlt | hge
    · rw [List.getElem?_append_left hlt] at hs
      exact treeOf_some.2 ⟨s, hs, hp, ht⟩
    · rw [List.getElem?_append_right hge] at hs
      rcases Nat.eq_zero_or_pos (j - w.txs.length) with h0 | h0
      · rw [h0] at hs
        simp only [List.getElem?_cons_zero, Option.some.injEq] at hs
        subst hs; cases hp
      · rw [List.getElem?_eq_none (by simp only [List.length_singleton]; omega)] at hs; cases hs
  | read hs hp =>
    rename_i i s
    rw [setTx_treeOf] at ht'
    by_cases hij : i = j
    · subst hij
      right
      rw [hs] at ht'
      simp only [if_true] at ht'
      refine ⟨?_, rfl, ?_⟩
      · rw [treeOf_eq, hs]; simp [hp]
      · unfold committed
        rw [List.getD_eq_getElem?_getD, ht']; rfl
    · left
      refine ⟨t', ?_, (quiet rfl _).symm⟩
      rw [treeOf_eq]
      simpa only [hij, if_false] using ht'
  | commit hs hp hr =>
    rename_i i s
    left
    refine ⟨t', ?_, (quiet rfl _).symm⟩
    rw [show World.treeOf { w.setTx i (fun s => { s with phase := .published }) with storeTree := s.tree } j =
      (w.setTx i (fun s => { s with phase := .published })).treeOf j from treeOf_congr rfl rfl,
      setTx_treeOf] at ht'
    rw [treeOf_eq]
    split at ht'
    · cases ht'
    · next s1 hs1 =>
      by_cases hij : i = j
      · simp [hij] at ht'
      · simpa only [hij, if_false] using ht'
  | rollback hs hp hr =>
    rename_i i s
    left
    refine ⟨t', ?_, (quiet rfl _).symm⟩
    rw [setTx_treeOf] at ht'
    rw [treeOf_eq]
    split at ht'
    · cases ht'
    · next s1 hs1 =>
      by_cases hij : i = j
      · simp [hij] at ht'
      · simpa only [hij, if_false] using ht'
  | unlock hs hp hl =>
    rename_i i s
    left
    refine ⟨t', ?_, (quiet rfl _).symm⟩
    rw [show World.treeOf { w.setTx i (fun s => { s with phase := .unlocked }) with locked := false } j =
      (w.setTx i (fun s => { s with phase := .unlocked })).treeOf j from treeOf_congr rfl rfl,
      setTx_treeOf] at ht'
    rw [treeOf_eq]
    split at ht'
    · cases ht'
    · next s1 hs1 =>
      by_cases hij : i = j
      · simp [hij] at ht'
      · simpa only [hij, if_false] using ht'
  | forget hs hp =>
    rename_i i s
    left
    refine ⟨t', ?_, (quiet rfl _).symm⟩
    rw [setTx_treeOf] at ht'
    rw [treeOf_eq]
    split at ht'
    · cases ht'
    · next s1 hs1 =>
      by_cases hij : i = j
      · simp [hij] at ht'
      · simpa only [hij, if_false] using ht'
  | tables ht ho => exact .inl ⟨t', ht', (quiet rfl _).symm⟩
  | rows htb ht hr =>
    rename_i n i tbl t cols mn mx pred rs
    left
    refine ⟨t', ?_, (quiet rfl _).symm⟩
    rw [show World.treeOf { w.setTx i (fun s => { s with rowsCount := s.rowsCount + 1 }) with
          rows := w.rows ++ [⟨i, tbl, rs⟩] } j =
      (w.setTx i (fun s => { s with rowsCount := s.rowsCount + 1 })).treeOf j from treeOf_congr rfl rfl,
      setTx_treeOf] at ht'
    rw [treeOf_eq]
    split at ht'
    · cases ht'
    · next s1 hs1 =>
      by_cases hij : i = j
      · simpa only [hij, if_true] using ht'
      · simpa only [hij, if_false] using ht'
  | next he => exact .inl ⟨t', ht', (quiet rfl _).symm⟩
  | refs he hc => exact .inl ⟨t', ht', (quiet rfl _).symm⟩
  | close he hn =>
    rename_i n e
    left
    refine ⟨t', ?_, (quiet rfl _).symm⟩
    rw [show World.treeOf { w.setTx e.tx (fun s => { s with rowsCount := s.rowsCount - 1 }) with
          rows := w.rows.set n { e with obj := { e.obj with next := -1 } } } j =
      (w.setTx e.tx (fun s => { s with rowsCount := s.rowsCount - 1 })).treeOf j from treeOf_congr rfl rfl,
      setTx_treeOf] at ht'
    rw [treeOf_eq]
    split at ht'
    · cases ht'
    · next s1 hs1 =>
      by_cases hij : e.tx = j
      · simpa only [hij, if_true] using ht'
      · simpa only [hij, if_false] using ht'

/-- Only a successful commit changes the committed state. -/
theorem effect_committed {env : StoreEnv} {w w' : World} {op : Op} {r : Reply} (hi : WInv w)
    (h : Effect env w op r w') :
    (∃ i, op = .commit i ∧ r = .done ∧ w.treeOf i = some (committed w')) ∨
      ((∀ i, op = .commit i → r ≠ .done) ∧ committed w' = committed w) := by
  cases h with
  | same _ hc => exact .inr ⟨hc, rfl⟩
  | write ht hw =>
    right
    refine ⟨?_, writeStep_committed hi ht _⟩
    intro i he
    subst he
    simp [writeOf] at hw
  | commit hs hp hr =>
    rename_i i s
    left
    refine ⟨i, rfl, rfl, ?_⟩
    have := hi.tree i s hs hp
    rw [treeOf_some]
    refine ⟨s, hs, hp, ?_⟩
    simp only [committed, World.setTx]
    rw [List.getD_eq_getElem?_getD, List.getElem?_eq_getElem this]
    rfl
  | begin => right; exact ⟨by simp, rfl⟩
  | read => right; exact ⟨by simp, rfl⟩
  | rollback => right; exact ⟨by simp, rfl⟩
  | unlock => right; exact ⟨by simp, rfl⟩
  | forget => right; exact ⟨by simp, rfl⟩
  | tables => right; exact ⟨by simp, rfl⟩
  | rows => right; exact ⟨by simp, rfl⟩
  | next => right; exact ⟨by simp, rfl⟩
  | refs => right; exact ⟨by simp, rfl⟩
  | close => right; exact ⟨by simp, rfl⟩

/-- The phases a transaction passes through, in order. -/
def Phase.rank : Phase → Nat
  | .begun => 0
  | .active => 1
  | .published => 2
  | .releasing => 2
  | .unlocked => 3
  | .completed => 4

/-- Transactions are not forgotten and only go forward. -/
theorem effect_phase {env : StoreEnv} {w w' : World} {op : Op} {r : Reply} (hi : WInv w)
    (h : Effect env w op r w') (j : Nat) (s : TxState) (hs : w.txs[j]? = some s) :
    ∃ s', w'.txs[j]? = some s' ∧ s.phase.rank ≤ s'.phase.rank := by
  have mod : ∀ (i : Nat) (f : TxState → TxState),
      (∀ s0, w.txs[i]? = some s0 → s0.phase.rank ≤ (f s0).phase.rank) →
      ∃ s', (w.txs.modify i f)[j]? = some s' ∧ s.phase.rank ≤ s'.phase.rank := by
    intro i f hf
    refine ⟨_, modify_get.2 ⟨s, hs, rfl⟩, ?_⟩
    split
    · next hij => subst hij; exact hf s hs
    · exact Nat.le_refl _
  cases h with
  | same => exact ⟨s, hs, Nat.le_refl _⟩
  | write ht hw =>
    rename_i i t wr
    obtain ⟨p, heap, _, _, _, _, _, e⟩ := writeStep_spec hi ht (applyWrite env t wr)
    rw [e]
    exact mod i _ (fun s0 _ => Nat.le_refl _)
  | begin =>
    have := (List.getElem?_eq_some_iff.1 hs).1
    exact ⟨s, by simp only; rw [List.getElem?_append_left this]; exact hs, Nat.le_refl _⟩
  | read hs1 hp =>
    refine mod _ _ ?_
    intro s0 h0; rw [hs1] at h0; cases h0; rw [hp]; simp [Phase.rank]
  | commit hs1 hp _ =>
    refine mod _ _ ?_
    intro s0 h0; rw [hs1] at h0; cases h0; rw [hp]; simp [Phase.rank]
  | rollback hs1 hp _ =>
    refine mod _ _ ?_
    intro s0 h0; rw [hs1] at h0; cases h0; rw [hp]; simp [Phase.rank]
  | unlock hs1 hp _ =>
    refine mod _ _ ?_
    intro s0 h0; rw [hs1] at h0; cases h0
    rcases hp with hp | hp <;> rw [hp] <;> simp [Phase.rank]
  | forget hs1 hp =>
    refine mod _ _ ?_
    intro s0 h0; rw [hs1] at h0; cases h0; rw [hp]; simp [Phase.rank]
  | tables => exact ⟨s, hs, Nat.le_refl _⟩
  | rows => exact mod _ _ (fun s0 _ => Nat.le_refl _)
  | next => exact ⟨s, hs, Nat.le_refl _⟩
  | refs => exact ⟨s, hs, Nat.le_refl _⟩
  | close => exact mod _ _ (fun s0 _ => Nat.le_refl _)

/-- Operations are appended to a history one at a time. -/
theorem run_snoc {env : StoreEnv} (ops : List Op) (op : Op) : ∀ w,
    (run env w (ops ++ [op])).2 = (step env (run env w ops).2 op).2 ∧
    (run env w (ops ++ [op])).1 = (run env w ops).1 ++ [(step env (run env w ops).2 op).1] := by
  induction ops with
  | nil => intro w; exact ⟨rfl, rfl⟩
  | cons o ops ih =>
    intro w
    obtain ⟨h1, h2⟩ := ih (step env w o).2
    simp only [List.cons_append, run]
    exact ⟨h1, by rw [h2]⟩

theorem run_append {env : StoreEnv} (ops1 ops2 : List Op) : ∀ w,
    (run env w (ops1 ++ ops2)).2 = (run env (run env w ops1).2 ops2).2 := by
  induction ops1 with
  | nil => intro w; rfl
  | cons o ops ih => intro w; simp only [List.cons_append, run]; exact ih _

theorem writesBy_snoc {env : StoreEnv} (i : Nat) (ops : List Op) (op : Op) : ∀ w,
    writesBy env i w (ops ++ [op]) = writesBy env i w ops ++
      writesBy env i (run env w ops).2 [op] := by
  induction ops with
  | nil => intro w; rfl
  | cons o ops ih =>
    intro w
    simp only [List.cons_append, writesBy, run]
    have := ih (step env w o).2
    simp only [writesBy] at this
    split
    · split
      · rw [this]; rfl
      · rw [this]
    · rw [this]

theorem commits_cons {env : StoreEnv} (w : World) (op : Op) (ops : List Op) :
    commits env w (op :: ops) = commits env w [op] ++ commits env (step env w op).2 ops := by
  simp only [commits]
  split <;> simp

theorem commits_snoc {env : StoreEnv} (ops : List Op) (op : Op) : ∀ w,
    commits env w (ops ++ [op]) = commits env w ops ++ commits env (run env w ops).2 [op] := by
  induction ops with
  | nil => intro w; simp [commits, run]
  | cons o ops ih =>
    intro w
    rw [List.cons_append, commits_cons, ih, commits_cons w o ops, List.append_assoc]
    rfl

theorem writesBy_one {env : StoreEnv} {w : World} {op : Op} {i : Nat} :
    writesBy env i w [op] = match writeOf w op with
      | some (j, wr) => if j = i then [wr] else []
      | none => [] := by
  simp only [writesBy]
  rfl

theorem commits_one {env : StoreEnv} {w : World} {op : Op} :
    ((∃ i, op = .commit i ∧ (step env w op).1 = .done ∧ commits env w [op] = [i]) ∨
      ((∀ i, op = .commit i → (step env w op).1 ≠ .done) ∧ commits env w [op] = [])) := by
  simp only [commits]
  split
  · next i h => exact .inl ⟨i, rfl, h, rfl⟩
  · next h =>
    right
    exact ⟨fun i he hr => h i he hr, rfl⟩

theorem foldl_one {env : StoreEnv} {w : World} {op : Op} {i : Nat} {t : Tree} :
    (writesBy env i w [op]).foldl (applyWrite env) t = treeAfter env w op i t := by
  rw [writesBy_one]
  unfold treeAfter
  split
  · split <;> rfl
  · rfl

theorem writeOf_active {w : World} {op : Op} {i : Nat} {wr : Write} (h : writeOf w op = some (i, wr)) :
    ∃ t, w.treeOf i = some t := by
  have key : ∀ {tx : Nat} {wr' : Write},
      (if (w.treeOf tx).isSome then some (tx, wr') else none) = some (i, wr) → ∃ t, w.treeOf i = some t := by
    intro tx wr' h
    split at h
    · next hs => cases h; exact Option.isSome_iff_exists.1 hs
    · cases h
  unfold writeOf at h
  cases op <;> simp only at h <;> first | (cases h; done) | exact key h | skip
  all_goals
    split at h
    · exact key h
    · cases h

end Maho
