import Verif.Lemmas.Tables
/-
Transactions over whole histories: who holds the store, what is committed, and the scans.
-/
namespace Maho
open Spec

theorem snocInduction {α : Type} {P : List α → Prop} (nil : P [])
    (snoc : ∀ l a, P l → P (l ++ [a])) (l : List α) : P l := by
  rw [← List.reverse_reverse l]
  induction l.reverse with
  | nil => exact nil
  | cons a l ih => rw [List.reverse_cons]; exact snoc _ _ ih

theorem rank_le_two {p : Phase} : p.rank ≤ 2 ↔ p.holds = true := by
  cases p <;> simp [Phase.rank, Phase.holds]

theorem run_phase {env : StoreEnv} (ops : List Op) : ∀ {w : World}, WInv w → ∀ (j : Nat) (s : TxState),
    w.txs[j]? = some s →
    ∃ s', (run env w ops).2.txs[j]? = some s' ∧ s.phase.rank ≤ s'.phase.rank := by
  induction ops with
  | nil => intro w _ j s hs; exact ⟨s, hs, Nat.le_refl _⟩
  | cons op ops ih =>
    intro w hi j s hs
    obtain ⟨s1, hs1, h1⟩ := effect_phase hi (step_effect (env := env) op) j s hs
    obtain ⟨s2, hs2, h2⟩ := ih (step_inv hi op) j s1 hs1
    exact ⟨s2, hs2, Nat.le_trans h1 h2⟩

/-- A transaction that committed is past being active. -/
theorem commits_rank {env : StoreEnv} (ops : List Op) : ∀ {w : World}, WInv w → ∀ i ∈ commits env w ops,
    ∃ s, (run env w ops).2.txs[i]? = some s ∧ 2 ≤ s.phase.rank := by
  induction ops with
  | nil => intro w _ i h; exact nomatch h
  | cons op ops ih =>
    intro w hi i h
    rw [commits_cons, List.mem_append] at h
    rcases h with h | h
    · rcases commits_one (env := env) (w := w) (op := op) with ⟨j, rfl, hr, e⟩ | ⟨_, e⟩
      · rw [e, List.mem_singleton] at h
        subst h
        have he := step_effect (env := env) (w := w) (.commit i)
        rw [hr] at he
        have : ∃ s, (step env w (.commit i)).2.txs[i]? = some s ∧ 2 ≤ s.phase.rank := by
          revert he
          generalize (step env w (.commit i)).2 = w'
          intro he
          cases he with
          | same _ hc => exact absurd rfl (hc i rfl)
          | write ht hw => simp [writeOf] at hw
          | commit hs hp _ =>
            exact ⟨_, modify_get.2 ⟨_, hs, rfl⟩, by simp [Phase.rank]⟩
        obtain ⟨s, hs, h2⟩ := this
        obtain ⟨s', hs', h3⟩ := run_phase (env := env) ops (step_inv hi _) i s hs
        exact ⟨s', hs', Nat.le_trans h2 h3⟩
      · rw [e] at h; exact nomatch h
    · exact ih (step_inv hi op) i h

theorem active_not_committed {env : StoreEnv} {ops : List Op} {w : World} (hi : WInv w) {i : Nat}
    {t : Tree} (h : (run env w ops).2.treeOf i = some t) : i ∉ commits env w ops := by
  intro hm
  obtain ⟨s, hs, hr⟩ := commits_rank ops hi i hm
  obtain ⟨s', hs', hp, _⟩ := treeOf_some.1 h
  rw [hs] at hs'
  cases hs'
  rw [hp] at hr
  simp [Phase.rank] at hr

/-- A transaction that wrote has passed the end of `Begin`. -/
theorem writesBy_rank {env : StoreEnv} (ops : List Op) {i : Nat} : ∀ {w : World}, WInv w →
    writesBy env i w ops ≠ [] → ∃ s, (run env w ops).2.txs[i]? = some s ∧ 1 ≤ s.phase.rank := by
  induction ops with
  | nil => intro w _ h; exact absurd rfl h
  | cons op ops ih =>
    intro w hi h
    have hstep : writesBy env i w (op :: ops) =
        writesBy env i w [op] ++ writesBy env i (step env w op).2 ops := by
      rw [writesBy_one]
      simp only [writesBy]
      cases hw : writeOf w op with
      | none => rfl
      | some p => simp only; split <;> rfl
    rw [hstep] at h
    by_cases h1 : writesBy env i (step env w op).2 ops = []
    · rw [h1, List.append_nil, writesBy_one] at h
      split at h
      · next j wr hw =>
        split at h
        · next hij =>
          subst hij
          obtain ⟨t, ht⟩ := writeOf_active hw
          obtain ⟨s, hs, hp, _⟩ := treeOf_some.1 ht
          obtain ⟨s', hs', hr⟩ := run_phase (env := env) (op :: ops) hi _ s hs
          rw [hp] at hr
          exact ⟨s', hs', hr⟩
        · exact absurd rfl h
      · exact absurd rfl h
    · exact ih (step_inv hi op) h1

/-- While a transaction has the store locked, only its own commit changes the committed state. -/
theorem committed_while_held {env : StoreEnv} (ops : List Op) : ∀ {w : World} {i : Nat}, WInv w →
    (∃ s, w.txs[i]? = some s) → i ∉ commits env w ops → Holds (run env w ops).2 i →
    committed (run env w ops).2 = committed w := by
  induction ops with
  | nil => intro w i _ _ _ _; rfl
  | cons op ops ih =>
    intro w i hi hex hnc hh
    obtain ⟨s0, hs0⟩ := hex
    rw [commits_cons, List.mem_append, not_or] at hnc
    obtain ⟨s1, hs1, _⟩ := effect_phase hi (step_effect (env := env) op) i s0 hs0
    have := ih (step_inv hi op) ⟨s1, hs1⟩ hnc.2 hh
    show committed (run env (step env w op).2 ops).2 = _
    rw [this]
    rcases effect_committed hi (step_effect (env := env) op) with ⟨j, rfl, hr, ht⟩ | ⟨_, e⟩
    · exfalso
      obtain ⟨s2, hs2, hr2⟩ := run_phase (env := env) (.commit j :: ops) hi i s0 hs0
      obtain ⟨s3, hs3, hp3⟩ := (holds_iff).1 hh
      rw [hs2] at hs3
      cases hs3
      have hhold : s0.phase.holds = true := rank_le_two.1 (Nat.le_trans hr2 (rank_le_two.2 hp3))
      obtain ⟨sj, hsj, hpj, _⟩ := treeOf_some.1 ht
      have hij := holder_unique hi hs0 hsj hhold (by rw [hpj]; rfl)
      subst hij
      apply hnc.1
      rcases commits_one (env := env) (w := w) (op := .commit i) with ⟨j, e1, _, e2⟩ | ⟨h1, _⟩
      · cases e1; rw [e2]; exact List.mem_singleton.2 rfl
      · exact absurd hr (h1 i rfl)
    · exact e

/-- The tree of a transaction is the committed state with its writes replayed. -/
theorem view_eq {env : StoreEnv} {w : World} (hi : WInv w) {i : Nat}
    (hnew : ∀ t, w.treeOf i = some t → t = committed w) (ops : List Op) :
    ∀ t, (run env w ops).2.treeOf i = some t →
      t = (writesBy env i w ops).foldl (applyWrite env) (committed (run env w ops).2) := by
  induction ops using snocInduction with
  | nil => intro t h; exact hnew t h
  | snoc ops op ih =>
    intro t h
    have hi' := run_inv (env := env) ops hi
    rw [(run_snoc ops op w).1] at h ⊢
    have he := step_effect (env := env) (w := (run env w ops).2) op
    have hc : committed (step env (run env w ops).2 op).2 = committed (run env w ops).2 := by
      rcases effect_committed hi' he with ⟨j, rfl, hr, ht⟩ | ⟨_, e⟩
      · rw [hr] at he
        rw [effect_commit_none hi' he i] at h
        cases h
      · exact e
    rw [hc, writesBy_snoc, List.foldl_append]
    rcases effect_tree hi' he i t h with ⟨t0, ht0, rfl⟩ | ⟨hn, rfl, rfl⟩
    · rw [← ih t0 ht0, foldl_one]
    · have h0 : writesBy env i w ops = [] := by
        apply Classical.byContradiction
        intro hne
        obtain ⟨s, hs, hr⟩ := writesBy_rank ops hi hne
        revert he h
        generalize step env (run env w ops).2 (.beginRead i) = p
        obtain ⟨r, w'⟩ := p
        intro he h
        cases he with
        | same => rw [hn] at h; cases h
        | write _ hw => simp [writeOf] at hw
        | read hs1 hp1 => rw [hs] at hs1; cases hs1; rw [hp1] at hr; simp [Phase.rank] at hr
      rw [h0, writesBy_one]
      rfl

/-- The committed state is the committed transactions one after the other. -/
theorem committed_serial {env : StoreEnv} (ops : List Op) :
    committed (run env World.initial ops).2 =
      (commits env World.initial ops).foldl
        (fun t i => (writesBy env i World.initial ops).foldl (applyWrite env) t) [] := by
  induction ops using snocInduction with
  | nil => rfl
  | snoc ops op ih =>
    have hi' := reach_inv (env := env) ops
    have he := step_effect (env := env) (w := (run env World.initial ops).2) op
    rw [(run_snoc ops op _).1, commits_snoc, List.foldl_append]
    -- the writes of the transactions committed so far do not change
    have hold : ∀ (l : List Nat) (t : Tree), (∀ i ∈ l, i ∈ commits env World.initial ops) →
        l.foldl (fun t i => (writesBy env i World.initial (ops ++ [op])).foldl (applyWrite env) t) t =
        l.foldl (fun t i => (writesBy env i World.initial ops).foldl (applyWrite env) t) t := by
      intro l
      induction l with
      | nil => intro t _; rfl
      | cons i l ihl =>
        intro t hl
        simp only [List.foldl_cons]
        have hw : writesBy env i World.initial (ops ++ [op]) = writesBy env i World.initial ops := by
          rw [writesBy_snoc, writesBy_one]
          split
          · next j wr hwo =>
            split
            · next hij =>
              subst hij
              obtain ⟨t1, ht1⟩ := writeOf_active hwo
              exact absurd (hl _ (List.mem_cons_self ..)) (active_not_committed wInv_initial ht1)
            · simp
          · simp
        rw [hw]
        exact ihl _ (fun j hj => hl j (List.mem_cons_of_mem _ hj))
    rw [hold _ _ (fun i h => h), ← ih]
    rcases commits_one (env := env) (w := (run env World.initial ops).2) (op := op) with
      ⟨i, rfl, hr, e⟩ | ⟨hn, e⟩
    · rw [e]
      rcases effect_committed hi' he with ⟨j, ej, _, ht⟩ | ⟨h1, _⟩
      · cases ej
        have := view_eq wInv_initial (by
          intro t h; rw [treeOf_eq] at h; simp [World.initial] at h) ops _ ht
        rw [this]
        simp only [List.foldl_cons, List.foldl_nil]
        rw [writesBy_snoc, writesBy_one]
        simp [writeOf]
      · exact absurd hr (h1 i rfl)
    · rw [e]
      rcases effect_committed hi' he with ⟨j, ej, hr, _⟩ | ⟨_, e⟩
      · exact absurd hr (hn j ej)
      · rw [e]; rfl

/-- Transactions commit in the order they began. -/
theorem commits_increasing {env : StoreEnv} (ops : List Op) :
    (commits env World.initial ops).Pairwise (· < ·) := by
  induction ops using snocInduction with
  | nil => exact List.Pairwise.nil
  | snoc ops op ih =>
    have hi' := reach_inv (env := env) ops
    have he := step_effect (env := env) (w := (run env World.initial ops).2) op
    rw [commits_snoc]
    rcases commits_one (env := env) (w := (run env World.initial ops).2) (op := op) with
      ⟨i, rfl, hr, e⟩ | ⟨hn, e⟩
    · rw [e, List.pairwise_append]
      refine ⟨ih, List.pairwise_singleton _ _, ?_⟩
      intro a ha b hb
      rw [List.mem_singleton] at hb
      subst hb
      rcases effect_committed hi' he with ⟨j, ej, _, ht⟩ | ⟨h1, _⟩
      · cases ej
        have hne : a ≠ b := by
          rintro rfl
          exact active_not_committed wInv_initial ht ha
        obtain ⟨s, hs, _⟩ := commits_rank ops wInv_initial a ha
        obtain ⟨s', hs', hp', _⟩ := treeOf_some.1 ht
        have h1 := (hi'.holder b s' hs' (by rw [hp']; rfl)).1
        have h2 := (List.getElem?_eq_some_iff.1 hs).1
        omega
      · exact absurd hr (h1 b rfl)
    · rw [e, List.append_nil]; exact ih

/-! ### Scans -/

/-- A scan is only changed by its own `Next` and `Close`. -/
theorem effect_rows {env : StoreEnv} {w w' : World} {op : Op} {r : Reply} (hi : WInv w)
    (h : Effect env w op r w') {n : Nat} {e : RowsEntry} (he : w.rows[n]? = some e)
    (h1 : op ≠ .next n) (h2 : op ≠ .close n) : w'.rows[n]? = some e := by
  cases h with
  | write ht hw =>
    rename_i i t wr
    obtain ⟨q, heap, _, _, _, _, _, eq⟩ := writeStep_spec hi ht (applyWrite env t wr)
    rw [eq]; exact he
  | rows htb ht hr =>
    have := (List.getElem?_eq_some_iff.1 he).1
    simp only
    rw [List.getElem?_append_left this]; exact he
  | next he1 =>
    rename_i m e1
    have : m ≠ n := by rintro rfl; exact h1 rfl
    simp only
    rw [List.getElem?_set_ne this]; exact he
  | close he1 hn =>
    rename_i m e1
    have : m ≠ n := by rintro rfl; exact h2 rfl
    simp only
    rw [List.getElem?_set_ne this]; exact he
  | same => exact he
  | begin => exact he
  | read => exact he
  | commit => exact he
  | rollback => exact he
  | unlock => exact he
  | forget => exact he
  | tables => exact he
  | refs => exact he

def Reply.ofRow : Res Row → Reply
  | .ok r => .row r
  | .err e => .err e
  | .panic => .panic

theorem step_next {env : StoreEnv} {w : World} {n : Nat} {e : RowsEntry} (he : w.rows[n]? = some e) :
    step env w (.next n) = (.ofRow e.obj.nextRow.1,
      { w with rows := w.rows.set n { e with obj := e.obj.nextRow.2 } }) := by
  simp only [step, he]
  cases h : e.obj.nextRow.1 <;> rfl

theorem step_close {env : StoreEnv} {w : World} {n : Nat} {e : RowsEntry} (he : w.rows[n]? = some e) :
    (0 ≤ e.obj.next ∧ (step env w (.close n)).1 = .done ∧
      (step env w (.close n)).2.rows = w.rows.set n { e with obj := { e.obj with next := -1 } }) ∨
    (e.obj.next < 0 ∧ step env w (.close n) = (.panic, w)) := by
  simp only [step, he]
  unfold RowsObj.close
  by_cases h : e.obj.next < 0
  · right; rw [if_pos h]; exact ⟨h, rfl⟩
  · left; rw [if_neg h]; exact ⟨by omega, rfl, rfl⟩

theorem rows_length {env : StoreEnv} {w w' : World} {op : Op} {r : Reply} (hi : WInv w)
    (h : Effect env w op r w') : w.rows.length ≤ w'.rows.length := by
  cases h with
  | write ht hw =>
    rename_i i t wr
    obtain ⟨q, heap, _, _, _, _, _, eq⟩ := writeStep_spec hi ht (applyWrite env t wr)
    rw [eq]; exact Nat.le_refl _
  | rows => simp
  | next => simp
  | close => simp
  | same => exact Nat.le_refl _
  | begin => exact Nat.le_refl _
  | read => exact Nat.le_refl _
  | commit => exact Nat.le_refl _
  | rollback => exact Nat.le_refl _
  | unlock => exact Nat.le_refl _
  | forget => exact Nat.le_refl _
  | tables => exact Nat.le_refl _
  | refs => exact Nat.le_refl _

/-- A new scan is open. -/
theorem effect_new_rows {env : StoreEnv} {w w' : World} {op : Op} {r : Reply} (hi : WInv w)
    (h : Effect env w op r w') {n : Nat} {e : RowsEntry} (hn : w.rows[n]? = none)
    (he : w'.rows[n]? = some e) : e.obj.next = 0 ∧ ∀ m, op ≠ .close m := by
  cases h with
  | write ht hw =>
    rename_i i t wr
    obtain ⟨q, heap, _, _, _, _, _, eq⟩ := writeStep_spec hi ht (applyWrite env t wr)
    rw [eq] at he
    simp only [hn] at he
    cases he
  | rows htb ht hr =>
    rename_i k i tbl t cols mn mx pred rs
    simp only at he
    rw [List.getElem?_append_right (by exact List.getElem?_eq_none_iff.1 hn)] at he
    have := List.mem_of_getElem? he
    rw [List.mem_singleton] at this
    subst this
    unfold tableRows at hr
    obtain ⟨items, _, h2⟩ := Res.bind_eq_ok.1 hr
    cases h2
    exact ⟨rfl, by simp⟩
  | next =>
    simp only at he
    have := (List.getElem?_eq_some_iff.1 he).1
    rw [List.length_set] at this
    have := List.getElem?_eq_none_iff.1 hn
    omega
  | close =>
    simp only at he
    have := (List.getElem?_eq_some_iff.1 he).1
    rw [List.length_set] at this
    have := List.getElem?_eq_none_iff.1 hn
    omega
  | same => rw [hn] at he; cases he
  | begin => simp only [hn] at he; cases he
  | read => simp only [World.setTx, hn] at he; cases he
  | commit => simp only [World.setTx, hn] at he; cases he
  | rollback => simp only [World.setTx, hn] at he; cases he
  | unlock => simp only [World.setTx, hn] at he; cases he
  | forget => simp only [World.setTx, hn] at he; cases he
  | tables => simp only [hn] at he; cases he
  | refs => simp only [hn] at he; cases he

theorem closes_cons {env : StoreEnv} (w : World) (op : Op) (ops : List Op) :
    closes env w (op :: ops) = closes env w [op] ++ closes env (step env w op).2 ops := by
  simp only [closes]
  split <;> simp

theorem closes_snoc {env : StoreEnv} (ops : List Op) (op : Op) : ∀ w,
    closes env w (ops ++ [op]) = closes env w ops ++ closes env (run env w ops).2 [op] := by
  induction ops with
  | nil => intro w; simp [closes, run]
  | cons o ops ih =>
    intro w
    rw [List.cons_append, closes_cons, ih, closes_cons w o ops, List.append_assoc]
    rfl

theorem closes_one {env : StoreEnv} {w : World} {op : Op} {n : Nat} :
    n ∈ closes env w [op] ↔ op = .close n ∧ (step env w op).1 = .done := by
  simp only [closes]
  split
  · next m h =>
    rw [List.mem_singleton]
    constructor
    · rintro rfl; exact ⟨rfl, h⟩
    · rintro ⟨e, _⟩; cases e; rfl
  · next h =>
    constructor
    · intro hm; exact nomatch hm
    · rintro ⟨e, hr⟩; exact absurd hr (h n e)

theorem closes_length {env : StoreEnv} (ops : List Op) : ∀ n ∈ closes env World.initial ops,
    n < (run env World.initial ops).2.rows.length := by
  induction ops using snocInduction with
  | nil => intro n h; exact nomatch h
  | snoc ops op ih =>
    intro n h
    have hl := rows_length (reach_inv (env := env) ops) (step_effect (env := env) op)
    rw [(run_snoc ops op _).1]
    rw [closes_snoc, List.mem_append] at h
    rcases h with h | h
    · exact Nat.lt_of_lt_of_le (ih n h) hl
    · obtain ⟨rfl, hr⟩ := closes_one.1 h
      cases he : (run env World.initial ops).2.rows[n]? with
      | none => simp [step, he] at hr
      | some e => exact Nat.lt_of_lt_of_le (List.getElem?_eq_some_iff.1 he).1 hl

/-- A scan is open until it is closed. -/
theorem open_iff {env : StoreEnv} (ops : List Op) : ∀ (n : Nat) (e : RowsEntry),
    (run env World.initial ops).2.rows[n]? = some e →
    (0 ≤ e.obj.next ↔ n ∉ closes env World.initial ops) := by
  induction ops using snocInduction with
  | nil => intro n e h; simp [run, World.initial] at h
  | snoc ops op ih =>
    intro n e' he'
    have hi := reach_inv (env := env) ops
    have hf := step_effect (env := env) (w := (run env World.initial ops).2) op
    rw [(run_snoc ops op _).1] at he'
    rw [closes_snoc, List.mem_append, not_or]
    cases he : (run env World.initial ops).2.rows[n]? with
    | none =>
      obtain ⟨h0, hnc⟩ := effect_new_rows hi hf he he'
      constructor
      · intro _
        refine ⟨fun hm => ?_, fun hm => hnc n (closes_one.1 hm).1⟩
        have := closes_length ops n hm
        have := List.getElem?_eq_none_iff.1 he
        omega
      · intro _; omega
    | some e =>
      have h := ih n e he
      by_cases h1 : op = .next n
      · subst h1
        rw [step_next he] at he'
        simp only at he'
        rw [List.getElem?_set_self (List.getElem?_eq_some_iff.1 he).1] at he'
        cases he'
        simp only
        rw [nextRow_sign, h]
        constructor
        · intro hm; exact ⟨hm, fun hc => by have := (closes_one.1 hc).1; cases this⟩
        · exact fun hm => hm.1
      · by_cases h2 : op = .close n
        · subst h2
          rw [closes_one]
          rcases step_close (env := env) he with ⟨hn, hr, hrow⟩ | ⟨hn, hr⟩
          · rw [hrow, List.getElem?_set_self (List.getElem?_eq_some_iff.1 he).1] at he'
            cases he'
            simp only
            constructor
            · intro hc; omega
            · intro hc; exact absurd hr (by simpa using hc.2)
          · rw [hr] at he' ⊢
            rw [he] at he'
            cases he'
            rw [h]
            simp
        · rw [effect_rows hi hf he h1 h2] at he'
          cases he'
          rw [h, closes_one]
          constructor
          · intro hm; exact ⟨hm, fun hc => h2 hc.1⟩
          · exact fun hm => hm.1

end Maho
