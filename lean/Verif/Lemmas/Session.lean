import Verif.Lemmas.Catalog
import Verif.Lemmas.EngineSample
import Verif.Spec.Session
/-
Lemmas about sessions.
-/
namespace Maho
open Spec

theorem columnNumber_eq (nam : Identifier) : ∀ (cols : List Identifier) (k : Nat),
    columnNumber nam k cols =
      (cols.findIdx? (· == nam)).map (fun i => BitVec.ofNat 32 (i + k)) := by
  intro cols
  induction cols with
  | nil => intro k; rfl
  | cons col cols ih =>
    intro k
    simp only [columnNumber, List.findIdx?_cons]
    by_cases h : nam = col
    · subst h; simp
    · rw [if_neg h]
      rw [show (col == nam) = false by simpa [beq_eq_false_iff_ne] using fun e => h e.symm]
      rw [ih]
      cases List.findIdx? (fun x => x == nam) cols with
      | none => rfl
      | some i => simp [Nat.add_assoc, Nat.add_comm 1 k]

theorem indexKey_eq (names : List Identifier) : ∀ (cols : List Identifier) (revs : List Bool)
    (acc : List ColumnKey), cols.length = revs.length → 0 ∉ cols →
    match (cols.zip revs).mapM (fun p => (names.findIdx? (· == p.1)).map
        (fun i => makeColumnKey (BitVec.ofNat 32 i) p.2)) with
    | some ks => indexKeyToColumnKey names acc cols revs = .ok (acc ++ ks, 0)
    | none => ∃ bad, bad ≠ 0 ∧ indexKeyToColumnKey names acc cols revs = .ok ([], bad) := by
  intro cols
  induction cols with
  | nil => intro revs acc _ _; simp [indexKeyToColumnKey]
  | cons col cols ih =>
    intro revs acc hl h0
    cases revs with
    | nil => simp at hl
    | cons rev revs =>
      have hl' : cols.length = revs.length := by simpa using hl
      have h0' : 0 ∉ cols := fun h => h0 (List.mem_cons_of_mem _ h)
      simp only [List.zip_cons_cons, List.mapM_cons, indexKeyToColumnKey, columnNumber_eq]
      cases hf : names.findIdx? (· == col) with
      | none =>
        simp only [Option.map_none]
        exact ⟨col, fun e => h0 (by simp [e]), rfl⟩
      | some i =>
        simp only [Option.map_some, Nat.add_zero]
        have := ih revs (acc ++ [makeColumnKey (BitVec.ofNat 32 i) rev]) hl' h0'
        revert this
        cases (cols.zip revs).mapM (fun p => (names.findIdx? (· == p.1)).map
          (fun i => makeColumnKey (BitVec.ofNat 32 i) p.2)) with
        | none => intro h; exact h
        | some ks => intro h; simpa using h

theorem indexKey_columnKey (names : List Identifier) (key : IndexKey) (hk : KeyOk key) :
    match columnKey names key with
    | some ks => indexKeyToColumnKey names [] key.columns key.reverse = .ok (ks, 0)
    | none => ∃ bad, bad ≠ 0 ∧
        indexKeyToColumnKey names [] key.columns key.reverse = .ok ([], bad) := by
  have := indexKey_eq names key.columns key.reverse [] hk.1 hk.2
  unfold columnKey
  revert this
  cases (key.columns.zip key.reverse).mapM (fun p => (names.findIdx? (· == p.1)).map
    (fun i => makeColumnKey (BitVec.ofNat 32 i) p.2)) <;> exact id

theorem primary_eq (columns : List Identifier) : ∀ (cons : List Constraint),
    (∀ c ∈ cons, KeyOk c.key) →
    match (match cons.find? (fun c => c.type = .primary) with
      | none => some []
      | some c => columnKey columns c.key) with
    | some ks => primaryColumnKey columns cons = .ok (ks, 0)
    | none => ∃ bad, bad ≠ 0 ∧ primaryColumnKey columns cons = .ok ([], bad) := by
  intro cons
  induction cons with
  | nil => intro _; rfl
  | cons c cons ih =>
    intro h
    simp only [List.find?_cons, primaryColumnKey]
    by_cases hp : c.type = .primary
    · simp only [hp, decide_true, if_true]
      exact indexKey_columnKey columns c.key (h c (by simp))
    · simp only [hp, decide_false, if_false]
      exact ih (fun d hd => h d (List.mem_cons_of_mem _ hd))

theorem dropTables_ok : ∀ (tns : List TableName) (t : Tree), evaluateDropTables t tns = (.ok (), t)
  | [], _ => rfl
  | _ :: tns, t => by simp [evaluateDropTables, dropEngineTable, dropTables_ok tns t]

/-- The statements that are evaluated in a transaction. -/
def InTx : Stmt → Prop
  | .createIndex _ _ _ _ | .createSchema _ | .createTable _ | .dropIndex _ _ _
  | .dropSchema _ _ | .dropTable _ _ _ => True
  | _ => False

theorem evaluate_effect {env : SqlEnv} {t : Tree} {c : Catalog} (h : Rep env.toEngineEnv t c)
    (stmt : Stmt) (hin : InTx stmt) (hs : SmallStmt env stmt) :
    ∃ t', evaluate env t stmt = (outcome (effect env c stmt).1, t') ∧
      Rep env.toEngineEnv t' (effect env c stmt).2 := by
  cases stmt with
  | createSchema sn => exact h.createSchema hs.1 hs.2
  | dropSchema ie sn => exact h.dropSchema hs.1 hs.2 ie
  | dropIndex _ _ _ => exact ⟨t, rfl, h⟩
  | dropTable _ _ tns => exact ⟨t, by simp [evaluate, dropTables_ok, effect, outcome], h⟩
  | createIndex i tn key ine =>
    obtain ⟨⟨h1, h2, h3⟩, hk⟩ := hs
    simp only [evaluate, evaluateCreateIndex, effect, Catalog.table]
    rw [h.openTable h1 h2 h3]
    cases hf : c.find (env.name tn.database) (env.name tn.schema) (env.name tn.table) with
    | none => exact ⟨t, rfl, h⟩
    | some e =>
      simp only [Definition.mapIds]
      have := indexKey_columnKey (e.definition.columnNames.map env.storedId) key hk
      cases hc : columnKey (e.definition.columnNames.map env.storedId) key with
      | none =>
        rw [hc] at this
        obtain ⟨bad, hb, hi⟩ := this
        rw [hi]
        simp only [ne_eq, hb, not_false_eq_true, if_true]
        exact ⟨t, rfl, h⟩
      | some ks =>
        rw [hc] at this
        simp only at this
        rw [this]
        exact ⟨t, rfl, h⟩
  | createTable s =>
    obtain ⟨⟨h1, h2, h3⟩, hk, hsz⟩ := hs
    simp only [evaluate, evaluateCreateTable, effect, Catalog.table]
    rw [h.openTable h1 h2 h3]
    have hor : ∀ o : Option CatalogTable, o = none ∨ ∃ e, o = some e := by
      intro o; cases o <;> simp
    rcases hor (c.find (env.name s.table.database) (env.name s.table.schema)
        (env.name s.table.table)) with hf | ⟨e, hf⟩
    case inr =>
      simp only [hf, Option.isSome_some, if_true]
      refine ⟨t, ?_, h⟩
      cases s.ifNotExists <;> rfl
    case inl =>
      simp only [hf, Option.isSome_none, Bool.false_eq_true, if_false]
      have := primary_eq s.columns s.constraints hk
      change match primaryKey s with
        | some ks => _
        | none => _ at this
      cases hp : primaryKey s with
      | none =>
        rw [hp] at this
        obtain ⟨bad, hb, hi⟩ := this
        rw [hi]
        simp only [ne_eq, hb, not_false_eq_true, if_true]
        exact ⟨t, rfl, h⟩
      | some ks =>
        rw [hp] at this
        simp only at this
        rw [this]
        simp only [ne_eq, not_true_eq_false, if_false]
        exact h.createTable h1 h2 h3 (hsz ks hp)
  | _ => exact hin.elim

/-! ### Sessions and clients -/

/-- The client that the session is. -/
def Session.client (ses : Session) : Client := ⟨ses.tx, ses.defaultDatabase, ses.defaultSchema⟩

theorem resolver_eq (ses : Session) (stmt : Stmt) :
    stmt.resolve ses.resolver = Client.meaning ses.client stmt := by
  have : ses.resolver = ⟨Client.table ses.client, Client.schemaName ses.client⟩ := by
    unfold Session.resolver
    congr 1
    · funext tn
      simp only [Session.resolveTable, Client.table, Session.client]
      by_cases h : tn.database = 0 <;> by_cases h2 : tn.schema = 0 <;> simp [h, h2]
    · funext sn
      simp only [Session.resolveSchema, Client.schemaName, Session.client]
      by_cases h : sn.database = 0 <;> simp [h]
  rw [this]; rfl

theorem autocommit_eq (env : SqlEnv) (st : EngineState) (stmt : Stmt) :
    autocommit env st stmt = withTransaction st (fun t => evaluate env t stmt) := by
  obtain ⟨t, a⟩ := st
  unfold autocommit withTransaction EngineState.begin EngineState.inTx EngineState.rollback
    EngineState.commit
  cases a with
  | some t' => rfl
  | none =>
    simp only
    cases h : evaluate env t stmt with
    | mk r t' => cases r <;> rfl

/-- The statements that are not evaluated by the session itself. -/
def Plain : Stmt → Prop
  | .begin | .commit | .rollback | .set _ _ | .createDatabase _ _ | .dropDatabase _ _ => False
  | _ => True

theorem evaluate_plain (env : SqlEnv) (st : EngineState) (ses : Session) (stmt : Stmt)
    (h : Plain stmt) :
    ses.evaluate env st (some stmt) =
      if ses.tx then
        (some (st.inTx (fun t => evaluate env t (stmt.resolve ses.resolver))).1,
          (st.inTx (fun t => evaluate env t (stmt.resolve ses.resolver))).2, ses)
      else
        ((autocommit env st (stmt.resolve ses.resolver)).1,
          (autocommit env st (stmt.resolve ses.resolver)).2, ses) := by
  cases stmt <;> first | exact h.elim | (simp only [Session.evaluate, Stmt.resolve])

/-- How a statement changes the lock and the session's transaction. -/
inductive Change (r : Option (Res Unit)) : (lock tx lock' tx' : Bool) → Prop where
  | same (l x : Bool) : Change r l x l x
  | begin : Change r false false true true
  | done : Change r true true false false
  | stuck : r = some .panic → Change r false false true false

theorem withTransaction_change (st : EngineState) (f : Tree → Res Unit × Tree) :
    Change (withTransaction st f).1 st.active.isSome false
      (withTransaction st f).2.active.isSome false := by
  obtain ⟨t, a⟩ := st
  unfold withTransaction
  cases a with
  | some t' => exact .same _ _
  | none =>
    simp only
    cases h : f t with
    | mk r t' =>
      cases r with
      | ok a => exact .same _ _
      | err e => exact .same _ _
      | panic => exact .stuck rfl

theorem inTx_active (st : EngineState) (f : Tree → Res Unit × Tree) :
    (st.inTx f).2.active.isSome = st.active.isSome := by
  obtain ⟨t, a⟩ := st
  cases a <;> rfl

theorem evaluate_change (env : SqlEnv) (st : EngineState) (ses : Session) (stmt : Option Stmt)
    (hx : ses.tx = true → st.active.isSome = true) :
    Change (ses.evaluate env st stmt).1 st.active.isSome ses.tx
      (ses.evaluate env st stmt).2.1.active.isSome (ses.evaluate env st stmt).2.2.tx := by
  obtain ⟨t, a⟩ := st
  obtain ⟨x, dd, ds⟩ := ses
  cases stmt with
  | none => exact .same _ _
  | some stmt =>
    by_cases hp : Plain stmt
    · rw [evaluate_plain _ _ _ _ hp]
      cases x with
      | true => simp only [if_true, inTx_active]; exact .same _ _
      | false =>
        simp only [Bool.false_eq_true, if_false, autocommit_eq]
        exact withTransaction_change _ _
    · cases stmt <;> first | exact (hp trivial).elim | skip
      all_goals simp only [Session.evaluate, Stmt.resolve]
      case begin =>
        cases x with
        | true => exact .same _ _
        | false =>
          cases a with
          | some t' => exact .same _ _
          | none => exact .begin
      case commit =>
        cases x with
        | false => exact .same _ _
        | true =>
          cases a with
          | none => simp at hx
          | some t' => exact .done
      case rollback =>
        cases x with
        | false => exact .same _ _
        | true =>
          cases a with
          | none => simp at hx
          | some t' => exact .done
      case set var value =>
        unfold Session.set
        by_cases h : var = idDATABASE
        · simp only [if_pos h]; exact .same _ _
        · by_cases h2 : var = idSCHEMA
          · simp only [if_neg h, if_pos h2]; exact .same _ _
          · simp only [if_neg h, if_neg h2]; exact .same _ _
      case createDatabase d o =>
        cases x with
        | true => exact .same _ _
        | false =>
          simp only [Bool.false_eq_true, if_false, createDatabase]
          by_cases ho : o.length > 0
          · simp only [if_pos ho]; exact .same _ _
          · simp only [if_neg ho]; exact withTransaction_change _ _
      case dropDatabase ie d =>
        cases x with
        | true => exact .same _ _
        | false => exact withTransaction_change _ _

/-! ### Many sessions -/

/-- The number of sessions with a transaction. -/
def Server.txs (s : Server) : Nat := (s.sessions.map (·.tx)).count true

/-- The lock as a number. -/
def Server.lock (s : Server) : Nat := s.engine.active.isSome.toNat

theorem count_set : ∀ (l : List Bool) (i : Nat) (x y : Bool), l[i]? = some x →
    (l.set i y).count true + x.toNat = l.count true + y.toNat := by
  intro l
  induction l with
  | nil => intro i x y h; simp at h
  | cons a l ih =>
    intro i x y h
    cases i with
    | zero =>
      simp only [List.getElem?_cons_zero, Option.some.injEq] at h
      subst h
      simp only [List.set_cons_zero, List.count_cons]
      cases a <;> cases y <;> simp
    | succ i =>
      simp only [List.getElem?_cons_succ] at h
      have := ih i x y h
      simp only [List.set_cons_succ, List.count_cons]
      omega

theorem txs_mem {s : Server} {i : Nat} {ses : Session} (h : s.sessions[i]? = some ses)
    (hx : ses.tx = true) : 0 < s.txs := by
  unfold Server.txs
  rw [List.count_pos_iff]
  exact List.mem_map.2 ⟨ses, List.mem_of_getElem? h, hx⟩

theorem lock_eq_one {s : Server} : s.engine.active.isSome = true ↔ s.lock = 1 := by
  unfold Server.lock
  cases s.engine.active <;> simp

theorem lock_le (s : Server) : s.lock ≤ 1 := by
  unfold Server.lock
  cases s.engine.active <;> simp

theorem tx_lock {s : Server} (h : s.txs ≤ s.lock) {i : Nat} {ses : Session}
    (hi : s.sessions[i]? = some ses) (hx : ses.tx = true) : s.engine.active.isSome = true := by
  have := txs_mem hi hx
  have := lock_le s
  exact lock_eq_one.2 (by omega)

/-- A statement leaves at most the transaction that has the lock, and the lock is left without a
transaction only by a panic outside a transaction. -/
theorem step_txs (env : SqlEnv) (s : Server) (i : Nat) (stmt : Option Stmt)
    (h : s.txs ≤ s.lock) :
    (s.step env i stmt).2.txs ≤ (s.step env i stmt).2.lock ∧
      (s.txs = s.lock →
        ((s.step env i stmt).1 = some .panic → ∃ ses, s.sessions[i]? = some ses ∧ ses.tx = true) →
        (s.step env i stmt).2.txs = (s.step env i stmt).2.lock) := by
  unfold Server.step
  cases hi : s.sessions[i]? with
  | none => exact ⟨h, fun e _ => e⟩
  | some ses =>
    simp only
    have hc := evaluate_change env s.engine ses stmt (tx_lock h hi)
    have hset := count_set (s.sessions.map (·.tx)) i ses.tx
      (ses.evaluate env s.engine stmt).2.2.tx (by simp [hi])
    have e1 : (⟨(ses.evaluate env s.engine stmt).2.1,
        s.sessions.set i (ses.evaluate env s.engine stmt).2.2⟩ : Server).txs + ses.tx.toNat =
        s.txs + (ses.evaluate env s.engine stmt).2.2.tx.toNat := by
      simp only [Server.txs, List.map_set]
      exact hset
    have e2 : (⟨(ses.evaluate env s.engine stmt).2.1,
        s.sessions.set i (ses.evaluate env s.engine stmt).2.2⟩ : Server).lock =
        (ses.evaluate env s.engine stmt).2.1.active.isSome.toNat := rfl
    have e3 : s.lock = s.engine.active.isSome.toNat := rfl
    have hx : ses.tx.toNat ≤ s.txs := by
      cases hx : ses.tx with
      | false => simp
      | true => exact txs_mem hi hx
    revert e1 e2
    generalize (⟨(ses.evaluate env s.engine stmt).2.1,
        s.sessions.set i (ses.evaluate env s.engine stmt).2.2⟩ : Server) = s'
    revert hc
    generalize (ses.evaluate env s.engine stmt).1 = r
    generalize (ses.evaluate env s.engine stmt).2.1.active.isSome = l'
    generalize (ses.evaluate env s.engine stmt).2.2.tx = x'
    revert e3 hx
    generalize hl : s.engine.active.isSome = l
    generalize hxx : ses.tx = x
    intro e3 hx hc e1 e2
    cases hc with
    | same => exact ⟨by omega, fun e _ => by omega⟩
    | begin => simp at *; omega
    | done => simp at *; omega
    | stuck hr =>
      refine ⟨by simp at *; omega, fun e hp => ?_⟩
      obtain ⟨ses', h1, h2⟩ := hp hr
      cases h1
      rw [hxx] at h2
      cases h2

theorem initial_txs (env : SqlEnv) (defaults : List (Identifier × Identifier)) :
    (Server.initial env defaults).txs = 0 := by
  unfold Server.txs Server.initial
  rw [List.count_eq_zero]
  simp [newSession]

/-! ### The transaction of a session from its history -/

theorem evaluate_tx (env : SqlEnv) (st : EngineState) (ses : Session) (stmt : Option Stmt)
    (i : Nat) (hx : ses.tx = true → st.active.isSome = true) :
    (ses.evaluate env st stmt).2.2.tx =
      Event.after ⟨i, stmt, (ses.evaluate env st stmt).1⟩ i ses.tx := by
  obtain ⟨t, a⟩ := st
  obtain ⟨x, dd, ds⟩ := ses
  cases stmt with
  | none => simp [Session.evaluate, Event.after]
  | some stmt =>
    by_cases hp : Plain stmt
    · rw [evaluate_plain _ _ _ _ hp]
      unfold Event.after
      cases stmt <;> first | exact hp.elim | (cases x <;> simp)
    · cases stmt <;> first | exact (hp trivial).elim | skip
      case begin =>
        cases x <;> cases a <;>
          simp [Session.evaluate, Stmt.resolve, Event.after, EngineState.begin]
      case commit =>
        cases x <;> cases a <;>
          simp [Session.evaluate, Stmt.resolve, Event.after, EngineState.commit] at hx ⊢
      case rollback =>
        cases x <;> cases a <;>
          simp [Session.evaluate, Stmt.resolve, Event.after, EngineState.rollback] at hx ⊢
      case set var value =>
        simp only [Session.evaluate, Stmt.resolve, Session.set, Event.after]
        by_cases h : var = idDATABASE
        · simp [h]
        · by_cases h2 : var = idSCHEMA
          · simp [h2, idDATABASE, idSCHEMA]
          · simp [h, h2]
      case createDatabase d o =>
        cases x <;> simp [Session.evaluate, Stmt.resolve, Event.after]
      case dropDatabase ie d =>
        cases x <;> simp [Session.evaluate, Stmt.resolve, Event.after]

/-- The transactions of the sessions are those of the history. -/
def Tracks (s : Server) (now : Nat → Bool) : Prop :=
  s.txs ≤ s.lock ∧ ∀ i ses, s.sessions[i]? = some ses → ses.tx = now i

theorem step_tracks (env : SqlEnv) {s : Server} {now : Nat → Bool} (h : Tracks s now) (i : Nat)
    (stmt : Option Stmt) :
    Tracks (s.step env i stmt).2
      (fun j => Event.after ⟨i, stmt, (s.step env i stmt).1⟩ j (now j)) := by
  refine ⟨(step_txs env s i stmt h.1).1, ?_⟩
  intro j ses' hj
  unfold Server.step at hj ⊢
  cases hi : s.sessions[i]? with
  | none =>
    rw [hi] at hj
    simp only at hj ⊢
    rw [h.2 j ses' hj]
    simp [Event.after]
  | some ses =>
    rw [hi] at hj
    simp only at hj ⊢
    by_cases hij : i = j
    · subst hij
      rw [List.getElem?_set_self (by exact (List.getElem?_eq_some_iff.1 hi).1)] at hj
      cases hj
      rw [← h.2 i ses hi]
      exact evaluate_tx env s.engine ses stmt i (tx_lock h.1 hi)
    · rw [List.getElem?_set_ne hij] at hj
      rw [h.2 j ses' hj]
      simp [Event.after, hij]

theorem run_tracks (env : SqlEnv) : ∀ (ops : List (Nat × Option Stmt)) (s : Server)
    (now : Nat → Bool), Tracks s now →
    Tracks (s.run env ops).2
      (fun j => (events ops (s.run env ops).1).foldl (fun b e => e.after j b) (now j)) := by
  intro ops
  induction ops with
  | nil => intro s now h; exact h
  | cons op ops ih =>
    intro s now h
    obtain ⟨i, stmt⟩ := op
    have := ih _ _ (step_tracks env h i stmt)
    simpa [Server.run, events] using this

theorem initial_tracks (env : SqlEnv) (defaults : List (Identifier × Identifier)) :
    Tracks (Server.initial env defaults) (fun _ => false) := by
  refine ⟨by rw [initial_txs]; omega, ?_⟩
  intro i ses h
  unfold Server.initial at h
  simp only [List.getElem?_map, Option.map_eq_some_iff] at h
  obtain ⟨d, _, rfl⟩ := h
  rfl

theorem run_sessions (env : SqlEnv) : ∀ (ops : List (Nat × Option Stmt)) (s : Server),
    (s.run env ops).2.sessions.length = s.sessions.length := by
  intro ops
  induction ops with
  | nil => intro s; rfl
  | cons op ops ih =>
    intro s
    obtain ⟨i, stmt⟩ := op
    simp only [Server.run]
    rw [ih]
    unfold Server.step
    cases s.sessions[i]? <;> simp

/-! ### The server and the clients -/

theorem auto_client {env : EngineEnv} {s : EngineState} {c : CatalogState} (h : RepState env s c)
    {f : Tree → Res Unit × Tree} {g : Catalog → Bool × Catalog}
    (hfg : ∀ t d, Rep env t d → ∃ t', f t = (outcome (g d).1, t') ∧ Rep env t' (g d).2) :
    (withTransaction s f).1 =
        (if c.active.isSome then none else some (outcome (g c.committed).1)) ∧
      RepState env (withTransaction s f).2
        (if c.active.isSome then c
          else ⟨if (g c.committed).1 then (g c.committed).2 else c.committed, none⟩) := by
  obtain ⟨st, sa⟩ := s
  obtain ⟨ct, ca⟩ := c
  obtain ⟨h1, h2⟩ := h
  simp only at h1 h2
  unfold withTransaction
  cases sa with
  | some t =>
    cases ca with
    | none => simp at h2
    | some d => exact ⟨rfl, h1, h2⟩
  | none =>
    cases ca with
    | some d => simp at h2
    | none =>
      simp only
      obtain ⟨t', e, h3⟩ := hfg st ct h1
      rw [e]
      cases hb : (g ct).1 with
      | true => simp [outcome, RepState]; exact h3
      | false => simp [outcome, RepState]; exact h1

theorem write_client {env : EngineEnv} {s : EngineState} {c : CatalogState} (h : RepState env s c)
    (ha : s.active.isSome = true)
    {f : Tree → Res Unit × Tree} {g : Catalog → Bool × Catalog}
    (hfg : ∀ t d, Rep env t d → ∃ t', f t = (outcome (g d).1, t') ∧ Rep env t' (g d).2) :
    (s.inTx f).1 = outcome (g (c.active.getD c.committed)).1 ∧
      RepState env (s.inTx f).2 ⟨c.committed, some (g (c.active.getD c.committed)).2⟩ := by
  obtain ⟨st, sa⟩ := s
  obtain ⟨ct, ca⟩ := c
  obtain ⟨h1, h2⟩ := h
  simp only at h1 h2 ha
  cases sa with
  | none => simp at ha
  | some t =>
    cases ca with
    | none => simp at h2
    | some d =>
      obtain ⟨t', e, h3⟩ := hfg t d h2
      simp only [EngineState.inTx, e, Option.getD_some]
      exact ⟨trivial, h1, h3⟩

theorem RepState.active {env : EngineEnv} {s : EngineState} {c : CatalogState}
    (h : RepState env s c) : s.active.isSome = c.active.isSome := by
  obtain ⟨st, sa⟩ := s
  obtain ⟨ct, ca⟩ := c
  obtain ⟨h1, h2⟩ := h
  cases sa <;> cases ca <;> simp_all

theorem session_step {env : SqlEnv} {st : EngineState} {c : CatalogState}
    (h : RepState env.toEngineEnv st c) (ses : Session) (stmt : Stmt)
    (hx : ses.tx = true → st.active.isSome = true) (hsup : Supported stmt)
    (hs : SmallStmt env (Client.meaning ses.client stmt)) :
    (ses.evaluate env st (some stmt)).1 = (clientStep env c ses.client stmt).1 ∧
      RepState env.toEngineEnv (ses.evaluate env st (some stmt)).2.1
        (clientStep env c ses.client stmt).2.1 ∧
      (ses.evaluate env st (some stmt)).2.2.client = (clientStep env c ses.client stmt).2.2 := by
  by_cases hp : Plain stmt
  · have hin : InTx (Client.meaning ses.client stmt) := by
      cases stmt <;> first | exact hp.elim | exact hsup.elim | trivial
    have hcs : clientStep env c ses.client stmt =
        if ses.tx then
          (some (outcome (effect env (c.active.getD c.committed)
              (Client.meaning ses.client stmt)).1),
            ⟨c.committed, some (effect env (c.active.getD c.committed)
              (Client.meaning ses.client stmt)).2⟩, ses.client)
        else if c.active.isSome then (none, c, ses.client)
        else
          (some (outcome (effect env c.committed (Client.meaning ses.client stmt)).1),
            ⟨if (effect env c.committed (Client.meaning ses.client stmt)).1
              then (effect env c.committed (Client.meaning ses.client stmt)).2
              else c.committed, none⟩, ses.client) := by
      cases stmt <;> first | exact hp.elim | rfl
    rw [evaluate_plain _ _ _ _ hp, hcs, resolver_eq]
    have hfg := fun t d (hr : Rep env.toEngineEnv t d) =>
      evaluate_effect hr (Client.meaning ses.client stmt) hin hs
    cases htx : ses.tx with
    | true =>
      have := write_client h (hx htx) (f := fun t => evaluate env t (Client.meaning ses.client stmt))
        (g := fun d => effect env d (Client.meaning ses.client stmt)) hfg
      simp only [if_true]
      exact ⟨by rw [this.1], this.2, trivial⟩
    | false =>
      have := auto_client h (f := fun t => evaluate env t (Client.meaning ses.client stmt))
        (g := fun d => effect env d (Client.meaning ses.client stmt)) hfg
      simp only [Bool.false_eq_true, if_false, autocommit_eq]
      cases hc : c.active.isSome <;> simp only [hc, if_true, Bool.false_eq_true, if_false] at this ⊢
      · exact ⟨this.1, this.2, trivial⟩
      · exact ⟨this.1, this.2, trivial⟩
  · obtain ⟨t, a⟩ := st
    obtain ⟨d, b⟩ := c
    obtain ⟨x, dd, ds⟩ := ses
    cases stmt <;> first | exact (hp trivial).elim | skip
    case begin =>
      obtain ⟨h1, h2⟩ := h
      cases x <;> cases a <;> cases b <;>
        simp_all [Session.evaluate, Stmt.resolve, clientStep, Session.client, EngineState.begin,
          RepState]
    case commit =>
      obtain ⟨h1, h2⟩ := h
      cases x <;> cases a <;> cases b <;>
        simp_all [Session.evaluate, Stmt.resolve, clientStep, Session.client, EngineState.commit,
          RepState]
    case rollback =>
      obtain ⟨h1, h2⟩ := h
      cases x <;> cases a <;> cases b <;>
        simp_all [Session.evaluate, Stmt.resolve, clientStep, Session.client,
          EngineState.rollback, RepState]
    case set var value =>
      simp only [Session.evaluate, Stmt.resolve, clientStep, Session.client, Session.set,
        idDATABASE, idSCHEMA]
      by_cases e : var = -19
      · subst e; exact ⟨rfl, h, rfl⟩
      · by_cases e2 : var = -58
        · subst e2; exact ⟨rfl, h, rfl⟩
        · simp [e, e2, h]
    case createDatabase dn o =>
      simp only [Session.evaluate, Stmt.resolve, clientStep, Session.client, createDatabase]
      cases x with
      | true => exact ⟨rfl, h, rfl⟩
      | false =>
        by_cases ho : o.length > 0
        · simp only [ho, or_true, if_true, Bool.false_eq_true, if_false]
          exact ⟨trivial, h, trivial⟩
        · have := auto_client h (f := fun t => createDatabaseTx env.toEngineEnv t dn)
            (g := fun c => effect env c (.createDatabase dn o)) (by
              intro t d hr
              simp only [effect, if_neg ho]
              exact hr.createDatabase hs)
          simp only [ho, or_false, Bool.false_eq_true, if_false]
          cases b <;> simp only [Option.isSome_none, Option.isSome_some, if_true,
            Bool.false_eq_true, if_false] at this ⊢
          · exact ⟨this.1, this.2, trivial⟩
          · exact ⟨this.1, this.2, trivial⟩
    case dropDatabase ie dn =>
      simp only [Session.evaluate, Stmt.resolve, clientStep, Session.client, dropDatabase]
      cases x with
      | true => exact ⟨rfl, h, rfl⟩
      | false =>
        have := auto_client h (f := fun t => dropDatabaseTx env.toEngineEnv t dn ie)
          (g := fun c => effect env c (.dropDatabase ie dn)) (by
            intro t d hr
            exact hr.dropDatabase hs ie)
        simp only [Bool.false_eq_true, if_false]
        cases b <;> simp only [Option.isSome_none, Option.isSome_some, if_true,
          Bool.false_eq_true, if_false] at this ⊢
        · exact ⟨this.1, this.2, trivial⟩
        · exact ⟨this.1, this.2, trivial⟩

/-- The server does what the clients mean. -/
structure RepServer (env : SqlEnv) (s : Server) (c : Clients) : Prop where
  engine : RepState env.toEngineEnv s.engine c.catalog
  clients : c.clients = s.sessions.map Session.client
  txs : s.txs ≤ s.lock

theorem server_step {env : SqlEnv} {s : Server} {c : Clients} (h : RepServer env s c) (i : Nat)
    (stmt : Stmt) (hsup : Supported stmt)
    (hs : ∀ cl, c.clients[i]? = some cl → SmallStmt env (Client.meaning cl stmt)) :
    (s.step env i (some stmt)).1 = (Clients.step env c i stmt).1 ∧
      RepServer env (s.step env i (some stmt)).2 (Clients.step env c i stmt).2 := by
  have htx := (step_txs env s i (some stmt) h.txs).1
  revert htx
  unfold Server.step Clients.step
  rw [h.clients] at hs ⊢
  simp only [List.getElem?_map] at hs ⊢
  cases hi : s.sessions[i]? with
  | none => exact fun _ => ⟨rfl, h⟩
  | some ses =>
    simp only [Option.map_some]
    intro htx
    obtain ⟨h1, h2, h3⟩ := session_step h.engine ses stmt (tx_lock h.txs hi) hsup
      (hs _ (by rw [hi]; rfl))
    refine ⟨h1, h2, ?_, htx⟩
    rw [List.map_set, h3]

theorem server_run {env : SqlEnv} : ∀ (ops : List (Nat × Stmt)) {s : Server} {c : Clients},
    RepServer env s c → SmallHistory env c ops →
    (s.run env (ops.map (fun p => (p.1, some p.2)))).1 = (Clients.run env c ops).1 ∧
      RepServer env (s.run env (ops.map (fun p => (p.1, some p.2)))).2
        (Clients.run env c ops).2 := by
  intro ops
  induction ops with
  | nil => intro s c h _; exact ⟨rfl, h⟩
  | cons op ops ih =>
    intro s c h hs
    obtain ⟨i, stmt⟩ := op
    obtain ⟨h1, h2, h3⟩ := hs
    obtain ⟨e1, r1⟩ := server_step h i stmt h1 h2
    obtain ⟨e2, r2⟩ := ih r1 h3
    simp only [List.map_cons, Server.run, Clients.run]
    exact ⟨by rw [e1, e2], r2⟩

theorem initial_server (env : SqlEnv) (hf : SystemFits env.toEngineEnv)
    (defaults : List (Identifier × Identifier)) :
    RepServer env (Server.initial env defaults) (Clients.initial env defaults) := by
  refine ⟨(initial_rep env.toEngineEnv hf).2, ?_, by rw [initial_txs]; omega⟩
  simp [Server.initial, Clients.initial, Session.client, newSession]

theorem clientStep_no_panic (env : SqlEnv) (c : CatalogState) (cl : Client) (stmt : Stmt) :
    (clientStep env c cl stmt).1 ≠ some .panic := by
  have ho : ∀ b, outcome b ≠ .panic := by intro b; cases b <;> simp [outcome]
  unfold clientStep
  split <;> (repeat' split) <;> simp [ho]

theorem clients_no_panic (env : SqlEnv) : ∀ (ops : List (Nat × Stmt)) (c : Clients),
    some .panic ∉ (Clients.run env c ops).1 := by
  intro ops
  induction ops with
  | nil => intro c; simp [Clients.run]
  | cons op ops ih =>
    intro c
    obtain ⟨i, stmt⟩ := op
    simp only [Clients.run, List.mem_cons, not_or]
    refine ⟨?_, ih _⟩
    unfold Clients.step
    cases c.clients[i]? with
    | none => simp
    | some cl => exact (clientStep_no_panic env _ _ _).symm

/-- A locked store without a transaction stays so. -/
theorem stuck_step (env : SqlEnv) (s : Server) (h : s.engine.active.isSome = true)
    (h0 : s.txs = 0) (i : Nat) (stmt : Option Stmt) :
    (s.step env i stmt).2.engine = s.engine ∧ (s.step env i stmt).2.txs = 0 := by
  unfold Server.step
  cases hi : s.sessions[i]? with
  | none => exact ⟨rfl, h0⟩
  | some ses =>
    have hx : ses.tx = false := by
      cases hx : ses.tx with
      | false => rfl
      | true => have := txs_mem hi hx; omega
    have hset := fun x' => count_set (s.sessions.map (·.tx)) i ses.tx x' (by simp [hi])
    have key : (ses.evaluate env s.engine stmt).2.1 = s.engine ∧
        (ses.evaluate env s.engine stmt).2.2.tx = false := by
      obtain ⟨⟨t, a⟩, l⟩ := s
      obtain ⟨x, dd, ds⟩ := ses
      simp only at h hx
      subst hx
      cases a with
      | none => simp at h
      | some t' =>
        cases stmt with
        | none => exact ⟨rfl, rfl⟩
        | some stmt =>
          cases stmt
          all_goals simp only [Session.evaluate, Stmt.resolve]
          case set var value =>
            unfold Session.set
            by_cases h : var = idDATABASE
            · simp [h]
            · by_cases h2 : var = idSCHEMA
              · simp [h2, idDATABASE, idSCHEMA]
              · simp [h, h2]
          case createDatabase d o =>
            unfold createDatabase
            by_cases ho : o.length > 0
            · simp [ho]
            · simp only [if_neg ho]; exact ⟨rfl, rfl⟩
          all_goals exact ⟨rfl, rfl⟩
    refine ⟨key.1, ?_⟩
    have := hset (ses.evaluate env s.engine stmt).2.2.tx
    rw [hx, key.2] at this
    simp only [Server.txs, List.map_set, key.2] at this h0 ⊢
    simpa [h0] using this

theorem stuck_run (env : SqlEnv) : ∀ (ops : List (Nat × Option Stmt)) (s : Server),
    s.engine.active.isSome = true → s.txs = 0 →
    (s.run env ops).2.engine = s.engine ∧ (s.run env ops).2.txs = 0 := by
  intro ops
  induction ops with
  | nil => intro s _ h; exact ⟨rfl, h⟩
  | cons op ops ih =>
    intro s h h0
    obtain ⟨i, stmt⟩ := op
    obtain ⟨e, e0⟩ := stuck_step env s h h0 i stmt
    simp only [Server.run]
    obtain ⟨e', e0'⟩ := ih (s.step env i stmt).2 (by rw [e]; exact h) e0
    exact ⟨by rw [e', e], e0'⟩

/-! ### Deciding the hypotheses for examples -/

instance (env : EngineEnv) (id : Identifier) : Decidable (Short env id) :=
  inferInstanceAs (Decidable (_ ≤ _))

instance (env : SqlEnv) (tn : TableName) : Decidable (ShortTable env tn) :=
  inferInstanceAs (Decidable (_ ∧ _ ∧ _))

instance (key : IndexKey) : Decidable (KeyOk key) := inferInstanceAs (Decidable (_ ∧ ¬ _ ∈ _))

instance decideSome {α : Type} (o : Option α) (P : α → Prop) [DecidablePred P] :
    Decidable (∀ a, o = some a → P a) :=
  match o with
  | none => isTrue (fun _ h => nomatch h)
  | some a =>
    if h : P a then isTrue (fun _ e => Option.some.inj e ▸ h)
    else isFalse (fun f => h (f a rfl))

instance decideSmall (env : SqlEnv) : (stmt : Stmt) → Decidable (SmallStmt env stmt)
  | .createSchema _ => inferInstanceAs (Decidable (_ ∧ _))
  | .dropSchema _ _ => inferInstanceAs (Decidable (_ ∧ _))
  | .createTable s =>
    inferInstanceAs (Decidable (ShortTable env s.table ∧ (∀ c ∈ s.constraints, KeyOk c.key) ∧
      ∀ key, primaryKey s = some key →
        (env.encodeDef ⟨1#32, s.columns, s.columnTypes, key⟩).length ≤ 8192))
  | .createIndex _ tn key _ => inferInstanceAs (Decidable (ShortTable env tn ∧ KeyOk key))
  | .createDatabase d _ => inferInstanceAs (Decidable (Short env.toEngineEnv d))
  | .dropDatabase _ d => inferInstanceAs (Decidable (Short env.toEngineEnv d))
  | .begin | .commit | .rollback | .set _ _ | .explain _ _ | .query _ | .alterTable _ _
  | .dropTable _ _ _ | .dropIndex _ _ _ | .copy _ _ _ _ | .delete _ _ | .insert _ _ _
  | .update _ _ _ => isTrue trivial

instance decideHistory (env : SqlEnv) : (c : Clients) → (ops : List (Nat × Stmt)) →
    Decidable (SmallHistory env c ops)
  | _, [] => isTrue trivial
  | c, (i, stmt) :: rest =>
    have := decideHistory env (Clients.step env c i stmt).2 rest
    inferInstanceAs (Decidable (Supported stmt ∧
      (∀ cl, c.clients[i]? = some cl → SmallStmt env (Client.meaning cl stmt)) ∧
      SmallHistory env (Clients.step env c i stmt).2 rest))

end Maho
