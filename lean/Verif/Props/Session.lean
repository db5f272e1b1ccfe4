import Verif.Lemmas.Session
import Verif.Props.Engine
/-
Properties C52-C55: sessions.
-/
namespace Maho
open Spec

theorem tracks_after (env : SqlEnv) (defaults : List (Identifier × Identifier))
    (ops : List (Nat × Option Stmt)) :
    Tracks (serverAfter env defaults ops)
      (fun i => inTransaction i (eventsAfter env defaults ops)) :=
  run_tracks env ops _ _ (initial_tracks env defaults)

theorem session_after (env : SqlEnv) (defaults : List (Identifier × Identifier))
    (ops : List (Nat × Option Stmt)) {i : Nat} (hi : i < defaults.length) :
    ∃ ses, (serverAfter env defaults ops).sessions[i]? = some ses ∧
      ses.tx = inTransaction i (eventsAfter env defaults ops) := by
  have hl : (serverAfter env defaults ops).sessions.length = defaults.length := by
    unfold serverAfter
    rw [run_sessions]
    simp [Server.initial]
  have : i < (serverAfter env defaults ops).sessions.length := by omega
  refine ⟨_, List.getElem?_eq_getElem this, ?_⟩
  exact (tracks_after env defaults ops).2 i _ (List.getElem?_eq_getElem this)

theorem set_same {α : Type} : ∀ (l : List α) (i : Nat) (x : α), l[i]? = some x → l.set i x = l := by
  intro l
  induction l with
  | nil => intro i x _; rfl
  | cons a l ih =>
    intro i x h
    cases i with
    | zero => simp at h; simp [h]
    | succ i => simp only [List.getElem?_cons_succ] at h; simp [ih i x h]

theorem step_same (env : SqlEnv) (s : Server) {i : Nat} {ses : Session} {stmt : Option Stmt}
    {r : Option (Res Unit)} (hi : s.sessions[i]? = some ses)
    (h : ses.evaluate env s.engine stmt = (r, s.engine, ses)) : s.step env i stmt = (r, s) := by
  simp only [Server.step, hi, h, set_same _ _ _ hi]

/-! ### C52 -/

/-- C52: after every history of statements of any number of sessions, BEGIN is refused exactly
when the session has a transaction according to the replies so far, COMMIT and ROLLBACK exactly
when it has none, and CREATE and DROP DATABASE are refused in a transaction; what is refused
changes nothing, and COMMIT and ROLLBACK of a transaction succeed. (BEGIN without a transaction
succeeds, or waits while another session has one.) -/
theorem C52_bracket (env : SqlEnv) (defaults : List (Identifier × Identifier))
    (ops : List (Nat × Option Stmt)) (i : Nat) (hi : i < defaults.length) :
    let s := serverAfter env defaults ops
    let now := inTransaction i (eventsAfter env defaults ops)
    (now = true →
      s.step env i (some .begin) = (some (.err .other), s) ∧
      (s.step env i (some .commit)).1 = some (.ok ()) ∧
      (s.step env i (some .rollback)).1 = some (.ok ()) ∧
      (∀ d o, s.step env i (some (.createDatabase d o)) = (some (.err .other), s)) ∧
      (∀ b d, s.step env i (some (.dropDatabase b d)) = (some (.err .other), s))) ∧
    (now = false →
      ((s.step env i (some .begin)).1 = some (.ok ()) ∨ s.step env i (some .begin) = (none, s)) ∧
      s.step env i (some .commit) = (some (.err .other), s) ∧
      s.step env i (some .rollback) = (some (.err .other), s)) := by
  obtain ⟨ses, hs, hx⟩ := session_after env defaults ops hi
  have htr := tracks_after env defaults ops
  generalize serverAfter env defaults ops = s at *
  rw [← hx]
  have hl := tx_lock htr.1 hs
  refine ⟨fun h => ⟨?_, ?_, ?_, ?_, ?_⟩, fun h => ⟨?_, ?_, ?_⟩⟩
  · exact step_same env s hs (by simp [Session.evaluate, Stmt.resolve, h])
  · obtain ⟨t, ht⟩ := Option.isSome_iff_exists.1 (hl h)
    simp [Server.step, hs, Session.evaluate, Stmt.resolve, h, EngineState.commit, ht]
  · obtain ⟨t, ht⟩ := Option.isSome_iff_exists.1 (hl h)
    simp [Server.step, hs, Session.evaluate, Stmt.resolve, h, EngineState.rollback, ht]
  · intro d o; exact step_same env s hs (by simp [Session.evaluate, Stmt.resolve, h])
  · intro b d; exact step_same env s hs (by simp [Session.evaluate, Stmt.resolve, h])
  · cases ha : s.engine.active with
    | none =>
      exact .inl (by simp [Server.step, hs, Session.evaluate, Stmt.resolve, h, EngineState.begin, ha])
    | some t =>
      exact .inr (step_same env s hs
        (by simp [Session.evaluate, Stmt.resolve, h, EngineState.begin, ha]))
  · exact step_same env s hs (by simp [Session.evaluate, Stmt.resolve, h])
  · exact step_same env s hs (by simp [Session.evaluate, Stmt.resolve, h])

/-- The parameters of the session model, with ASCII names. -/
def sampleSql : SqlEnv := { sampleEngine with unquoted := sampleIdent }

/-- Two sessions in the database maho and its schema public. -/
def sampleDefaults : List (Identifier × Identifier) := [(28, 33), (28, 33)]

example : 1 < sampleDefaults.length ∧
    inTransaction 1 (eventsAfter sampleSql sampleDefaults [(1, some .begin)]) = true ∧
    inTransaction 0 (eventsAfter sampleSql sampleDefaults [(1, some .begin)]) = false := by
  decide +kernel

example : ((Server.initial sampleSql sampleDefaults).run sampleSql
    [(0, some .begin), (0, some .begin), (0, some (.createDatabase 5 [])), (1, some .begin),
     (1, some .commit), (0, some .commit), (0, some .rollback), (1, some .begin)]).1 =
    [some (.ok ()), some (.err .other), some (.err .other), none, some (.err .other),
     some (.ok ()), some (.err .other), some (.ok ())] := by decide +kernel

/-! ### C53 -/

/-- C53 for one statement from every state of the server: outside a transaction a statement other
than BEGIN that waits or fails changes nothing at all; a statement that succeeds was given a free
store, has committed exactly what it does to the committed tree, and leaves the store free (SET
touches only the session). Missing: statements that panic (`C53_panics`). -/
theorem C53_atomic_partial (env : SqlEnv) (s : Server) (i : Nat) (ses : Session)
    (hi : s.sessions[i]? = some ses) (hx : ses.tx = false) (stmt : Stmt)
    (hb : stmt ≠ .begin) :
    match s.step env i (some stmt) with
    | (none, s') => s' = s
    | (some (.err _), s') => s' = s
    | (some .panic, _) => True
    | (some (.ok ()), s') =>
      match stmt.resolve ses.resolver with
      | .set _ _ => s'.engine = s.engine
      | .createDatabase d _ =>
        s.engine.active = none ∧ s'.sessions = s.sessions ∧
          (createDatabaseTx env.toEngineEnv s.engine.committed d).1 = .ok () ∧
          s'.engine = ⟨(createDatabaseTx env.toEngineEnv s.engine.committed d).2, none⟩
      | .dropDatabase b d =>
        s.engine.active = none ∧ s'.sessions = s.sessions ∧
          (dropDatabaseTx env.toEngineEnv s.engine.committed d b).1 = .ok () ∧
          s'.engine = ⟨(dropDatabaseTx env.toEngineEnv s.engine.committed d b).2, none⟩
      | stmt =>
        s.engine.active = none ∧ s'.sessions = s.sessions ∧
          (evaluate env s.engine.committed stmt).1 = .ok () ∧
          s'.engine = ⟨(evaluate env s.engine.committed stmt).2, none⟩ := by
  have key : ∀ f : Tree → Res Unit × Tree,
      ses.evaluate env s.engine (some stmt) =
        ((withTransaction s.engine f).1, (withTransaction s.engine f).2, ses) →
      match s.step env i (some stmt) with
      | (none, s') => s' = s
      | (some (.err _), s') => s' = s
      | (some .panic, _) => True
      | (some (.ok ()), s') =>
        s.engine.active = none ∧ s'.sessions = s.sessions ∧
          (f s.engine.committed).1 = .ok () ∧ s'.engine = ⟨(f s.engine.committed).2, none⟩ := by
    intro f hev
    simp only [Server.step, hi, hev, set_same _ _ _ hi]
    obtain ⟨⟨t, a⟩, l⟩ := s
    unfold withTransaction
    cases a with
    | some t' => rfl
    | none =>
      simp only
      cases hf : f t with
      | mk r t' => cases r <;> simp
  by_cases hp : Plain stmt
  · have := key (fun t => evaluate env t (stmt.resolve ses.resolver)) (by
      rw [evaluate_plain _ _ _ _ hp, hx]
      simp only [Bool.false_eq_true, if_false, autocommit_eq])
    cases stmt <;> first | exact hp.elim | exact this
  · cases stmt <;> first | exact (hp trivial).elim | exact (hb rfl).elim | skip
    case commit =>
      rw [step_same env s (r := some (.err .other)) hi
        (by simp [Session.evaluate, Stmt.resolve, hx])]
    case rollback =>
      rw [step_same env s (r := some (.err .other)) hi
        (by simp [Session.evaluate, Stmt.resolve, hx])]
    case set var value =>
      simp only [Server.step, hi, Session.evaluate, Stmt.resolve, Session.set]
      by_cases h : var = idDATABASE
      · simp [h]
      · by_cases h2 : var = idSCHEMA
        · simp [h2, idDATABASE, idSCHEMA]
        · simp [h, h2, set_same _ _ _ hi]
    case createDatabase d o =>
      by_cases ho : o.length > 0
      · rw [step_same env s (r := some (.err .other)) hi
          (by simp [Session.evaluate, Stmt.resolve, hx, createDatabase, ho])]
      · exact key (fun t => createDatabaseTx env.toEngineEnv t d)
          (by simp [Session.evaluate, Stmt.resolve, hx, createDatabase, ho])
    case dropDatabase b d =>
      exact key (fun t => dropDatabaseTx env.toEngineEnv t d b)
        (by simp [Session.evaluate, Stmt.resolve, hx, dropDatabase])

/-- C53 on histories: for every history of statements that the evaluator knows, of any number of
sessions, every reply is what the clients' statements mean on the catalog as sets of names: a
failed statement outside a transaction leaves the committed catalog, a successful one has its
effect on it, a statement in a transaction has its effect on the transaction's catalog, which
COMMIT makes the committed one. Missing: statements that the evaluator does not know, long names
and large definitions, which panic (`C53_panics`, `C46_long_name_panics`). -/
theorem C53_histories_partial (env : SqlEnv) (hf : SystemFits env.toEngineEnv)
    (defaults : List (Identifier × Identifier)) (ops : List (Nat × Stmt))
    (hs : SmallHistory env (Clients.initial env defaults) ops) :
    ((Server.initial env defaults).run env (ops.map (fun p => (p.1, some p.2)))).1 =
      (Clients.run env (Clients.initial env defaults) ops).1 :=
  (server_run ops (initial_server env hf defaults) hs).1

/-- A table with one column and a primary key on it. -/
def sampleStmt (tn : TableName) (col key : Identifier) : CreateTable :=
  ⟨tn, [col], [⟨.int64, 8#32, false, true⟩], [none], false,
    [⟨.primary, 0, 0, ⟨true, [key], [false]⟩, none⟩], []⟩

/-- A history with failing and succeeding statements and a transaction that is rolled back. -/
def sampleStatements : List (Nat × Stmt) :=
  [(0, .createTable (sampleStmt ⟨0, 0, sampleId "t"⟩ (sampleId "c") (sampleId "d"))),
   (0, .createTable (sampleStmt ⟨0, 0, sampleId "t"⟩ (sampleId "c") (sampleId "c"))),
   (1, .createTable (sampleStmt ⟨28, 33, sampleId "t"⟩ (sampleId "c") (sampleId "c"))),
   (1, .begin),
   (0, .createSchema ⟨0, sampleId "s"⟩),
   (1, .createSchema ⟨0, sampleId "s"⟩),
   (1, .rollback),
   (0, .createSchema ⟨0, sampleId "s"⟩)]

theorem sampleStatements_small :
    SmallHistory sampleSql (Clients.initial sampleSql sampleDefaults) sampleStatements := by
  decide +kernel

example : SystemFits sampleSql.toEngineEnv ∧
    SmallHistory sampleSql (Clients.initial sampleSql sampleDefaults) sampleStatements :=
  ⟨sampleEngine_fits, sampleStatements_small⟩

example : ((Server.initial sampleSql sampleDefaults).run sampleSql
    (sampleStatements.map (fun p => (p.1, some p.2)))).1 =
    [some (.err .other), some (.ok ()), some (.err .other), some (.ok ()), none, some (.ok ()),
     some (.ok ()), some (.ok ())] := by decide +kernel

/-- C53 fails for the statements that the evaluator does not know, such as SELECT, INSERT, UPDATE,
DELETE, COPY, EXPLAIN and ALTER TABLE: in every state in which the store is free, such a statement
outside a transaction panics and leaves the store locked. -/
theorem C53_panics (env : SqlEnv) (s : Server) (i : Nat) (ses : Session)
    (hi : s.sessions[i]? = some ses) (hx : ses.tx = false) (hfree : s.engine.active = none)
    (stmt : Stmt) (hu : ¬ Supported stmt) :
    s.step env i (some stmt) =
      (some .panic, ⟨⟨s.engine.committed, some s.engine.committed⟩, s.sessions⟩) := by
  obtain ⟨⟨t, a⟩, l⟩ := s
  simp only at hfree hi
  subst hfree
  have hp : Plain stmt := by cases stmt <;> first | trivial | exact (hu trivial).elim
  simp only [Server.step, hi]
  rw [evaluate_plain _ _ _ _ hp, hx]
  simp only [Bool.false_eq_true, if_false, autocommit_eq, set_same _ _ _ hi]
  cases stmt <;> first | exact (hu trivial).elim | rfl

example : ¬ Supported (.query (.values [[.lit none]])) ∧
    ¬ Supported (.insert ⟨28, 33, 7⟩ [] [[none]]) := ⟨id, id⟩

/-! ### C54 -/

/-- C54 for table names. -/
theorem C54_tables (ses : Session) (tn : TableName) :
    (tn.database ≠ 0 → ses.resolveTable tn = tn) ∧
    (tn.database = 0 →
      (ses.resolveTable tn).database = ses.defaultDatabase ∧
      (ses.resolveTable tn).table = tn.table ∧
      (tn.schema ≠ 0 → (ses.resolveTable tn).schema = tn.schema) ∧
      (tn.schema = 0 → (ses.resolveTable tn).schema = ses.defaultSchema)) ∧
    ses.resolveTable (ses.resolveTable tn) = ses.resolveTable tn := by
  refine ⟨fun h => by simp [Session.resolveTable, h],
    fun h => ⟨by simp [Session.resolveTable, h], by simp [Session.resolveTable, h],
      fun h2 => by simp [Session.resolveTable, h, h2],
      fun h2 => by simp [Session.resolveTable, h, h2]⟩, ?_⟩
  obtain ⟨d, s, t⟩ := tn
  simp only [Session.resolveTable]
  by_cases h : d = 0
  · by_cases h1 : ses.defaultDatabase = 0 <;> by_cases h2 : s = 0 <;> simp [h, h1, h2]
  · simp [h]

example : (⟨0, 0, 7⟩ : TableName).database = 0 ∧ (⟨0, 3, 7⟩ : TableName).schema ≠ 0 ∧
    (⟨5, 3, 7⟩ : TableName).database ≠ 0 ∧
    (newSession 28 33).resolveTable ⟨0, 0, 7⟩ = ⟨28, 33, 7⟩ ∧
    (newSession 28 33).resolveTable ⟨0, 3, 7⟩ = ⟨28, 3, 7⟩ := by decide

/-- C54 for schema names. -/
theorem C54_schemas (ses : Session) (sn : SchemaName) :
    (sn.database ≠ 0 → ses.resolveSchema sn = sn) ∧
    (sn.database = 0 → ses.resolveSchema sn = ⟨ses.defaultDatabase, sn.schema⟩) ∧
    ses.resolveSchema (ses.resolveSchema sn) = ses.resolveSchema sn := by
  refine ⟨fun h => by simp [Session.resolveSchema, h], fun h => by simp [Session.resolveSchema, h], ?_⟩
  obtain ⟨d, s⟩ := sn
  simp only [Session.resolveSchema]
  by_cases h : d = 0
  · by_cases h1 : ses.defaultDatabase = 0 <;> simp [h, h1]
  · simp [h]

example : (⟨0, 7⟩ : SchemaName).database = 0 ∧ (⟨5, 7⟩ : SchemaName).database ≠ 0 ∧
    (newSession 28 33).resolveSchema ⟨0, 7⟩ = ⟨28, 7⟩ := by decide

/-- C54 for statements: exactly the names of the statement's tables and schemas are resolved; a
statement with qualified names is not changed; resolving twice changes nothing; and the session
evaluates the resolved statement. -/
theorem C54_statements (ses : Session) (stmt : Stmt) :
    stmtTables (stmt.resolve ses.resolver) = (stmtTables stmt).map ses.resolveTable ∧
    stmtSchemas (stmt.resolve ses.resolver) = (stmtSchemas stmt).map ses.resolveSchema ∧
    ((∀ tn ∈ stmtTables stmt, tn.database ≠ 0) → (∀ sn ∈ stmtSchemas stmt, sn.database ≠ 0) →
      stmt.resolve ses.resolver = stmt) ∧
    (stmt.resolve ses.resolver).resolve ses.resolver = stmt.resolve ses.resolver ∧
    ∀ env st, ses.evaluate env st (some stmt) =
      ses.evaluate env st (some (stmt.resolve ses.resolver)) := by
  have htwice : (stmt.resolve ses.resolver).resolve ses.resolver = stmt.resolve ses.resolver := by
    have ht : ∀ tn, ses.resolveTable (ses.resolveTable tn) = ses.resolveTable tn :=
      fun tn => (C54_tables ses tn).2.2
    have hs : ∀ sn, ses.resolveSchema (ses.resolveSchema sn) = ses.resolveSchema sn :=
      fun sn => (C54_schemas ses sn).2.2
    cases stmt <;> simp [Stmt.resolve, Session.resolver, ht, hs]
  refine ⟨?_, ?_, ?_, htwice, ?_⟩
  · cases stmt <;> simp [Stmt.resolve, stmtTables, Session.resolver]
  · cases stmt <;> simp [Stmt.resolve, stmtSchemas, Session.resolver]
  · intro ht hs
    have ht' : ∀ tn ∈ stmtTables stmt, ses.resolveTable tn = tn :=
      fun tn h => (C54_tables ses tn).1 (ht tn h)
    have hs' : ∀ sn ∈ stmtSchemas stmt, ses.resolveSchema sn = sn :=
      fun sn h => (C54_schemas ses sn).1 (hs sn h)
    clear ht hs
    cases stmt <;>
      simp_all [Stmt.resolve, stmtTables, stmtSchemas, Session.resolver]
    case dropTable b c tns =>
      conv => rhs; rw [← List.map_id tns]
      exact List.map_congr_left ht'
  · intro env st
    simp only [Session.evaluate, htwice]

example : (∀ tn ∈ stmtTables (.delete ⟨5, 3, 7⟩ none), tn.database ≠ 0) ∧
    (∀ sn ∈ stmtSchemas (.delete ⟨5, 3, 7⟩ none), sn.database ≠ 0) ∧
    stmtTables (.dropTable false false [⟨5, 3, 7⟩, ⟨0, 0, 8⟩]) = [⟨5, 3, 7⟩, ⟨0, 0, 8⟩] := by
  refine ⟨?_, ?_, rfl⟩ <;> simp [stmtTables, stmtSchemas]

/-- C54 for SET, in every state of the server and for every session: SET DATABASE and SET SCHEMA
succeed and change only the named default of the session; SET of anything else fails and changes
nothing. -/
theorem C54_set (env : SqlEnv) (s : Server) (i : Nat) (ses : Session)
    (hi : s.sessions[i]? = some ses) (var : Identifier) (value : Bytes) :
    s.step env i (some (.set var value)) =
      if var = -19 then
        (some (.ok ()), ⟨s.engine,
          s.sessions.set i ⟨ses.tx, env.unquoted value, ses.defaultSchema⟩⟩)
      else if var = -58 then
        (some (.ok ()), ⟨s.engine,
          s.sessions.set i ⟨ses.tx, ses.defaultDatabase, env.unquoted value⟩⟩)
      else (some (.err .other), s) := by
  simp only [Server.step, hi, Session.evaluate, Stmt.resolve, Session.set, idDATABASE, idSCHEMA]
  by_cases h : var = -19
  · subst h; rfl
  · by_cases h2 : var = -58
    · subst h2; rfl
    · simp [h, h2, set_same _ _ _ hi]

example : (Server.initial sampleSql sampleDefaults).sessions[1]? = some (newSession 28 33) ∧
    (serverAfter sampleSql sampleDefaults [(1, some (.set (-58) (ascii "info")))]).sessions =
      [newSession 28 33, newSession 28 22] := by decide +kernel

/-! ### C55 -/

theorem count_pos_iff_tx (s : Server) :
    0 < s.txs ↔ ∃ (i : Nat) (ses : Session), s.sessions[i]? = some ses ∧ ses.tx = true := by
  constructor
  · intro h
    unfold Server.txs at h
    rw [List.count_pos_iff, List.mem_map] at h
    obtain ⟨ses, hm, hx⟩ := h
    obtain ⟨i, hi⟩ := List.getElem?_of_mem hm
    exact ⟨i, ses, hi, hx⟩
  · rintro ⟨i, ses, hi, hx⟩
    exact txs_mem hi hx

theorem inTransaction_bound (env : SqlEnv) (defaults : List (Identifier × Identifier))
    (ops : List (Nat × Option Stmt)) (i : Nat)
    (h : inTransaction i (eventsAfter env defaults ops) = true) : i < defaults.length := by
  have hlen : ∀ (ops : List (Nat × Option Stmt)) (s : Server) (b : Bool),
      s.sessions.length ≤ i → (events ops (s.run env ops).1).foldl (fun b e => e.after i b) b = b := by
    intro ops
    induction ops with
    | nil => intro s b _; rfl
    | cons op ops ih =>
      intro s b hl
      obtain ⟨j, stmt⟩ := op
      have hl' : (s.step env j stmt).2.sessions.length ≤ i := by
        have := run_sessions env [(j, stmt)] s
        simp only [Server.run] at this
        omega
      have hstep : Event.after ⟨j, stmt, (s.step env j stmt).1⟩ i b = b := by
        unfold Event.after
        by_cases hj : j = i
        · subst hj
          have : s.sessions[j]? = none := List.getElem?_eq_none hl
          simp [Server.step, this]
        · simp [hj]
      have := ih (s.step env j stmt).2 b hl'
      simp only [events, Server.run, List.zip_cons_cons, List.map_cons, List.foldl_cons, hstep]
      exact this
  by_cases hi : i < defaults.length
  · exact hi
  · have := hlen ops (Server.initial env defaults) false (by simp [Server.initial]; omega)
    unfold inTransaction eventsAfter at h
    rw [this] at h
    cases h

theorem lock_after (env : SqlEnv) : ∀ (ops : List (Nat × Option Stmt)) (s : Server)
    (before : List Event), Tracks s (fun i => inTransaction i before) → s.txs = s.lock →
    (∀ k e, (events ops (s.run env ops).1)[k]? = some e → e.reply = some .panic →
      inTransaction e.session (before ++ (events ops (s.run env ops).1).take k) = true) →
    (s.run env ops).2.txs = (s.run env ops).2.lock := by
  intro ops
  induction ops with
  | nil => intro s before _ h _; exact h
  | cons op ops ih =>
    intro s before htr heq hp
    obtain ⟨i, stmt⟩ := op
    have hev : events ((i, stmt) :: ops) (s.run env ((i, stmt) :: ops)).1 =
        ⟨i, stmt, (s.step env i stmt).1⟩ ::
          events ops ((s.step env i stmt).2.run env ops).1 := by
      simp [events, Server.run]
    rw [hev] at hp
    simp only [Server.run]
    refine ih (s.step env i stmt).2 (before ++ [⟨i, stmt, (s.step env i stmt).1⟩]) ?_ ?_ ?_
    · have := step_tracks env htr i stmt
      simpa [inTransaction, List.foldl_append] using this
    · refine (step_txs env s i stmt htr.1).2 heq ?_
      intro hr
      have := hp 0 _ rfl hr
      simp only [List.take_zero, List.append_nil] at this
      cases hi : s.sessions[i]? with
      | none => simp [Server.step, hi] at hr
      | some ses => exact ⟨ses, rfl, by rw [htr.2 i ses hi]; exact this⟩
    · intro k e hk hr
      have := hp (k + 1) e (by simpa using hk) hr
      simpa using this

/-- C55: after every history of statements of any number of sessions the store is locked exactly
if some session has a transaction open according to the replies. Missing: histories in which a
statement outside a transaction panicked (`C55_blocks`). -/
theorem C55_lock_partial (env : SqlEnv) (hf : SystemFits env.toEngineEnv)
    (defaults : List (Identifier × Identifier))
    (ops : List (Nat × Option Stmt)) (hp : NoPanicOutside (eventsAfter env defaults ops)) :
    (serverAfter env defaults ops).engine.active.isSome = true ↔
      ∃ i, inTransaction i (eventsAfter env defaults ops) = true := by
  have htr := tracks_after env defaults ops
  have heq : (serverAfter env defaults ops).txs = (serverAfter env defaults ops).lock := by
    refine lock_after env ops _ [] (initial_tracks env defaults) ?_ ?_
    · rw [initial_txs]
      have := (initial_server env hf defaults).engine.active
      unfold Server.lock
      rw [this]
      rfl
    · intro k e hk hr
      have := hp k e hk hr
      simpa [eventsAfter] using this
  constructor
  · intro hl
    have : 0 < (serverAfter env defaults ops).txs := by
      rw [heq, lock_eq_one.1 hl]; omega
    obtain ⟨i, ses, hi, hx⟩ := (count_pos_iff_tx _).1 this
    exact ⟨i, (htr.2 i ses hi).symm.trans hx⟩
  · rintro ⟨i, hi⟩
    obtain ⟨ses, hs, hx⟩ := session_after env defaults ops (inTransaction_bound env defaults ops i hi)
    exact tx_lock htr.1 hs (hx.trans hi)

/-- C55 holds in every history of statements that the evaluator knows, with names and definitions
that fit the catalog: none of them panics. -/
theorem C55_supported_partial (env : SqlEnv) (hf : SystemFits env.toEngineEnv)
    (defaults : List (Identifier × Identifier)) (ops : List (Nat × Stmt))
    (hs : SmallHistory env (Clients.initial env defaults) ops) :
    NoPanicOutside (eventsAfter env defaults (ops.map (fun p => (p.1, some p.2)))) ∧
    ((serverAfter env defaults (ops.map (fun p => (p.1, some p.2)))).engine.active.isSome = true ↔
      ∃ i, inTransaction i (eventsAfter env defaults (ops.map (fun p => (p.1, some p.2)))) =
        true) := by
  have hn : NoPanicOutside (eventsAfter env defaults (ops.map (fun p => (p.1, some p.2)))) := by
    intro k e hk hr
    exfalso
    have hm := List.mem_of_getElem? hk
    unfold eventsAfter events at hm
    rw [C53_histories_partial env hf defaults ops hs] at hm
    rw [List.mem_map] at hm
    obtain ⟨⟨q, r⟩, hq, rfl⟩ := hm
    simp only at hr
    subst hr
    exact clients_no_panic env ops _ (List.of_mem_zip hq).2
  exact ⟨hn, C55_lock_partial env hf defaults _ hn⟩

example : NoPanicOutside (eventsAfter sampleSql sampleDefaults
    (sampleStatements.map (fun p => (p.1, some p.2)))) :=
  (C55_supported_partial sampleSql sampleEngine_fits sampleDefaults sampleStatements
    sampleStatements_small).1

example : (serverAfter sampleSql sampleDefaults
    ((sampleStatements.take 5).map (fun p => (p.1, some p.2)))).engine.active.isSome = true ∧
    (serverAfter sampleSql sampleDefaults
      (sampleStatements.map (fun p => (p.1, some p.2)))).engine.active.isSome = false := by
  decide +kernel

/-- C55 fails: after every history that leaves the store free, a statement that the evaluator does
not know, from any session, locks the store, and then BEGIN of every session waits, whatever
statements are tried first. -/
theorem C55_blocks (env : SqlEnv) (defaults : List (Identifier × Identifier))
    (ops : List (Nat × Option Stmt))
    (hfree : (serverAfter env defaults ops).engine.active = none)
    (i : Nat) (hi : i < defaults.length) (stmt : Stmt) (hu : ¬ Supported stmt)
    (more : List (Nat × Option Stmt)) (j : Nat) :
    (((serverAfter env defaults ops).step env i (some stmt)).2.run env
        (more ++ [(j, some .begin)])).1.getLast? = some none := by
  obtain ⟨ses, hs, hx⟩ := session_after env defaults ops hi
  have htr := tracks_after env defaults ops
  have h0 : (serverAfter env defaults ops).txs = 0 := by
    have := htr.1
    unfold Server.lock at this
    rw [hfree] at this
    simpa using this
  have hx' : ses.tx = false := by
    cases hx : ses.tx with
    | false => rfl
    | true => have := txs_mem hs hx; omega
  rw [C53_panics env _ i ses hs hx' hfree stmt hu]
  have happ : ∀ (more : List (Nat × Option Stmt)) (s : Server) (op : Nat × Option Stmt),
      (s.run env (more ++ [op])).1 =
        (s.run env more).1 ++ [((s.run env more).2.step env op.1 op.2).1] := by
    intro more
    induction more with
    | nil => intro s op; rfl
    | cons a more ih => intro s op; simp [Server.run, ih]
  rw [happ, List.getLast?_append]
  simp only [List.getLast?_singleton]
  obtain ⟨he, ht⟩ := stuck_run env more
    ⟨⟨(serverAfter env defaults ops).engine.committed,
      some (serverAfter env defaults ops).engine.committed⟩,
      (serverAfter env defaults ops).sessions⟩ rfl h0
  refine congrArg some ?_
  revert he ht
  generalize (Server.run env _ more).2 = s'
  intro he ht
  unfold Server.step
  cases hj : s'.sessions[j]? with
  | none => rfl
  | some ses' =>
    have hx2 : ses'.tx = false := by
      cases hx : ses'.tx with
      | false => rfl
      | true => have := txs_mem hj hx; omega
    simp [Session.evaluate, Stmt.resolve, hx2, EngineState.begin, he]

example : (serverAfter sampleSql sampleDefaults []).engine.active = none ∧
    1 < sampleDefaults.length ∧ ¬ Supported (.delete ⟨0, 0, 7⟩ none) :=
  ⟨by decide +kernel, by decide, id⟩

end Maho
