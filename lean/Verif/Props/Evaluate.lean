import Verif.Lemmas.Evaluate
import Verif.Lemmas.FakeEngine
import Verif.Props.Session
/-
Properties C79-C82: sessions with any engine.
-/
namespace Maho
open Spec

variable {σ τ : Type}

/-! ### C79 -/

/-- C79 for one statement, whatever the engine answers, and also if the statement panics or does
not return: what the session asks keeps to the protocol. If the statement returns, or the session
was in a transaction before, then the transaction of the session is the one that is open. -/
theorem C79_statement (unquoted : Bytes → Identifier) (e : AnyEngine σ τ) (s : σ)
    (log : List (Asked τ)) (ses : AnySession τ) (stmt : Option Stmt) :
    ∃ es o, (ses.evaluate unquoted (logged e) (s, log) stmt).2.1.2 = log ++ es ∧
      Keeps ses.tx es o ∧
      (Returned (ses.evaluate unquoted (logged e) (s, log) stmt).1 ∨ ses.tx ≠ none →
        o = (ses.evaluate unquoted (logged e) (s, log) stmt).2.2.tx) :=
  session_conf unquoted e s log ses stmt

theorem run_conf (unquoted : Bytes → Identifier) (e : AnyEngine σ τ) :
    ∀ (stmts : List (Option Stmt)) (s : σ) (log : List (Asked τ)) (ses : AnySession τ),
      (∀ r ∈ (ses.run unquoted (logged e) (s, log) stmts).1, Returned r) →
      ∃ es, (ses.run unquoted (logged e) (s, log) stmts).2.1.2 = log ++ es ∧
        Keeps ses.tx es (ses.run unquoted (logged e) (s, log) stmts).2.2.tx
  | [], s, log, ses, _ => ⟨[], by simp [AnySession.run], .nil _⟩
  | stmt :: stmts, s, log, ses, h => by
    obtain ⟨es, o, he, hk, ho⟩ := session_conf unquoted e s log ses stmt
    unfold AnySession.run at h ⊢
    generalize ses.evaluate unquoted (logged e) (s, log) stmt = p at he ho h ⊢
    obtain ⟨r, ⟨s', log'⟩, ses'⟩ := p
    simp only at he
    subst he
    cases r with
    | none => exact (h none (by simp)).elim
    | some r =>
      simp only [List.mem_cons] at h ⊢
      have h1 := ho (.inl (h _ (.inl rfl)))
      subst h1
      obtain ⟨es', he', hk'⟩ := run_conf unquoted e stmts s' (log ++ es) ses'
        (fun r hr => h r (.inr hr))
      exact ⟨es ++ es', by rw [he', List.append_assoc], hk.append hk'⟩

/-- C79 for every engine and every history of statements of a session that all return: what the
session asks keeps to the protocol, and the transaction of the session is the one that is open at
the end. Missing: statements that panic or do not return (`C79_not_ended`). -/
theorem C79_protocol_partial (unquoted : Bytes → Identifier) (e : AnyEngine σ τ) (s : σ)
    (ses : AnySession τ) (stmts : List (Option Stmt))
    (h : ∀ r ∈ (ses.run unquoted (logged e) (s, []) stmts).1, Returned r) :
    Keeps ses.tx (ses.run unquoted (logged e) (s, []) stmts).2.1.2
      (ses.run unquoted (logged e) (s, []) stmts).2.2.tx := by
  obtain ⟨es, he, hk⟩ := run_conf unquoted e stmts s [] ses h
  rw [he]
  exact hk

theorem keeps_count {o o' : Option τ} {l : List (Asked τ)} (h : Keeps o l o') :
    o.isSome.toNat + l.countP Asked.begins = l.countP Asked.ends + o'.isSome.toNat := by
  induction h with
  | nil o => simp
  | cons hs _ ih =>
    cases hs with
    | createDatabase dn opts a =>
      simpa [List.countP_cons, Asked.begins, Asked.ends] using ih
    | dropDatabase dn b a =>
      simpa [List.countP_cons, Asked.begins, Asked.ends] using ih
    | begin t =>
      simp [List.countP_cons, Asked.begins, Asked.ends] at ih ⊢
      omega
    | notBegun a h =>
      have : Asked.begins (⟨.begin, a⟩ : Asked τ) = false := by
        rcases a with _ | t | _ | _
        · rfl
        · exact (h t rfl).elim
        · rfl
        · rfl
      simpa [List.countP_cons, this, Asked.ends] using ih
    | use t r a h =>
      cases r <;> first | exact (h trivial).elim | simpa [List.countP_cons, Asked.begins, Asked.ends] using ih
    | ended t r a h ha =>
      have : Asked.ends (⟨.tx t r, a⟩ : Asked τ) = true := by
        cases r <;> first | exact h.elim | skip
        all_goals rcases a with _ | _ | _ | _ <;> first | exact ha.elim | rfl
      simp [this, Asked.begins] at ih ⊢
      omega
    | notEnded t r a h ha =>
      have : Asked.ends (⟨.tx t r, a⟩ : Asked τ) = false := by
        cases r <;> first | exact h.elim | skip
        all_goals rcases a with _ | _ | _ | _ <;> first | exact (ha trivial).elim | rfl
      simpa [List.countP_cons, this, Asked.begins] using ih

/-- C79: a new session whose statements all returned has ended as many transactions as it has
begun, but for the one it is in. Missing: statements that panic or do not return. -/
theorem C79_all_ended_partial (unquoted : Bytes → Identifier) (e : AnyEngine σ τ) (s : σ)
    (database schema : Identifier) (stmts : List (Option Stmt))
    (h : ∀ r ∈ ((newAnySession τ database schema).run unquoted (logged e) (s, []) stmts).1,
      Returned r) :
    let log := ((newAnySession τ database schema).run unquoted (logged e) (s, []) stmts).2.1.2
    let ses := ((newAnySession τ database schema).run unquoted (logged e) (s, []) stmts).2.2
    log.countP Asked.begins = log.countP Asked.ends + (if ses.tx.isSome then 1 else 0) := by
  have := keeps_count (C79_protocol_partial unquoted e s _ stmts h)
  simp only [newAnySession, Option.isSome_none, Bool.toNat_false, Nat.zero_add] at this ⊢
  have hb : ∀ b : Bool, b.toNat = if b then 1 else 0 := by decide
  rw [this, hb]
  rfl

/-- Statements in and outside of transactions, of which some fail, with an engine that keeps
what it is told. -/
def sampleAny : List (Option Stmt) :=
  [some (.createSchema ⟨0, 7⟩), some (.createSchema ⟨0, 7⟩), some .commit, some .begin,
   some .begin, some (.dropSchema false ⟨0, 7⟩), some (.dropDatabase false 5), some .rollback,
   some (.dropTable false false [⟨0, 0, 8⟩]), some .begin]

example : ((newAnySession Unit 5 6).run (fun _ => 0) (logged fakeEngine) (⟨[], []⟩, [])
      sampleAny).1 =
    [some (.ok ()), some (.err .other), some (.err .other), some (.ok ()), some (.err .other),
     some (.ok ()), some (.err .other), some (.ok ()), some (.err .other), some (.ok ())] ∧
    (((newAnySession Unit 5 6).run (fun _ => 0) (logged fakeEngine) (⟨[], []⟩, [])
      sampleAny).2.1.2.map Asked.request) =
    [.begin, .tx () (.createSchema ⟨5, 7⟩), .tx () .commit,
     .begin, .tx () (.createSchema ⟨5, 7⟩), .tx () .rollback,
     .begin, .tx () (.dropSchema ⟨5, 7⟩ false), .tx () .rollback,
     .begin, .tx () (.dropTable ⟨5, 6, 8⟩), .tx () .rollback, .begin] := by
  decide +kernel

/-- C79 fails when a statement panics, and the statements that the evaluator does not know do so
with every engine: outside a transaction the session begins one and forgets it, so that it is
never ended, and the next statement begins another one. -/
theorem C79_not_ended (unquoted : Bytes → Identifier) (e : AnyEngine σ τ) (s : σ)
    (ses : AnySession τ) (hs : ses.tx = none) (t : τ) (hb : (e .begin s).1 = some (.ok t))
    (stmt : Stmt) (hu : ¬ Supported stmt) :
    ses.evaluate unquoted (logged e) (s, []) (some stmt) =
        (some .panic, ((e .begin s).2, [⟨.begin, some (.ok t)⟩]), ses) ∧
      ∀ o, ¬ Keeps none ((ses.run unquoted (logged e) (s, []) [some stmt, some .begin]).2.1.2) o := by
  have hp : Plain stmt := by cases stmt <;> first | trivial | exact (hu trivial).elim
  have h1 : ses.evaluate unquoted (logged e) (s, []) (some stmt) =
      (some .panic, ((e .begin s).2, [⟨.begin, some (.ok t)⟩]), ses) := by
    rw [any_evaluate_plain _ _ _ _ _ hp, hs]
    have hl : logged e .begin (s, []) =
        (some (.ok t), (e .begin s).2, [⟨.begin, some (.ok t)⟩]) := by
      unfold logged
      simp [hb]
    have hv : ∀ s' : σ × List (Asked τ),
        evaluateAny (logged e) t s' (stmt.resolve ses.resolver) = (some .panic, s') := by
      intro s'
      cases stmt <;> first | exact (hu trivial).elim | rfl
    simp only [anyAutocommit, hl, hv]
  refine ⟨h1, ?_⟩
  have h2 : (ses.run unquoted (logged e) (s, []) [some stmt, some .begin]).2.1.2 =
      [⟨.begin, some (.ok t)⟩, ⟨.begin, (e .begin (e .begin s).2).1⟩] := by
    simp only [AnySession.run, h1]
    simp only [AnySession.evaluate, Stmt.resolve, hs, logged]
    rcases h3 : e .begin (e .begin s).2 with ⟨_ | _ | _ | _, s'⟩ <;> rfl
  intro o hk
  rw [h2] at hk
  cases hk with
  | cons hs hl =>
    cases hs with
    | begin t' =>
      cases hl with
      | cons hs _ => cases hs
    | notBegun a h => exact h t rfl

example : ¬ Supported (.query (.values [[.lit none]])) ∧
    (fakeEngine .begin ⟨[], []⟩).1 = some (.ok ()) := ⟨id, rfl⟩

/-- The session with the repository's engine (Model/Session.lean) is the session with any engine,
given that engine; so C79 holds of it. -/
theorem C79_repository (env : SqlEnv) (st : EngineState) (ses : Session) (stmt : Option Stmt)
    (h : ses.tx = true → st.active ≠ none) :
    ses.any.evaluate env.unquoted (repoEngine env.toEngineEnv) st stmt =
      ((ses.evaluate env st stmt).1, (ses.evaluate env st stmt).2.1,
        (ses.evaluate env st stmt).2.2.any) :=
  session_repo env st ses stmt h

/-! ### C80 -/

/-- C80 for CREATE TABLE, for every engine: the table is opened; if that works, the statement is
refused, or accepted with IF NOT EXISTS, and nothing else is asked; if it fails, and the columns
of the first primary key are columns of the table, the table is created with the columns, their
types and that key, and the reply is the engine's. -/
theorem C80_create_table (e : AnyEngine σ τ) (tx : τ) (s : σ) (log : List (Asked τ))
    (stmt : CreateTable) (hk : ∀ c ∈ stmt.constraints, KeyOk c.key) :
    let opened := e (.tx tx (.openTable stmt.table)) s
    let asked : List (Asked τ) := log ++ [⟨.tx tx (.openTable stmt.table), opened.1⟩]
    evaluateAny (logged e) tx (s, log) (.createTable stmt) =
      match opened.1, primaryKey stmt with
      | none, _ => (none, opened.2, asked)
      | some .panic, _ => (some .panic, opened.2, asked)
      | some (.ok _), _ => (some (outcome stmt.ifNotExists), opened.2, asked)
      | some (.err _), none => (some (.err .other), opened.2, asked)
      | some (.err _), some key =>
        let r : Request τ := .tx tx (.createTable stmt.table stmt.columns stmt.columnTypes key)
        let created := e (.tx tx (.createTable stmt.table stmt.columns stmt.columnTypes key)) opened.2
        (created.1, created.2, asked ++ [⟨r, created.1⟩]) := by
  have hp : match primaryKey stmt with
      | some ks => primaryColumnKey stmt.columns stmt.constraints = .ok (ks, 0)
      | none => ∃ bad, bad ≠ 0 ∧ primaryColumnKey stmt.columns stmt.constraints = .ok ([], bad) :=
    primary_eq stmt.columns stmt.constraints hk
  simp only [evaluateAny, anyCreateTable, logged]
  generalize e (.tx tx (.openTable stmt.table)) s = p
  obtain ⟨r, s'⟩ := p
  rcases r with _ | t | x | _
  · rfl
  · simp only
    cases stmt.ifNotExists <;> rfl
  · simp only
    cases hc : primaryKey stmt with
    | some ks =>
      rw [hc] at hp
      simp only at hp
      rw [hp]
      rfl
    | none =>
      rw [hc] at hp
      obtain ⟨bad, hb, hi⟩ := hp
      rw [hi]
      simp [hb]
  · rfl

/-- C80 for CREATE INDEX, for every engine: the table is opened; if it has an index of that name
the statement is refused, or accepted with IF NOT EXISTS, and nothing else is asked; otherwise, if
the columns of the key are columns of the table, the index is created with that key, and the
reply is the engine's. -/
theorem C80_create_index (e : AnyEngine σ τ) (tx : τ) (s : σ) (log : List (Asked τ))
    (index : Identifier) (table : TableName) (key : IndexKey) (b : Bool) (hk : KeyOk key) :
    let opened := e (.tx tx (.openTable table)) s
    let asked : List (Asked τ) := log ++ [⟨.tx tx (.openTable table), opened.1⟩]
    evaluateAny (logged e) tx (s, log) (.createIndex index table key b) =
      match opened.1 with
      | none => (none, opened.2, asked)
      | some .panic => (some .panic, opened.2, asked)
      | some (.err x) => (some (.err x), opened.2, asked)
      | some (.ok none) => (some .panic, opened.2, asked)
      | some (.ok (some tt)) =>
        if ∃ it ∈ tt.indexes, it.name = index then (some (outcome b), opened.2, asked)
        else
          match columnKey tt.columnNames key with
          | none => (some (.err .other), opened.2, asked)
          | some ks =>
            let r : Request τ := .tx tx (.createIndex table index ks)
            let created := e (.tx tx (.createIndex table index ks)) opened.2
            (created.1, created.2, asked ++ [⟨r, created.1⟩]) := by
  simp only [evaluateAny, anyCreateIndex, logged]
  generalize e (.tx tx (.openTable table)) s = p
  obtain ⟨r, s'⟩ := p
  rcases r with _ | t | x | _
  · rfl
  · rcases t with _ | tt
    · rfl
    simp only
    by_cases ht : ∃ it ∈ tt.indexes, it.name = index
    · have : tt.indexes.any (fun it => it.name == index) = true := by simpa using ht
      simp only [this, ht, if_true]
      cases b <;> rfl
    · have : tt.indexes.any (fun it => it.name == index) = false := by
        simpa using ht
      simp only [this, ht, if_false, Bool.false_eq_true]
      have hp := indexKey_columnKey tt.columnNames key hk
      cases hc : columnKey tt.columnNames key with
      | some ks =>
        rw [hc] at hp
        simp only at hp
        rw [hp]
        rfl
      | none =>
        rw [hc] at hp
        obtain ⟨bad, hb, hi⟩ := hp
        rw [hi]
        simp [hb]
  · rfl
  · rfl

/-- C80 for CREATE SCHEMA, DROP SCHEMA and DROP INDEX: one request with the names of the
statement, and the reply is the engine's. -/
theorem C80_one_request_partial (e : AnyEngine σ τ) (tx : τ) (s : σ) :
    (∀ sn, evaluateAny e tx s (.createSchema sn) = e (.tx tx (.createSchema sn)) s) ∧
    (∀ b sn, evaluateAny e tx s (.dropSchema b sn) = e (.tx tx (.dropSchema sn b)) s) ∧
    (∀ tn i b, evaluateAny e tx s (.dropIndex tn i b) = e (.tx tx (.dropIndex tn i)) s) :=
  ⟨fun _ => rfl, fun _ _ => rfl, fun _ _ _ => rfl⟩

/-- C80 for DROP TABLE, for every engine: the tables of the statement are dropped one after the
other, up to the first that is not dropped, if any, whose reply is that of the statement. -/
theorem C80_drop_tables_partial (e : AnyEngine σ τ) (tx : τ) (ie ca : Bool) :
    ∀ (tns : List TableName) (s : σ) (log : List (Asked τ)),
    let p := evaluateAny (logged e) tx (s, log) (.dropTable ie ca tns)
    ∃ (es : List (Asked τ)) (rest : List TableName), p.2.2 = log ++ es ∧
      es.map Asked.request ++ rest.map (fun tn => .tx tx (.dropTable tn)) =
        tns.map (fun tn => .tx tx (.dropTable tn)) ∧
      ((p.1 = some (.ok ()) ∧ rest = [] ∧ ∀ a ∈ es, ∃ tn, a = ⟨.tx tx (.dropTable tn), some (.ok ())⟩) ∨
        (p.1 ≠ some (.ok ()) ∧ ∃ es' tn, es = es' ++ [⟨.tx tx (.dropTable tn), p.1⟩] ∧
          ∀ a ∈ es', ∃ tn, a = ⟨.tx tx (.dropTable tn), some (.ok ())⟩))
  | [], s, log => ⟨[], [], by simp [evaluateAny, anyDropTables], rfl, .inl ⟨rfl, rfl, by simp⟩⟩
  | tn :: tns, s, log => by
    have ih := C80_drop_tables_partial e tx ie ca tns
    simp only [evaluateAny] at ih ⊢
    have hl : logged e (.tx tx (.dropTable tn)) (s, log) =
        ((e (.tx tx (.dropTable tn)) s).1, (e (.tx tx (.dropTable tn)) s).2,
          log ++ [⟨.tx tx (.dropTable tn), (e (.tx tx (.dropTable tn)) s).1⟩]) := rfl
    unfold anyDropTables
    rw [hl]
    generalize e (.tx tx (.dropTable tn)) s = p
    obtain ⟨r, s'⟩ := p
    rcases r with _ | u | x | _
    · exact ⟨[⟨.tx tx (.dropTable tn), none⟩], tns, rfl, rfl, .inr ⟨by simp, [], tn, rfl, by simp⟩⟩
    · simp only
      obtain ⟨es, rest, h1, h2, h3⟩ := ih s' (log ++ [⟨.tx tx (.dropTable tn), some (.ok ())⟩])
      refine ⟨⟨.tx tx (.dropTable tn), some (.ok ())⟩ :: es, rest, ?_, ?_, ?_⟩
      · rw [h1, List.append_assoc]
        rfl
      · simp [h2]
      · rcases h3 with ⟨h, hr, ha⟩ | ⟨h, es', tn', he, ha⟩
        · refine .inl ⟨h, hr, ?_⟩
          intro a hm
          rcases List.mem_cons.1 hm with rfl | hm
          · exact ⟨tn, rfl⟩
          · exact ha a hm
        · refine .inr ⟨h, ⟨.tx tx (.dropTable tn), some (.ok ())⟩ :: es', tn', by rw [he]; rfl, ?_⟩
          intro a hm
          rcases List.mem_cons.1 hm with rfl | hm
          · exact ⟨tn, rfl⟩
          · exact ha a hm
    · exact ⟨[⟨.tx tx (.dropTable tn), some (.err x)⟩], tns, rfl, rfl,
        .inr ⟨by simp, [], tn, rfl, by simp⟩⟩
    · exact ⟨[⟨.tx tx (.dropTable tn), some .panic⟩], tns, rfl, rfl,
        .inr ⟨by simp, [], tn, rfl, by simp⟩⟩

/-- C80 fails for IF EXISTS of tables and indexes: it is not passed on, so with every engine that
refuses to drop what is not there the statement fails. -/
theorem C80_if_exists_ignored (e : AnyEngine σ τ) (tx : τ) (s : σ) (tn : TableName)
    (tns : List TableName) (index : Identifier) (b : Bool) :
    (∀ x, (e (.tx tx (.dropTable tn)) s).1 = some (.err x) →
      (evaluateAny e tx s (.dropTable true b (tn :: tns))).1 = some (.err x)) ∧
    (∀ x, (e (.tx tx (.dropIndex tn index)) s).1 = some (.err x) →
      (evaluateAny e tx s (.dropIndex tn index true)).1 = some (.err x)) := by
  refine ⟨fun x h => ?_, fun x h => h⟩
  simp only [evaluateAny, anyDropTables]
  generalize e (.tx tx (.dropTable tn)) s = p at h ⊢
  obtain ⟨r, s'⟩ := p
  simp only at h
  subst h
  rfl

example : (fakeEngine (.tx () (.dropTable ⟨5, 6, 8⟩)) ⟨[], []⟩).1 = some (.err .other) ∧
    (fakeEngine (.tx () (.dropIndex ⟨5, 6, 8⟩ 9)) ⟨[], []⟩).1 = some (.err .other) := ⟨rfl, rfl⟩

/-- A table with two columns and a primary key in descending order. -/
def sampleTwo : CreateTable :=
  ⟨⟨5, 6, 8⟩, [10, 11], [⟨.int64, 8#32, false, true⟩, ⟨.bool, 1#32, false, true⟩], [none, none],
    false, [⟨.primary, 0, 0, ⟨true, [11, 10], [true, false]⟩, none⟩], []⟩

example : (∀ c ∈ sampleTwo.constraints, KeyOk c.key) ∧
    primaryKey sampleTwo = some [makeColumnKey 1#32 true, makeColumnKey 0#32 false] := by
  unfold KeyOk
  decide

/-! ### C81 -/

/-- C81 for every engine of which a request that fails changes nothing: a statement that fails
changes nothing. Missing: DROP TABLE with more than one table (`C81_drop_tables`). -/
theorem C81_atomic_partial (e : AnyEngine σ τ) (he : AtomicEngine e) (tx : τ) (s : σ) (stmt : Stmt)
    (hd : ∀ ie ca tns, stmt = .dropTable ie ca tns → tns.length ≤ 1) (x : Err)
    (h : (evaluateAny e tx s stmt).1 = some (.err x)) : (evaluateAny e tx s stmt).2 = s := by
  cases stmt <;> simp only [evaluateAny] at h ⊢ <;> first | exact he.fails _ _ x h | skip
  case createTable stmt =>
    have ho := he.opens tx stmt.table s
    unfold anyCreateTable at h ⊢
    generalize e (.tx tx (.openTable stmt.table)) s = p at h ho ⊢
    obtain ⟨r, s'⟩ := p
    simp only at ho
    subst ho
    rcases r with _ | t | y | _
    · rfl
    · simp only
      split <;> rfl
    · simp only at h ⊢
      split
      · rfl
      · rfl
      · rename_i key col hk
        rw [hk] at h
        simp only at h
        split
        · rfl
        · rename_i hc
          rw [if_neg hc] at h
          exact he.fails _ _ x h
    · rfl
  case createIndex index table key b =>
    have ho := he.opens tx table s
    unfold anyCreateIndex at h ⊢
    generalize e (.tx tx (.openTable table)) s = p at h ho ⊢
    obtain ⟨r, s'⟩ := p
    simp only at ho
    subst ho
    rcases r with _ | t | y | _
    · rfl
    · rcases t with _ | tt
      · rfl
      simp only at h ⊢
      split
      · split <;> rfl
      · rename_i hi
        rw [if_neg hi] at h
        split
        · rfl
        · rfl
        · rename_i key col hk
          rw [hk] at h
          simp only at h
          split
          · rfl
          · rename_i hc
            rw [if_neg hc] at h
            exact he.fails _ _ x h
    · rfl
    · rfl
  case dropTable ie ca tns =>
    have hl := hd ie ca tns rfl
    match tns, hl with
    | [], _ => rfl
    | [tn], _ =>
      have hf := he.fails (.tx tx (.dropTable tn)) s
      simp only [anyDropTables] at h ⊢
      generalize e (.tx tx (.dropTable tn)) s = p at h hf ⊢
      obtain ⟨r, s'⟩ := p
      rcases r with _ | u | y | _
      · exact absurd h (by simp)
      · exact absurd h (by simp)
      · exact hf y rfl
      · exact absurd h (by simp)

/-- C81 in a session that is in a transaction: a statement that fails changes neither the engine
nor the session. Missing: DROP TABLE with more than one table; COMMIT and ROLLBACK end the
transaction even if they fail. -/
theorem C81_session_partial (unquoted : Bytes → Identifier) (e : AnyEngine σ τ)
    (he : AtomicEngine e) (ses : AnySession τ) (tx : τ) (ht : ses.tx = some tx) (s : σ)
    (stmt : Stmt) (hd : ∀ ie ca tns, stmt = .dropTable ie ca tns → tns.length ≤ 1)
    (hc : stmt ≠ .commit) (hr : stmt ≠ .rollback) (x : Err)
    (h : (ses.evaluate unquoted e s (some stmt)).1 = some (.err x)) :
    (ses.evaluate unquoted e s (some stmt)).2 = (s, ses) := by
  by_cases hp : Plain stmt
  · rw [any_evaluate_plain _ _ _ _ _ hp, ht] at h ⊢
    simp only at h ⊢
    rw [C81_atomic_partial e he tx s _ ?_ x h]
    intro ie ca tns hs
    cases stmt <;> simp only [Stmt.resolve, Stmt.dropTable.injEq, reduceCtorEq] at hs
    rename_i ie' ca' tns'
    have := hd ie' ca' tns' rfl
    rw [← hs.2.2]
    simpa using this
  · cases stmt <;> first | exact (hp trivial).elim | exact (hc rfl).elim | exact (hr rfl).elim | skip
    case set var value =>
      simp only [AnySession.evaluate, Stmt.resolve, AnySession.set] at h ⊢
      by_cases h1 : var = idDATABASE
      · simp [h1] at h
      · by_cases h2 : var = idSCHEMA
        · simp [h2, idDATABASE, idSCHEMA] at h
        · simp [h1, h2]
    all_goals simp [AnySession.evaluate, Stmt.resolve, ht]

theorem fakeEngine_atomic : AtomicEngine fakeEngine where
  fails := by
    intro r s x h
    cases r with
    | createDatabase dn opts => rfl
    | dropDatabase dn b => rfl
    | begin => rfl
    | tx t r =>
      cases r <;> unfold fakeEngine at h ⊢ <;> simp only at h ⊢ <;> (repeat' split) <;>
        first | rfl | simp_all
  opens := by
    intro t tn s
    unfold fakeEngine
    simp only
    split <;> rfl

/-- C81 fails for DROP TABLE with more than one table: with an engine of which a request that
fails changes nothing, `DROP TABLE a, b` without a table `b` fails in a transaction and has
dropped `a`, also if the transaction is committed. -/
theorem C81_drop_tables : AtomicEngine fakeEngine ∧
    ∃ (s : FakeState) (a b : TableName), (s.find a).isSome = true ∧
      let p := (newAnySession Unit 5 6).run (fun _ => 0) fakeEngine s
        [some .begin, some (.dropTable false false [a, b]), some .commit]
      p.1 = [some (.ok ()), some (.err .other), some (.ok ())] ∧ (p.2.1.find a).isSome = false :=
  ⟨fakeEngine_atomic, ⟨[], [⟨⟨5, 6, 8⟩, [10], [], [], []⟩]⟩, ⟨5, 6, 8⟩, ⟨5, 6, 9⟩, by
    decide +kernel⟩

/-! On the repository's engine DROP TABLE never fails, and what fails can be left out. -/

theorem effect_failed (env : SqlEnv) (c : Catalog) (stmt : Stmt) (h : (effect env c stmt).1 = false) :
    (effect env c stmt).2 = c := by
  cases stmt <;> simp only [effect, Catalog.createSchema, Catalog.dropSchema, Catalog.createDatabase,
    Catalog.dropDatabase, Catalog.createTable] at h ⊢
  all_goals first | rfl | skip
  case createTable s =>
    split
    · rfl
    · rename_i hn
      rw [if_neg hn] at h
      cases hk : primaryKey s with
      | none => rfl
      | some key =>
        simp only [hk] at h ⊢
        split
        · rfl
        · rename_i hm
          rw [if_neg hm] at h
          split
          · rename_i hf
            exact (hn hf).elim
          · rename_i hf
            rw [if_neg hf] at h
            exact absurd h (by simp)
  all_goals (repeat' split) <;> first | rfl | simp_all

theorem client_failed {env : SqlEnv} {s : Server} {c : Clients} (hrep : RepServer env s c) (i : Nat)
    (stmt : Stmt) (x : Err) (h : (Clients.step env c i stmt).1 = some (.err x)) :
    (Clients.step env c i stmt).2 = c := by
  unfold Clients.step at h ⊢
  cases hi : c.clients[i]? with
  | none => rfl
  | some cl =>
    rw [hi] at h
    simp only at h ⊢
    have hact : cl.inTx = true → ∃ a, c.catalog.active = some a := by
      intro ht
      rw [hrep.clients, List.getElem?_map] at hi
      cases hs : s.sessions[i]? with
      | none => simp [hs] at hi
      | some ses =>
        rw [hs] at hi
        simp only [Option.map_some, Option.some.injEq] at hi
        subst hi
        have h1 := tx_lock hrep.txs hs ht
        have h2 := hrep.engine.active
        rw [h1] at h2
        exact Option.isSome_iff_exists.1 h2.symm
    have hout : ∀ b, outcome b = .err x → b = false := by
      intro b hb
      cases b with
      | false => rfl
      | true => simp [outcome] at hb
    have key : (clientStep env c.catalog cl stmt).2 = (c.catalog, cl) := by
      generalize c.catalog = cat at h hact ⊢
      obtain ⟨com, act⟩ := cat
      obtain ⟨tx, d, sc⟩ := cl
      simp only at hact
      have hauto : ∀ st, (outcome (effect env com st).1 = .err x) →
          (if (effect env com st).1 = true then (effect env com st).2 else com) = com := by
        intro st ho
        rw [hout _ ho]
        rfl
      by_cases hp : Plain stmt
      · have hev : clientStep env ⟨com, act⟩ ⟨tx, d, sc⟩ stmt =
            if tx then
              (some (outcome (effect env (act.getD com) (Client.meaning ⟨tx, d, sc⟩ stmt)).1),
                ⟨com, some (effect env (act.getD com) (Client.meaning ⟨tx, d, sc⟩ stmt)).2⟩,
                ⟨tx, d, sc⟩)
            else if act.isSome then (none, ⟨com, act⟩, ⟨tx, d, sc⟩)
            else
              (some (outcome (effect env com (Client.meaning ⟨tx, d, sc⟩ stmt)).1),
                ⟨if (effect env com (Client.meaning ⟨tx, d, sc⟩ stmt)).1 then
                    (effect env com (Client.meaning ⟨tx, d, sc⟩ stmt)).2 else com, none⟩,
                ⟨tx, d, sc⟩) := by
          cases stmt <;> first | exact hp.elim | rfl
        rw [hev] at h ⊢
        cases tx with
        | true =>
          obtain ⟨a, rfl⟩ := hact rfl
          simp only [if_true, Option.getD_some, Option.some.injEq] at h ⊢
          rw [effect_failed env _ _ (hout _ h)]
        | false =>
          cases act with
          | some a => simp at h
          | none =>
            simp only [Bool.false_eq_true, if_false, Option.isSome_none, Option.some.injEq] at h ⊢
            rw [hauto _ h]
      · cases stmt <;> first | exact (hp trivial).elim | skip
        all_goals
          cases tx <;> cases act <;>
            simp only [clientStep, Bool.false_eq_true, if_false, if_true, Option.isSome_none,
              Option.isSome_some, false_or, true_or] at h ⊢
        all_goals (repeat' split at h) <;> simp_all
        exact hauto _ h
    generalize clientStep env c.catalog cl stmt = q at key ⊢
    obtain ⟨r, cat, cl'⟩ := q
    simp only [Prod.mk.injEq] at key
    obtain ⟨rfl, rfl⟩ := key
    simp only [set_same _ _ _ hi]

theorem clients_run_append (env : SqlEnv) : ∀ (l m : List (Nat × Stmt)) (c : Clients),
    Clients.run env c (l ++ m) =
      ((Clients.run env c l).1 ++ (Clients.run env (Clients.run env c l).2 m).1,
        (Clients.run env (Clients.run env c l).2 m).2)
  | [], m, c => by simp [Clients.run]
  | (i, stmt) :: l, m, c => by
    simp only [List.cons_append, Clients.run, clients_run_append env l m]

theorem small_append (env : SqlEnv) : ∀ (l m : List (Nat × Stmt)) (c : Clients),
    SmallHistory env c (l ++ m) ↔
      SmallHistory env c l ∧ SmallHistory env (Clients.run env c l).2 m
  | [], m, c => by simp [SmallHistory, Clients.run]
  | (i, stmt) :: l, m, c => by
    simp only [List.cons_append, SmallHistory, Clients.run, small_append env l m, and_assoc]

theorem clients_run_length (env : SqlEnv) : ∀ (l : List (Nat × Stmt)) (c : Clients),
    (Clients.run env c l).1.length = l.length
  | [], c => rfl
  | (i, stmt) :: l, c => by
    simp only [Clients.run, List.length_cons, clients_run_length env l]

/-- C81 with the repository's engine: in every history of statements of any number of sessions a
statement that fails can be left out, in a transaction or not; all others get the same replies.
Missing: as in C53, statements that the evaluator does not know, long names and large
definitions. -/
theorem C81_left_out_partial (env : SqlEnv) (hf : SystemFits env.toEngineEnv)
    (defaults : List (Identifier × Identifier)) (before : List (Nat × Stmt)) (i : Nat) (stmt : Stmt)
    (after : List (Nat × Stmt))
    (hs : SmallHistory env (Clients.initial env defaults) (before ++ (i, stmt) :: after)) :
    let replies := fun ops : List (Nat × Stmt) =>
      ((Server.initial env defaults).run env (ops.map (fun p => (p.1, some p.2)))).1
    ∀ x, (replies (before ++ (i, stmt) :: after))[before.length]? = some (some (.err x)) →
      replies (before ++ after) = (replies (before ++ (i, stmt) :: after)).eraseIdx before.length := by
  intro replies x h
  have h0 := initial_server env hf defaults
  obtain ⟨hs1, hs2⟩ := (small_append env before _ _).1 hs
  have h1 := (server_run before h0 hs1).2
  obtain ⟨hsup, hsm, hs3⟩ := hs2
  have hl := clients_run_length env before (Clients.initial env defaults)
  have e1 : replies (before ++ (i, stmt) :: after) = _ := (server_run _ h0 hs).1
  rw [clients_run_append] at e1
  simp only [Clients.run] at e1
  rw [e1, List.getElem?_append_right (by omega)] at h
  simp only [hl, Nat.sub_self, List.getElem?_cons_zero, Option.some.injEq] at h
  have hc := client_failed h1 i stmt x h
  rw [hc] at hs3 e1
  have e2 : replies (before ++ after) = _ :=
    (server_run _ h0 ((small_append env before after _).2 ⟨hs1, hs3⟩)).1
  rw [clients_run_append] at e2
  rw [e1, e2, List.eraseIdx_append_of_length_le (by omega), hl]
  simp

/-- A transaction in which a statement fails. -/
def sampleFailing : List (Nat × Stmt) × Stmt × List (Nat × Stmt) :=
  ([(0, .begin), (0, .createSchema ⟨0, sampleId "s"⟩)], .createSchema ⟨0, sampleId "s"⟩,
    [(0, .commit), (1, .dropSchema false ⟨0, sampleId "s"⟩)])

example : SystemFits sampleSql.toEngineEnv ∧
    SmallHistory sampleSql (Clients.initial sampleSql sampleDefaults)
      (sampleFailing.1 ++ (0, sampleFailing.2.1) :: sampleFailing.2.2) :=
  ⟨sampleEngine_fits, by decide +kernel⟩

example : ((Server.initial sampleSql sampleDefaults).run sampleSql
    ((sampleFailing.1 ++ (0, sampleFailing.2.1) :: sampleFailing.2.2).map
      (fun p => (p.1, some p.2)))).1 =
    [some (.ok ()), some (.ok ()), some (.err .other), some (.ok ()), some (.ok ())] := by
  decide +kernel

/-! ### C82 -/

/-- C82: with engines that answer alike, sessions with the same defaults give the same replies to
every history of statements, and stay alike. -/
theorem C82_alike {σ₁ τ₁ σ₂ τ₂ : Type} {R : σ₁ → σ₂ → Prop} {T : τ₁ → τ₂ → Prop}
    {e₁ : AnyEngine σ₁ τ₁} {e₂ : AnyEngine σ₂ τ₂} (unquoted : Bytes → Identifier)
    (h : Alike R T e₁ e₂) : ∀ (stmts : List (Option Stmt)) (s₁ : σ₁) (s₂ : σ₂)
    (a : AnySession τ₁) (b : AnySession τ₂), R s₁ s₂ → SameSession T a b →
    (a.run unquoted e₁ s₁ stmts).1 = (b.run unquoted e₂ s₂ stmts).1 ∧
      R (a.run unquoted e₁ s₁ stmts).2.1 (b.run unquoted e₂ s₂ stmts).2.1 ∧
      SameSession T (a.run unquoted e₁ s₁ stmts).2.2 (b.run unquoted e₂ s₂ stmts).2.2
  | [], s₁, s₂, a, b, hs, hab => ⟨rfl, hs, hab⟩
  | stmt :: stmts, s₁, s₂, a, b, hs, hab => by
    obtain ⟨h1, h2, h3⟩ := session_alike unquoted h hs hab stmt
    unfold AnySession.run
    generalize a.evaluate unquoted e₁ s₁ stmt = p at h1 h2 h3 ⊢
    generalize b.evaluate unquoted e₂ s₂ stmt = q at h1 h2 h3 ⊢
    obtain ⟨r, s₁', a'⟩ := p
    obtain ⟨r', s₂', b'⟩ := q
    simp only at h1 h2 h3
    subst h1
    cases r with
    | none => exact ⟨rfl, h2, h3⟩
    | some r =>
      obtain ⟨h4, h5, h6⟩ := C82_alike unquoted h stmts s₁' s₂' a' b' h2 h3
      exact ⟨by simp only [h4], h5, h6⟩

/-- Every engine answers like itself with a list of what it was asked. -/
theorem C82_logged (e : AnyEngine σ τ) :
    Alike (fun (s : σ) (s' : σ × List (Asked τ)) => s'.1 = s) (fun t t' => t = t') e (logged e) where
  createDatabase := by rintro dn opts s₁ ⟨s₂, l⟩ rfl; exact ⟨rfl, rfl⟩
  dropDatabase := by rintro dn b s₁ ⟨s₂, l⟩ rfl; exact ⟨rfl, rfl⟩
  begin := by
    rintro s₁ ⟨s₂, l⟩ rfl
    refine ⟨?_, rfl⟩
    show SameReply _ (e .begin s₂).1 (e .begin s₂).1
    rcases (e .begin s₂).1 with _ | _ | _ | _ <;> first | trivial | rfl
  tx := by rintro t₁ t₂ r s₁ ⟨s₂, l⟩ rfl rfl; exact ⟨rfl, rfl⟩

end Maho
