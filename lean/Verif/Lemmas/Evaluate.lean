import Verif.Spec.Evaluate
import Verif.Lemmas.Session
/-
Lemmas about sessions with any engine.
-/
namespace Maho
open Spec

variable {σ τ : Type}

/-! ### The protocol -/

theorem Spec.Keeps.append {o o' o'' : Option τ} {l m : List (Asked τ)} (h : Keeps o l o')
    (h' : Keeps o' m o'') : Keeps o (l ++ m) o'' := by
  induction h with
  | nil => exact h'
  | cons hs _ ih => exact .cons hs (ih h')

/-- What was asked from the log `log` on keeps to the protocol. -/
def Conf {ρ : Type} (log : List (Asked τ)) (o : Option τ) (p : ρ × σ × List (Asked τ))
    (o' : Option τ) : Prop := ∃ es, p.2.2 = log ++ es ∧ Keeps o es o'

theorem Conf.same {ρ : Type} {o : Option τ} {r : ρ} {s : σ} {log : List (Asked τ)} :
    Conf log o (r, s, log) o := ⟨[], by simp, .nil o⟩

theorem Conf.then {ρ ρ' : Type} {log : List (Asked τ)} {o o' o'' : Option τ}
    {p : ρ × σ × List (Asked τ)} {q : ρ' × σ × List (Asked τ)} (h : Conf log o p o')
    (h' : Conf p.2.2 o' q o'') : Conf log o q o'' := by
  obtain ⟨es, he, hk⟩ := h
  obtain ⟨es', he', hk'⟩ := h'
  exact ⟨es ++ es', by rw [he', he, List.append_assoc], hk.append hk'⟩

theorem logged_conf (e : AnyEngine σ τ) (r : Request τ) (s : σ) (log : List (Asked τ))
    {o o' : Option τ} (h : Step o ⟨r, (e r s).1⟩ o') : Conf log o (logged e r (s, log)) o' :=
  ⟨[_], rfl, .cons h (.nil _)⟩

theorem logged_use (e : AnyEngine σ τ) (tx : τ) (r : TxRequest) (s : σ × List (Asked τ))
    (h : ¬ EndsTx r) : Conf s.2 (some tx) (logged e (.tx tx r) s) (some tx) :=
  logged_conf e _ s.1 s.2 (.use tx r _ h)

theorem anyCreateIndex_conf (e : AnyEngine σ τ) (tx : τ) (s : σ × List (Asked τ))
    (index : Identifier) (table : TableName) (key : IndexKey) (b : Bool) :
    Conf s.2 (some tx) (anyCreateIndex (logged e) tx s index table key b) (some tx) := by
  have h := logged_use e tx (.openTable table) s (fun h => h)
  unfold anyCreateIndex
  generalize logged e (.tx tx (.openTable table)) s = p at h ⊢
  obtain ⟨r, s'⟩ := p
  have h1 : ∀ r', Conf s.2 (some tx) ((r', s') : Option (Res Unit) × _) (some tx) := fun _ => h
  rcases r with _ | r
  · exact h1 _
  rcases r with tt | x | _
  · rcases tt with _ | tt
    · exact h1 _
    simp only
    split
    · split <;> exact h1 _
    · split
      · exact h1 _
      · exact h1 _
      · split
        · exact h1 _
        · exact h.then (logged_use e tx _ s' (fun h => h))
  · exact h1 _
  · exact h1 _

theorem anyCreateTable_conf (e : AnyEngine σ τ) (tx : τ) (s : σ × List (Asked τ))
    (stmt : CreateTable) :
    Conf s.2 (some tx) (anyCreateTable (logged e) tx s stmt) (some tx) := by
  have h := logged_use e tx (.openTable stmt.table) s (fun h => h)
  unfold anyCreateTable
  generalize logged e (.tx tx (.openTable stmt.table)) s = p at h ⊢
  obtain ⟨r, s'⟩ := p
  have h1 : ∀ r', Conf s.2 (some tx) ((r', s') : Option (Res Unit) × _) (some tx) := fun _ => h
  rcases r with _ | r
  · exact h1 _
  rcases r with tt | x | _
  · simp only
    split <;> exact h1 _
  · simp only
    split
    · exact h1 _
    · exact h1 _
    · split
      · exact h1 _
      · exact h.then (logged_use e tx _ s' (fun h => h))
  · exact h1 _

theorem anyDropTables_conf (e : AnyEngine σ τ) (tx : τ) : ∀ (tns : List TableName)
    (s : σ × List (Asked τ)),
    Conf s.2 (some tx) (anyDropTables (logged e) tx s tns) (some tx)
  | [], s => Conf.same
  | tn :: tns, s => by
    have h := logged_use e tx (.dropTable tn) s (fun h => h)
    unfold anyDropTables
    generalize logged e (.tx tx (.dropTable tn)) s = p at h ⊢
    obtain ⟨r, s'⟩ := p
    rcases r with _ | r
    · exact h
    rcases r with tt | x | _
    · exact h.then (anyDropTables_conf e tx tns s')
    · exact h
    · exact h

/-- Evaluating a statement only uses the transaction it is given. -/
theorem evaluateAny_conf (e : AnyEngine σ τ) (tx : τ) (s : σ × List (Asked τ)) (stmt : Stmt) :
    Conf s.2 (some tx) (evaluateAny (logged e) tx s stmt) (some tx) := by
  cases stmt <;> unfold evaluateAny <;>
    first
    | exact Conf.same
    | exact logged_use e tx _ s (fun h => h)
    | exact anyCreateIndex_conf e tx s _ _ _ _
    | exact anyCreateTable_conf e tx s _
    | exact anyDropTables_conf e tx _ s

theorem logged_end (e : AnyEngine σ τ) (tx : τ) (r : TxRequest) (s : σ × List (Asked τ))
    (h : EndsTx r) : ∃ o, Conf s.2 (some tx) (logged e (.tx tx r) s) o ∧
      (Returned (logged e (.tx tx r) s).1 → o = none) ∧
      (¬ Returned (logged e (.tx tx r) s).1 → o = some tx) := by
  by_cases ha : Returned (e (.tx tx r) s.1).1
  · exact ⟨none, logged_conf e _ s.1 s.2 (.ended tx r _ h ha), fun _ => rfl, fun hn => (hn ha).elim⟩
  · exact ⟨some tx, logged_conf e _ s.1 s.2 (.notEnded tx r _ h ha), fun hn => (ha hn).elim,
      fun _ => rfl⟩

theorem logged_begin (e : AnyEngine σ τ) (s : σ × List (Asked τ)) :
    (∀ t, (logged e .begin s).1 = some (.ok t) →
      Conf s.2 none (logged e .begin s) (some t)) ∧
    ((∀ t, (logged e .begin s).1 ≠ some (.ok t)) → Conf s.2 none (logged e .begin s) none) := by
  constructor
  · intro t h
    have h' : (e .begin s.1).1 = some (.ok t) := h
    refine logged_conf e _ s.1 s.2 ?_
    rw [h']
    exact .begin t
  · intro h
    exact logged_conf e _ s.1 s.2 (.notBegun _ h)

/-- A statement outside a transaction begins one and, if it returns, ends it. -/
theorem anyAutocommit_conf (e : AnyEngine σ τ) (s : σ × List (Asked τ)) (stmt : Stmt) :
    ∃ o, Conf s.2 none (anyAutocommit (logged e) s stmt) o ∧
      (Returned (anyAutocommit (logged e) s stmt).1 → o = none) := by
  have h := logged_begin e s
  unfold anyAutocommit
  generalize logged e .begin s = p at h ⊢
  obtain ⟨r, s'⟩ := p
  rcases r with _ | r
  · exact ⟨none, h.2 (by simp), fun _ => rfl⟩
  rcases r with tx | x | _
  · have h1 := h.1 tx rfl
    have h2 := evaluateAny_conf e tx s' stmt
    simp only
    generalize evaluateAny (logged e) tx s' stmt = q at h2 ⊢
    obtain ⟨r, s''⟩ := q
    have h3 : ∀ r', Conf s.2 none ((r', s'') : Option (Res Unit) × _) (some tx) :=
      fun _ => h1.then h2
    rcases r with _ | r
    · exact ⟨some tx, h3 _, fun h => h.elim⟩
    rcases r with _ | x | _
    · obtain ⟨o, hc, hr, _⟩ := logged_end e tx .commit s'' trivial
      exact ⟨o, (h3 (some .panic)).then hc, hr⟩
    · obtain ⟨o, hc, hr, _⟩ := logged_end e tx .rollback s'' trivial
      simp only
      generalize logged e (.tx tx .rollback) s'' = q at hc hr ⊢
      obtain ⟨r, s3⟩ := q
      have h4 := (h3 (some .panic)).then hc
      rcases r with _ | r
      · exact ⟨o, h4, fun h => h.elim⟩
      rcases r with _ | y | _
      · exact ⟨o, h4, fun _ => hr trivial⟩
      · exact ⟨o, h4, fun _ => hr trivial⟩
      · exact ⟨o, h4, fun h => h.elim⟩
    · exact ⟨some tx, h3 _, fun h => h.elim⟩
  · exact ⟨none, h.2 (by simp), fun _ => rfl⟩
  · exact ⟨none, h.2 (by simp), fun _ => rfl⟩

theorem ended_conf {log : List (Asked τ)} {tx : τ} {q : Option (Res Unit) × σ × List (Asked τ)}
    (h : ∃ o, Conf log (some tx) q o ∧ (Returned q.1 → o = none) ∧ (¬ Returned q.1 → o = some tx))
    {ses : AnySession τ} (hs : ses.tx = some tx) :
    (ses.ended q).2.1 = q.2 ∧ Conf log (some tx) q (ses.ended q).2.2.tx := by
  obtain ⟨o, hc, h1, h2⟩ := h
  obtain ⟨r, s'⟩ := q
  rcases r with _ | r
  · rw [h2 (fun h => h)] at hc
    exact ⟨rfl, hs ▸ hc⟩
  rcases r with _ | x | _
  · rw [h1 trivial] at hc
    exact ⟨rfl, hc⟩
  · rw [h1 trivial] at hc
    exact ⟨rfl, hc⟩
  · rw [h2 (fun h => h)] at hc
    exact ⟨rfl, hs ▸ hc⟩

/-- The statements that the session does not evaluate itself. -/
theorem any_evaluate_plain (unquoted : Bytes → Identifier) (e : AnyEngine σ τ) (s : σ)
    (ses : AnySession τ) (stmt : Stmt) (hp : Plain stmt) :
    ses.evaluate unquoted e s (some stmt) =
      match ses.tx with
      | none =>
        ((anyAutocommit e s (stmt.resolve ses.resolver)).1,
          (anyAutocommit e s (stmt.resolve ses.resolver)).2, ses)
      | some tx =>
        ((evaluateAny e tx s (stmt.resolve ses.resolver)).1,
          (evaluateAny e tx s (stmt.resolve ses.resolver)).2, ses) := by
  cases stmt <;> first | exact hp.elim | rfl

/-- A statement of a session keeps to the protocol, and if it returns, or if the session was in a
transaction, the transaction of the session is the one that is open. -/
theorem session_conf (unquoted : Bytes → Identifier) (e : AnyEngine σ τ) (s : σ)
    (log : List (Asked τ)) (ses : AnySession τ) (stmt : Option Stmt) :
    ∃ es o, (ses.evaluate unquoted (logged e) (s, log) stmt).2.1.2 = log ++ es ∧
      Keeps ses.tx es o ∧
      (Returned (ses.evaluate unquoted (logged e) (s, log) stmt).1 ∨ ses.tx ≠ none →
        o = (ses.evaluate unquoted (logged e) (s, log) stmt).2.2.tx) := by
  have same : ∀ (r : Option (Res Unit)) (ses' : AnySession τ), ses'.tx = ses.tx →
      ses.evaluate unquoted (logged e) (s, log) stmt = (r, (s, log), ses') →
      ∃ es o, (ses.evaluate unquoted (logged e) (s, log) stmt).2.1.2 = log ++ es ∧
      Keeps ses.tx es o ∧
      (Returned (ses.evaluate unquoted (logged e) (s, log) stmt).1 ∨ ses.tx ≠ none →
        o = (ses.evaluate unquoted (logged e) (s, log) stmt).2.2.tx) := by
    intro r ses' ht h
    rw [h]
    exact ⟨[], ses.tx, by simp, .nil _, fun _ => ht.symm⟩
  cases stmt with
  | none => exact same _ ses rfl rfl
  | some stmt =>
    by_cases hp : Plain stmt
    · rw [any_evaluate_plain _ _ _ _ _ hp]
      cases ht : ses.tx with
      | none =>
        obtain ⟨o, ⟨es, he, hk⟩, hr⟩ := anyAutocommit_conf e (s, log) (stmt.resolve ses.resolver)
        refine ⟨es, o, he, hk, ?_⟩
        simp only [ht]
        rintro (h | h)
        · exact hr h
        · exact (h rfl).elim
      | some tx =>
        obtain ⟨es, he, hk⟩ := evaluateAny_conf e tx (s, log) (stmt.resolve ses.resolver)
        exact ⟨es, some tx, he, hk, fun _ => ht.symm⟩
    · cases stmt <;> first | exact (hp trivial).elim | skip
      case begin =>
        cases ht : ses.tx with
        | some tx => rw [← ht]; exact same (some (.err .other)) ses rfl (by
            simp [AnySession.evaluate, Stmt.resolve, ht])
        | none =>
          have h := logged_begin e (s, log)
          simp only [AnySession.evaluate, Stmt.resolve, ht]
          generalize logged e .begin (s, log) = p at h ⊢
          obtain ⟨r, s'⟩ := p
          rcases r with _ | r
          · obtain ⟨es, he, hk⟩ := h.2 (by simp)
            exact ⟨es, none, he, hk, fun _ => ht.symm⟩
          rcases r with tx | x | _
          · obtain ⟨es, he, hk⟩ := h.1 tx rfl
            exact ⟨es, some tx, he, hk, fun _ => rfl⟩
          · obtain ⟨es, he, hk⟩ := h.2 (by simp)
            exact ⟨es, none, he, hk, fun _ => ht.symm⟩
          · obtain ⟨es, he, hk⟩ := h.2 (by simp)
            exact ⟨es, none, he, hk, fun _ => ht.symm⟩
      case commit =>
        cases ht : ses.tx with
        | none =>
          have h := same (some (.err .other)) ses rfl (by
            simp [AnySession.evaluate, Stmt.resolve, ht])
          rw [ht] at h
          exact h
        | some tx =>
          obtain ⟨h, es, he, hk⟩ := ended_conf (logged_end e tx .commit (s, log) trivial) ht
          simp only [AnySession.evaluate, Stmt.resolve, ht]
          exact ⟨es, _, by rw [h]; exact he, hk, fun _ => rfl⟩
      case rollback =>
        cases ht : ses.tx with
        | none =>
          have h := same (some (.err .other)) ses rfl (by
            simp [AnySession.evaluate, Stmt.resolve, ht])
          rw [ht] at h
          exact h
        | some tx =>
          obtain ⟨h, es, he, hk⟩ := ended_conf (logged_end e tx .rollback (s, log) trivial) ht
          simp only [AnySession.evaluate, Stmt.resolve, ht]
          exact ⟨es, _, by rw [h]; exact he, hk, fun _ => rfl⟩
      case set var value =>
        refine same (some (ses.set unquoted var value).1) (ses.set unquoted var value).2 ?_ rfl
        unfold AnySession.set
        split
        · rfl
        · split <;> rfl
      case createDatabase d o =>
        cases ht : ses.tx with
        | some tx => rw [← ht]; exact same (some (.err .other)) ses rfl (by
            simp [AnySession.evaluate, Stmt.resolve, ht])
        | none =>
          obtain ⟨es, he, hk⟩ := logged_conf e (.createDatabase d o) s log (.createDatabase d o _)
          simp only [AnySession.evaluate, Stmt.resolve, ht]
          exact ⟨es, none, he, hk, fun _ => rfl⟩
      case dropDatabase b d =>
        cases ht : ses.tx with
        | some tx => rw [← ht]; exact same (some (.err .other)) ses rfl (by
            simp [AnySession.evaluate, Stmt.resolve, ht])
        | none =>
          obtain ⟨es, he, hk⟩ := logged_conf e (.dropDatabase d b) s log (.dropDatabase d b _)
          simp only [AnySession.evaluate, Stmt.resolve, ht]
          exact ⟨es, none, he, hk, fun _ => rfl⟩

/-! ### The repository's engine -/

theorem inTx_none {α : Type} {s : EngineState} (h : s.active = none) (f : Tree → Res α × Tree) :
    s.inTx f = (.panic, s) := by
  simp [EngineState.inTx, h]

theorem dropTables_repo (env : SqlEnv) (c : Tree) : ∀ (tns : List TableName) (t : Tree),
    anyDropTables (repoEngine env.toEngineEnv) () ⟨c, some t⟩ tns =
      (some (evaluateDropTables t tns).1, ⟨c, some (evaluateDropTables t tns).2⟩)
  | [], t => rfl
  | tn :: tns, t => by
    have := dropTables_repo env c tns t
    simpa [anyDropTables, repoEngine, EngineState.inTx, dropEngineTable, evaluateDropTables] using this

/-- Evaluating with the repository's engine is evaluating in its tree. -/
theorem evaluateAny_repo (env : SqlEnv) (c t : Tree) (stmt : Stmt) :
    evaluateAny (repoEngine env.toEngineEnv) () ⟨c, some t⟩ stmt =
      (some (evaluate env t stmt).1, ⟨c, some (evaluate env t stmt).2⟩) := by
  cases stmt <;> first | rfl | skip
  case createTable stmt =>
    simp only [evaluateAny, evaluate, anyCreateTable, evaluateCreateTable, repoEngine,
      EngineState.inTx]
    cases openEngineTable env.toEngineEnv t stmt.table with
    | ok tbl => simp only; split <;> rfl
    | panic => rfl
    | err x =>
      simp only
      cases primaryColumnKey stmt.columns stmt.constraints with
      | ok p => simp only; split <;> rfl
      | panic => rfl
      | err x => rfl
  case createIndex index table key b =>
    simp only [evaluateAny, evaluate, anyCreateIndex, evaluateCreateIndex, repoEngine,
      EngineState.inTx]
    cases openEngineTable env.toEngineEnv t table with
    | panic => rfl
    | err x => rfl
    | ok tbl =>
      simp only [List.any_nil, Bool.false_eq_true, if_false]
      cases indexKeyToColumnKey tbl.tt.columnNames [] key.columns key.reverse with
      | ok p => simp only; split <;> rfl
      | panic => rfl
      | err x => rfl
  case dropTable a b tables => exact dropTables_repo env c tables t

theorem autocommit_repo (env : SqlEnv) (st : EngineState) (stmt : Stmt) :
    anyAutocommit (repoEngine env.toEngineEnv) st stmt = autocommit env st stmt := by
  obtain ⟨c, a⟩ := st
  cases a with
  | some t => rfl
  | none =>
    simp only [anyAutocommit, autocommit, repoEngine, EngineState.begin, evaluateAny_repo,
      EngineState.inTx]
    cases evaluate env c stmt with
    | mk r t => cases r <;> rfl

/-- Model/Session.lean is the model with any engine, with the repository's engine. -/
theorem session_repo (env : SqlEnv) (st : EngineState) (ses : Session) (stmt : Option Stmt)
    (h : ses.tx = true → st.active ≠ none) :
    ses.any.evaluate env.unquoted (repoEngine env.toEngineEnv) st stmt =
      ((ses.evaluate env st stmt).1, (ses.evaluate env st stmt).2.1,
        (ses.evaluate env st stmt).2.2.any) := by
  have hr : ses.any.resolver = ses.resolver := by
    obtain ⟨tx, d, s⟩ := ses
    cases tx <;> rfl
  cases stmt with
  | none => rfl
  | some stmt =>
    by_cases hp : Plain stmt
    · obtain ⟨tx, d, sc⟩ := ses
      rw [evaluate_plain _ _ _ _ hp]
      rw [any_evaluate_plain _ _ _ _ _ hp, hr]
      cases tx with
      | false => simp [Session.any, autocommit_repo]
      | true =>
        obtain ⟨c, a⟩ := st
        cases a with
        | none => exact (h rfl rfl).elim
        | some t => simp [Session.any, evaluateAny_repo, EngineState.inTx]
    · cases stmt <;> first | exact (hp trivial).elim | skip
      all_goals obtain ⟨tx, d, sc⟩ := ses
      all_goals cases tx
      all_goals obtain ⟨c, a⟩ := st
      all_goals cases a
      all_goals simp only [AnySession.evaluate, Session.evaluate, Stmt.resolve, Session.any]
      all_goals first | rfl | skip
      all_goals
        unfold AnySession.set Session.set
        split
        · rfl
        · split <;> rfl

/-! ### Engines that answer alike -/

section
variable {σ₁ τ₁ σ₂ τ₂ : Type} {R : σ₁ → σ₂ → Prop} {T : τ₁ → τ₂ → Prop}
  {e₁ : AnyEngine σ₁ τ₁} {e₂ : AnyEngine σ₂ τ₂}

/-- The same reply and states that correspond. -/
def SameOut {α : Type} (R : σ₁ → σ₂ → Prop) (p : α × σ₁) (q : α × σ₂) : Prop :=
  p.1 = q.1 ∧ R p.2 q.2

theorem anyCreateIndex_alike (h : Alike R T e₁ e₂) {t₁ : τ₁} {t₂ : τ₂} (ht : T t₁ t₂) {s₁ : σ₁}
    {s₂ : σ₂} (hs : R s₁ s₂) (index : Identifier) (table : TableName) (key : IndexKey) (b : Bool) :
    SameOut R (anyCreateIndex e₁ t₁ s₁ index table key b) (anyCreateIndex e₂ t₂ s₂ index table key b) := by
  have h1 := h.tx t₁ t₂ (.openTable table) s₁ s₂ ht hs
  unfold anyCreateIndex
  generalize e₁ (.tx t₁ (.openTable table)) s₁ = p at h1 ⊢
  generalize e₂ (.tx t₂ (.openTable table)) s₂ = q at h1 ⊢
  obtain ⟨r, s₁'⟩ := p
  obtain ⟨r', s₂'⟩ := q
  obtain ⟨rfl, hs'⟩ := h1
  have h1 : ∀ x : Option (Res Unit), SameOut R (x, s₁') (x, s₂') := fun _ => ⟨rfl, hs'⟩
  rcases r with _ | r
  · exact h1 _
  rcases r with tt | x | _
  · rcases tt with _ | tt
    · exact h1 _
    simp only
    split
    · split <;> exact h1 _
    · split
      · exact h1 _
      · exact h1 _
      · split
        · exact h1 _
        · exact h.tx _ _ (.createIndex _ _ _) _ _ ht hs'
  · exact h1 _
  · exact h1 _

theorem anyCreateTable_alike (h : Alike R T e₁ e₂) {t₁ : τ₁} {t₂ : τ₂} (ht : T t₁ t₂) {s₁ : σ₁}
    {s₂ : σ₂} (hs : R s₁ s₂) (stmt : CreateTable) :
    SameOut R (anyCreateTable e₁ t₁ s₁ stmt) (anyCreateTable e₂ t₂ s₂ stmt) := by
  have h1 := h.tx t₁ t₂ (.openTable stmt.table) s₁ s₂ ht hs
  unfold anyCreateTable
  generalize e₁ (.tx t₁ (.openTable stmt.table)) s₁ = p at h1 ⊢
  generalize e₂ (.tx t₂ (.openTable stmt.table)) s₂ = q at h1 ⊢
  obtain ⟨r, s₁'⟩ := p
  obtain ⟨r', s₂'⟩ := q
  obtain ⟨rfl, hs'⟩ := h1
  have h1 : ∀ x : Option (Res Unit), SameOut R (x, s₁') (x, s₂') := fun _ => ⟨rfl, hs'⟩
  rcases r with _ | r
  · exact h1 _
  rcases r with tt | x | _
  · simp only
    split <;> exact h1 _
  · simp only
    split
    · exact h1 _
    · exact h1 _
    · split
      · exact h1 _
      · exact h.tx _ _ (.createTable _ _ _ _) _ _ ht hs'
  · exact h1 _

theorem anyDropTables_alike (h : Alike R T e₁ e₂) {t₁ : τ₁} {t₂ : τ₂} (ht : T t₁ t₂) :
    ∀ (tns : List TableName) {s₁ : σ₁} {s₂ : σ₂}, R s₁ s₂ →
      SameOut R (anyDropTables e₁ t₁ s₁ tns) (anyDropTables e₂ t₂ s₂ tns)
  | [], _, _, hs => ⟨rfl, hs⟩
  | tn :: tns, s₁, s₂, hs => by
    have h1 := h.tx t₁ t₂ (.dropTable tn) s₁ s₂ ht hs
    unfold anyDropTables
    generalize e₁ (.tx t₁ (.dropTable tn)) s₁ = p at h1 ⊢
    generalize e₂ (.tx t₂ (.dropTable tn)) s₂ = q at h1 ⊢
    obtain ⟨r, s₁'⟩ := p
    obtain ⟨r', s₂'⟩ := q
    obtain ⟨rfl, hs'⟩ := h1
    rcases r with _ | r
    · exact ⟨rfl, hs'⟩
    rcases r with tt | x | _
    · exact anyDropTables_alike h ht tns hs'
    · exact ⟨rfl, hs'⟩
    · exact ⟨rfl, hs'⟩

theorem evaluateAny_alike (h : Alike R T e₁ e₂) {t₁ : τ₁} {t₂ : τ₂} (ht : T t₁ t₂) {s₁ : σ₁}
    {s₂ : σ₂} (hs : R s₁ s₂) (stmt : Stmt) :
    SameOut R (evaluateAny e₁ t₁ s₁ stmt) (evaluateAny e₂ t₂ s₂ stmt) := by
  cases stmt <;> unfold evaluateAny <;>
    first
    | exact ⟨rfl, hs⟩
    | exact anyCreateIndex_alike h ht hs _ _ _ _
    | exact anyCreateTable_alike h ht hs _
    | exact anyDropTables_alike h ht _ hs
    | exact h.tx t₁ t₂ _ s₁ s₂ ht hs

theorem anyAutocommit_alike (h : Alike R T e₁ e₂) {s₁ : σ₁} {s₂ : σ₂} (hs : R s₁ s₂)
    (stmt : Stmt) : SameOut R (anyAutocommit e₁ s₁ stmt) (anyAutocommit e₂ s₂ stmt) := by
  have h1 := h.begin s₁ s₂ hs
  unfold anyAutocommit
  generalize e₁ .begin s₁ = p at h1 ⊢
  generalize e₂ .begin s₂ = q at h1 ⊢
  obtain ⟨r, s₁'⟩ := p
  obtain ⟨r', s₂'⟩ := q
  obtain ⟨hr, hs'⟩ := h1
  rcases r with _ | t₁ | x | _ <;> rcases r' with _ | t₂ | y | _ <;>
    first | exact hr.elim | exact ⟨rfl, hs'⟩ | skip
  have h2 := evaluateAny_alike h hr hs' stmt
  simp only
  generalize evaluateAny e₁ t₁ s₁' stmt = p at h2 ⊢
  generalize evaluateAny e₂ t₂ s₂' stmt = q at h2 ⊢
  obtain ⟨r, s₁⟩ := p
  obtain ⟨r', s₂⟩ := q
  obtain ⟨rfl, hs2⟩ := h2
  rcases r with _ | _ | x | _
  · exact ⟨rfl, hs2⟩
  · exact h.tx t₁ t₂ .commit _ _ hr hs2
  · have h3 := h.tx t₁ t₂ .rollback _ _ hr hs2
    simp only
    generalize e₁ (.tx t₁ .rollback) s₁ = p at h3 ⊢
    generalize e₂ (.tx t₂ .rollback) s₂ = q at h3 ⊢
    obtain ⟨r, s₁⟩ := p
    obtain ⟨r', s₂⟩ := q
    obtain ⟨rfl, hs3⟩ := h3
    rcases r with _ | _ | y | _ <;> exact ⟨rfl, hs3⟩
  · exact ⟨rfl, hs2⟩

theorem ended_alike {p : Option (Res Unit) × σ₁} {q : Option (Res Unit) × σ₂}
    (h : SameOut R p q) {a : AnySession τ₁} {b : AnySession τ₂} (hab : SameSession T a b) :
    (a.ended p).1 = (b.ended q).1 ∧ R (a.ended p).2.1 (b.ended q).2.1 ∧
      SameSession T (a.ended p).2.2 (b.ended q).2.2 := by
  obtain ⟨r, s₁⟩ := p
  obtain ⟨r', s₂⟩ := q
  obtain ⟨rfl, hs⟩ := h
  rcases r with _ | _ | x | _
  · exact ⟨rfl, hs, hab⟩
  · exact ⟨rfl, hs, hab.1, hab.2.1, trivial⟩
  · exact ⟨rfl, hs, hab.1, hab.2.1, trivial⟩
  · exact ⟨rfl, hs, hab⟩

/-- A session cannot tell engines apart that answer alike. -/
theorem session_alike (unquoted : Bytes → Identifier) (h : Alike R T e₁ e₂) {s₁ : σ₁} {s₂ : σ₂}
    (hs : R s₁ s₂) {a : AnySession τ₁} {b : AnySession τ₂} (hab : SameSession T a b)
    (stmt : Option Stmt) :
    (a.evaluate unquoted e₁ s₁ stmt).1 = (b.evaluate unquoted e₂ s₂ stmt).1 ∧
      R (a.evaluate unquoted e₁ s₁ stmt).2.1 (b.evaluate unquoted e₂ s₂ stmt).2.1 ∧
      SameSession T (a.evaluate unquoted e₁ s₁ stmt).2.2 (b.evaluate unquoted e₂ s₂ stmt).2.2 := by
  cases stmt with
  | none => exact ⟨rfl, hs, hab⟩
  | some stmt =>
    obtain ⟨ta, da, sa⟩ := a
    obtain ⟨tb, db, sb⟩ := b
    have hab' := hab
    obtain ⟨hd, hsc, ht⟩ := hab'
    simp only at hd hsc ht
    subst hd hsc
    by_cases hp : Plain stmt
    · rw [any_evaluate_plain _ _ _ _ _ hp, any_evaluate_plain _ _ _ _ _ hp]
      cases ta <;> cases tb <;> first | exact ht.elim | skip
      · have h1 := anyAutocommit_alike h hs
          (stmt.resolve (AnySession.mk (none : Option τ₁) da sa).resolver)
        exact ⟨h1.1, h1.2, hab⟩
      · rename_i t₁ t₂
        have h1 := evaluateAny_alike h ht hs (stmt.resolve (AnySession.mk (some t₁) da sa).resolver)
        exact ⟨h1.1, h1.2, hab⟩
    · cases stmt <;> first | exact (hp trivial).elim | skip
      all_goals cases ta <;> cases tb <;> first | exact ht.elim | skip
      all_goals first | exact ⟨rfl, hs, hab⟩ | skip
      · have h1 := h.begin s₁ s₂ hs
        simp only [AnySession.evaluate, Stmt.resolve]
        generalize e₁ .begin s₁ = p at h1 ⊢
        generalize e₂ .begin s₂ = q at h1 ⊢
        obtain ⟨r, s₁'⟩ := p
        obtain ⟨r', s₂'⟩ := q
        obtain ⟨hr, hs'⟩ := h1
        rcases r with _ | t₁ | x | _ <;> rcases r' with _ | t₂ | y | _ <;>
          first | exact hr.elim | exact ⟨rfl, hs', hab⟩ | exact ⟨rfl, hs', rfl, rfl, hr⟩
      · exact ended_alike (h.tx _ _ .commit s₁ s₂ ht hs) hab
      · exact ended_alike (h.tx _ _ .rollback s₁ s₂ ht hs) hab
      · simp only [AnySession.evaluate, Stmt.resolve, AnySession.set]
        split
        · exact ⟨rfl, hs, rfl, rfl, ht⟩
        · split
          · exact ⟨rfl, hs, rfl, rfl, ht⟩
          · exact ⟨rfl, hs, hab⟩
      · simp only [AnySession.evaluate, Stmt.resolve, AnySession.set]
        split
        · exact ⟨rfl, hs, rfl, rfl, ht⟩
        · split
          · exact ⟨rfl, hs, rfl, rfl, ht⟩
          · exact ⟨rfl, hs, hab⟩
      · rename_i d o
        have h1 := h.createDatabase d o s₁ s₂ hs
        exact ⟨h1.1, h1.2, hab⟩
      · rename_i b d
        have h1 := h.dropDatabase d b s₁ s₂ hs
        exact ⟨h1.1, h1.2, hab⟩

end

end Maho
