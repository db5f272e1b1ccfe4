import Verif.Props.Session
import Verif.Lemmas.Exists
/-
Property C69: statements that create and drop check what exists.
-/
namespace Maho
open Spec

/-- C69: after every history of statements that the evaluator knows, and for every pair of
statements of `Next`: what was just created cannot be created again, a database or schema that was
just created can be dropped, one that was just dropped cannot be dropped again, a dropped database
can be created again, and `IF EXISTS` and `IF NOT EXISTS` turn the refusal into success. Missing:
dropping tables and everything about indexes (`C69_table_not_dropped`, `C69_index_gone`,
`C69_index_again`), and names and definitions that do not fit the catalog, which panic
(`C46_long_name_panics`). -/
theorem C69_exists_partial (env : SqlEnv) (hf : SystemFits env.toEngineEnv)
    (defaults : List (Identifier × Identifier)) (ops : List (Nat × Stmt)) (i : Nat)
    (first second : Stmt) (b : Bool) (hn : Next first second b)
    (hs : SmallHistory env (Clients.initial env defaults) (ops ++ [(i, first), (i, second)]))
    (s : Server) (hsv : s = serverAfter env defaults (ops.map (fun p => (p.1, some p.2))))
    (h : (s.step env i (some first)).1 = some (.ok ())) :
    ((s.step env i (some first)).2.step env i (some second)).1 = some (outcome b) := by
  obtain ⟨hs1, hs2⟩ := smallHistory_append ops hs
  have hr := (server_run ops (initial_server env hf defaults) hs1).2
  change RepServer env (serverAfter env defaults _) _ at hr
  rw [← hsv] at hr
  generalize (Clients.run env (Clients.initial env defaults) ops).2 = c at hr hs2
  obtain ⟨h1, h2, h3, h4, -⟩ := hs2
  obtain ⟨e1, r1⟩ := server_step hr i first h1 h2
  obtain ⟨e2, -⟩ := server_step r1 i second h3 h4
  rw [e2]
  rw [e1] at h
  unfold Clients.step at h ⊢
  cases hc : c.clients[i]? with
  | none => rw [hc] at h; simp at h
  | some cl =>
    rw [hc] at h
    obtain ⟨g1, g2⟩ := client_next hn h
    have hlt : i < c.clients.length := by
      rcases Nat.lt_or_ge i c.clients.length with h | h
      · exact h
      · rw [List.getElem?_eq_none h] at hc; cases hc
    simp only [List.getElem?_set_self hlt, g1, g2]

/-- C69 fails for dropping tables: in every state in which the session need not wait, DROP TABLE of
any tables, existing or not, with or without `IF EXISTS`, succeeds and changes nothing at all. -/
theorem C69_table_not_dropped (env : SqlEnv) (s : Server) (i : Nat) (ses : Session)
    (hi : s.sessions[i]? = some ses) (hfree : Free s ses) (ifExists cascade : Bool)
    (tables : List TableName) :
    s.step env i (some (.dropTable ifExists cascade tables)) = (some (.ok ()), s) :=
  step_unchanged hi hfree trivial (by simp) (fun t _ => evaluateDropTables_ok t _)

/-- C69 fails for dropping indexes: DROP INDEX of any name on any table, existing or not, succeeds
and changes nothing. -/
theorem C69_index_gone (env : SqlEnv) (s : Server) (i : Nat) (ses : Session)
    (hi : s.sessions[i]? = some ses) (hfree : Free s ses) (table : TableName) (index : Identifier)
    (ifExists : Bool) :
    s.step env i (some (.dropIndex table index ifExists)) = (some (.ok ()), s) :=
  step_unchanged hi hfree trivial (by simp) (fun _ _ => rfl)

/-- C69 fails for creating indexes: a CREATE INDEX that succeeds changes nothing, so the same
statement succeeds again, also without `IF NOT EXISTS`. -/
theorem C69_index_again (env : SqlEnv) (s : Server) (i : Nat) (ses : Session)
    (hi : s.sessions[i]? = some ses) (hfree : Free s ses) (index : Identifier) (table : TableName)
    (key : IndexKey) (a b : Bool)
    (h : (s.step env i (some (.createIndex index table key a))).1 = some (.ok ())) :
    s.step env i (some (.createIndex index table key a)) = (some (.ok ()), s) ∧
    s.step env i (some (.createIndex index table key b)) = (some (.ok ()), s) := by
  have key : ∀ b, s.step env i (some (.createIndex index table key b)) = (some (.ok ()), s) := by
    intro b
    have he : ∀ t, (evaluateCreateIndex env t index (ses.resolveTable table) key).2 = t := by
      intro t
      unfold evaluateCreateIndex
      (repeat' split) <;> rfl
    refine step_unchanged hi hfree trivial (by simp) (fun t ht => ?_)
    have h2 := he t
    change evaluateCreateIndex env t index (ses.resolveTable table) key = _
    refine Prod.ext ?_ h2
    have := step_reply (env := env) (stmt := .createIndex index table key a) hi hfree trivial
      (r := (evaluateCreateIndex env t index (ses.resolveTable table) key).1) (fun t' ht' => by
        have : t' = t := by
          rcases ht with ht | ⟨ht, rfl⟩ <;> rcases ht' with ht' | ⟨ht', rfl⟩ <;> simp_all
        rw [this]
        rfl)
    rw [h] at this
    exact (Option.some.inj this).symm
  exact ⟨key a, key b⟩

example : SmallHistory sampleSql (Clients.initial sampleSql sampleDefaults)
    ([(0, .begin)] ++ [(0, .createSchema ⟨0, sampleId "s"⟩), (0, .dropSchema false ⟨0, sampleId "s"⟩)]) ∧
    ((serverAfter sampleSql sampleDefaults [(0, some .begin)]).step sampleSql 0
      (some (.createSchema ⟨0, sampleId "s"⟩))).1 = some (.ok ()) := by
  decide +kernel

/-- A session of its own that can run: the hypotheses of the failures. -/
example : (serverAfter sampleSql sampleDefaults []).sessions[1]? = some (newSession 28 33) ∧
    Free (serverAfter sampleSql sampleDefaults []) (newSession 28 33) ∧
    ((serverAfter sampleSql sampleDefaults
      [(0, some (.createTable (sampleStmt ⟨0, 0, sampleId "t"⟩ (sampleId "c") (sampleId "c"))))]).step
        sampleSql 1 (some (.createIndex (sampleId "i") ⟨0, 0, sampleId "t"⟩
          ⟨false, [sampleId "c"], [false]⟩ false))).1 = some (.ok ()) := by
  unfold Free
  decide +kernel

end Maho
