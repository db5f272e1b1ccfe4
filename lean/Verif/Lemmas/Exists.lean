import Verif.Props.Session
import Verif.Spec.Exists
/-
Lemmas for Props/Exists.lean: two statements of a session one after the other.
-/
namespace Maho
open Spec

/-- The statements about schemas, tables and indexes. -/
def IsDefinition : Stmt → Prop
  | .createSchema _ | .dropSchema _ _ | .createTable _ | .dropTable _ _ _ | .createIndex _ _ _ _
  | .dropIndex _ _ _ => True
  | _ => False

theorem clientStep_definition (env : SqlEnv) (cl : Client) (stmt : Stmt) (hd : IsDefinition stmt)
    (c : CatalogState) : clientStep env c cl stmt =
      (if cl.inTx then
        (some (outcome (effect env (c.active.getD c.committed) (cl.meaning stmt)).1),
          ⟨c.committed, some (effect env (c.active.getD c.committed) (cl.meaning stmt)).2⟩, cl)
      else if c.active.isSome then (none, c, cl)
      else
        (some (outcome (effect env c.committed (cl.meaning stmt)).1),
          ⟨if (effect env c.committed (cl.meaning stmt)).1 then
            (effect env c.committed (cl.meaning stmt)).2 else c.committed, none⟩, cl)) := by
  cases stmt <;> first | exact hd.elim | rfl

theorem outcome_ok {b : Bool} (h : some (outcome b) = some (.ok ())) : b = true := by
  cases b
  · simp [outcome] at h
  · rfl

/-- Two statements one after the other, in or outside of a transaction. -/
theorem clientStep_twice {env : SqlEnv} {c : CatalogState} {cl : Client} {stmt : Stmt}
    (hd : IsDefinition stmt) (h : (clientStep env c cl stmt).1 = some (.ok ())) :
    (clientStep env c cl stmt).2.2 = cl ∧ ∃ c0, (effect env c0 (cl.meaning stmt)).1 = true ∧
      ∀ stmt2, IsDefinition stmt2 → (clientStep env (clientStep env c cl stmt).2.1 cl stmt2).1 =
        some (outcome (effect env (effect env c0 (cl.meaning stmt)).2 (cl.meaning stmt2)).1) := by
  rw [clientStep_definition env cl stmt hd] at h ⊢
  cases hx : cl.inTx with
  | true =>
    rw [hx] at h
    simp only [if_true] at h ⊢
    refine ⟨trivial, _, outcome_ok h, fun stmt2 hd2 => ?_⟩
    rw [clientStep_definition env cl stmt2 hd2, if_pos hx]
    rfl
  | false =>
    rw [hx] at h
    simp only [Bool.false_eq_true, if_false] at h ⊢
    by_cases ha : c.active.isSome = true
    · rw [if_pos ha] at h; simp at h
    · rw [if_neg ha] at h ⊢
      refine ⟨rfl, _, outcome_ok h, fun stmt2 hd2 => ?_⟩
      rw [clientStep_definition env cl stmt2 hd2, if_neg (by simp [hx])]
      simp [outcome_ok h]

theorem clientStep_create {env : SqlEnv} {c : CatalogState} {cl : Client} {d : Identifier}
    {o : List (Identifier × Bytes)}
    (h : (clientStep env c cl (.createDatabase d o)).1 = some (.ok ())) :
    (clientStep env c cl (.createDatabase d o)).2.2 = cl ∧ ∃ c0,
      (clientStep env c cl (.createDatabase d o)).2.1 = ⟨c0, none⟩ ∧ cl.inTx = false ∧
      env.name d ∈ c0.databases := by
  simp only [clientStep] at h ⊢
  split at h
  · simp at h
  next hx =>
    rw [if_neg hx]
    split at h
    · simp at h
    next ha =>
      rw [if_neg ha]
      have hb := outcome_ok h
      have ho : o.length = 0 := by omega
      simp only [hb, if_true]
      refine ⟨trivial, _, rfl, ?_, ?_⟩
      · cases e : cl.inTx with
        | false => rfl
        | true => exact absurd (.inl e) hx
      · revert hb
        simp only [effect, ho, Nat.lt_irrefl, gt_iff_lt, if_false, Catalog.createDatabase]
        split <;> simp

theorem clientStep_drop {env : SqlEnv} {c : CatalogState} {cl : Client} {d : Identifier} {a : Bool}
    (h : (clientStep env c cl (.dropDatabase a d)).1 = some (.ok ())) :
    (clientStep env c cl (.dropDatabase a d)).2.2 = cl ∧ ∃ c0,
      (clientStep env c cl (.dropDatabase a d)).2.1 = ⟨c0, none⟩ ∧ cl.inTx = false ∧
      env.name d ∉ c0.databases := by
  simp only [clientStep] at h ⊢
  split at h
  · simp at h
  next hx =>
    rw [if_neg hx]
    split at h
    · simp at h
    next ha =>
      rw [if_neg ha]
      have hb := outcome_ok h
      simp only [hb, if_true]
      refine ⟨trivial, _, rfl, by simpa using hx, ?_⟩
      simp only [effect, Catalog.dropDatabase]
      split
      · simp
      next hm => exact hm

theorem smallHistory_append {env : SqlEnv} : ∀ (ops : List (Nat × Stmt)) {c : Clients}
    {more : List (Nat × Stmt)}, SmallHistory env c (ops ++ more) →
    SmallHistory env c ops ∧ SmallHistory env (Clients.run env c ops).2 more
  | [], _, _, h => ⟨trivial, h⟩
  | _ :: ops, _, _, ⟨h1, h2, h3⟩ =>
    let ⟨g1, g2⟩ := smallHistory_append ops h3
    ⟨⟨h1, h2, g1⟩, g2⟩

theorem client_next {env : SqlEnv} {c : CatalogState} {cl : Client} {first second : Stmt} {b : Bool}
    (hn : Next first second b) (h : (clientStep env c cl first).1 = some (.ok ())) :
    (clientStep env c cl first).2.2 = cl ∧
      (clientStep env (clientStep env c cl first).2.1 cl second).1 = some (outcome b) := by
  cases hn with
  | database_again d o =>
    obtain ⟨h1, c0, h2, h3, h4⟩ := clientStep_create h
    refine ⟨h1, ?_⟩
    rw [h2]
    simp [clientStep, effect, h3, h4, Catalog.createDatabase]
  | database_drop d o b =>
    obtain ⟨h1, c0, h2, h3, h4⟩ := clientStep_create h
    refine ⟨h1, ?_⟩
    rw [h2]
    simp [clientStep, effect, h3, h4, Catalog.dropDatabase]
  | database_gone d a b =>
    obtain ⟨h1, c0, h2, h3, h4⟩ := clientStep_drop h
    refine ⟨h1, ?_⟩
    rw [h2]
    simp [clientStep, effect, h3, h4, Catalog.dropDatabase]
  | database_new d a =>
    obtain ⟨h1, c0, h2, h3, h4⟩ := clientStep_drop h
    refine ⟨h1, ?_⟩
    rw [h2]
    simp [clientStep, effect, h3, h4, Catalog.createDatabase]
  | schema_again sn =>
    obtain ⟨h1, c0, h2, h3⟩ := clientStep_twice (by trivial) h
    refine ⟨h1, (h3 _ (by trivial)).trans ?_⟩
    simp only [Client.meaning, Stmt.resolve, effect, Catalog.createSchema] at h2 ⊢
    split at h2 <;> try (simp at h2)
    split at h2 <;> try (simp at h2)
    next hd hs => simp [hd, hs]
  | schema_drop sn b =>
    obtain ⟨h1, c0, h2, h3⟩ := clientStep_twice (by trivial) h
    refine ⟨h1, (h3 _ (by trivial)).trans ?_⟩
    simp only [Client.meaning, Stmt.resolve, effect, Catalog.createSchema,
      Catalog.dropSchema] at h2 ⊢
    split at h2 <;> try (simp at h2)
    split at h2 <;> try (simp at h2)
    next hd hs => simp [hd, hs]
  | schema_gone sn a b =>
    obtain ⟨h1, c0, h2, h3⟩ := clientStep_twice (by trivial) h
    refine ⟨h1, (h3 _ (by trivial)).trans ?_⟩
    simp only [Client.meaning, Stmt.resolve, effect, Catalog.dropSchema] at h2 ⊢
    split <;> simp_all
  | table_again s s' ht =>
    obtain ⟨h1, c0, h2, h3⟩ := clientStep_twice (by trivial) h
    refine ⟨h1, (h3 _ (by trivial)).trans ?_⟩
    simp only [Client.meaning, Stmt.resolve, effect, ht] at h2 ⊢
    generalize cl.table s.table = tn at h2 ⊢
    have hx : ∀ c1 : Catalog, (c1.table env tn).isSome = true →
        some (outcome (if (c1.table env tn).isSome = true then (s'.ifNotExists, c1)
          else
            match primaryKey { s' with table := tn } with
            | none => (false, c1)
            | some key => c1.createTable (env.name tn.database) (env.name tn.schema)
                (env.name tn.table) ⟨1#32, s'.columns, s'.columnTypes, key⟩).1) =
          some (outcome s'.ifNotExists) := by
      intro c1 hc
      rw [if_pos hc]
    by_cases hc : (c0.table env tn).isSome = true
    · rw [if_pos hc]
      exact hx c0 hc
    · rw [if_neg hc] at h2 ⊢
      cases hk : primaryKey { s with table := tn } with
      | none => rw [hk] at h2; simp at h2
      | some key =>
        rw [hk] at h2
        refine hx _ ?_
        simp only [Catalog.createTable] at h2 ⊢
        by_cases g1 : (env.name tn.database, env.name tn.schema) ∉ c0.schemas
        · rw [if_pos g1] at h2; simp at h2
        rw [if_neg g1] at h2 ⊢
        by_cases g2 : (c0.find (env.name tn.database) (env.name tn.schema)
            (env.name tn.table)).isSome = true
        · rw [if_pos g2] at h2; simp at h2
        rw [if_neg g2]
        simp [Catalog.table, Catalog.find, CatalogTable.named]

/-- A statement of a session that need not wait: the session has the transaction, or there is none. -/
def Free (s : Server) (ses : Session) : Prop := s.engine.active.isSome = ses.tx

theorem step_reply {env : SqlEnv} {s : Server} {i : Nat} {ses : Session}
    (hi : s.sessions[i]? = some ses) (hfree : Free s ses) {stmt : Stmt} {r : Res Unit}
    (hd : IsDefinition stmt)
    (he : ∀ t, s.engine.active = some t ∨ s.engine.active = none ∧ s.engine.committed = t →
      (evaluate env t (stmt.resolve ses.resolver)).1 = r) :
    (s.step env i (some stmt)).1 = some r := by
  unfold Server.step
  simp only [hi]
  obtain ⟨⟨c, a⟩, l⟩ := s
  have hd' : ∃ f : Stmt, stmt.resolve ses.resolver = f ∧ IsDefinition f :=
    ⟨_, rfl, by cases stmt <;> first | exact hd.elim | trivial⟩
  obtain ⟨f, hf, hdf⟩ := hd'
  unfold Free at hfree
  rw [hf] at he
  unfold Session.evaluate
  simp only [hf]
  cases a with
  | some t =>
    have ht : ses.tx = true := by simpa using hfree.symm
    have := he t (.inl rfl)
    cases f <;> first | exact hdf.elim | simp [ht, EngineState.inTx, this]
  | none =>
    have ht : ses.tx = false := by simpa using hfree.symm
    have := he c (.inr ⟨rfl, rfl⟩)
    generalize hp : evaluate env c f = p at this
    obtain ⟨p1, p2⟩ := p
    dsimp only at this
    subst this
    cases f <;> first | exact hdf.elim | (cases p1 <;>
      simp [ht, autocommit, EngineState.begin, EngineState.inTx, EngineState.commit,
        EngineState.rollback, hp])

theorem step_unchanged {env : SqlEnv} {s : Server} {i : Nat} {ses : Session}
    (hi : s.sessions[i]? = some ses) (hfree : Free s ses) {stmt : Stmt} {r : Res Unit}
    (hd : IsDefinition stmt) (hr : r ≠ .panic)
    (he : ∀ t, s.engine.active = some t ∨ s.engine.active = none ∧ s.engine.committed = t →
      evaluate env t (stmt.resolve ses.resolver) = (r, t)) :
    s.step env i (some stmt) = (some r, s) := by
  apply step_same env s hi
  obtain ⟨⟨c, a⟩, l⟩ := s
  have hd' : ∃ f : Stmt, stmt.resolve ses.resolver = f ∧ IsDefinition f :=
    ⟨_, rfl, by cases stmt <;> first | exact hd.elim | trivial⟩
  obtain ⟨f, hf, hdf⟩ := hd'
  unfold Free at hfree
  rw [hf] at he
  unfold Session.evaluate
  simp only [hf]
  cases a with
  | some t =>
    have ht : ses.tx = true := by simpa using hfree.symm
    have := he t (.inl rfl)
    cases f <;> first | exact hdf.elim | simp [ht, EngineState.inTx, this]
  | none =>
    have ht : ses.tx = false := by simpa using hfree.symm
    have := he c (.inr ⟨rfl, rfl⟩)
    cases f <;> first | exact hdf.elim | (
      cases r with
      | panic => exact absurd rfl hr
      | ok u => simp [ht, autocommit, EngineState.begin, EngineState.inTx, EngineState.commit, this]
      | err e =>
        simp [ht, autocommit, EngineState.begin, EngineState.inTx, EngineState.rollback, this])

theorem evaluateDropTables_ok (t : Tree) : ∀ tns, evaluateDropTables t tns = (.ok (), t)
  | [] => rfl
  | _ :: tns => evaluateDropTables_ok t tns

end Maho
