import Verif.Props.Engine
import Verif.Spec.Exists
/-
Lemmas for Props/Listing.lean: the replies of a history say what the catalog has.
-/
namespace Maho
open Spec

/-- Whether the catalog has it. -/
def Spec.Catalog.has (c : Catalog) : Named → Bool
  | .database d => decide (d ∈ c.databases)
  | .schema d s => decide ((d, s) ∈ c.schemas)
  | .table d s t => (c.find d s t).isSome

/-- The marks agree with the catalog. -/
def Agrees (c : CatalogState) (x : Named) (m : Mark) : Prop :=
  m.committed = c.committed.has x ∧ m.current = (c.active.getD c.committed).has x

theorem has_createDatabase (c : Catalog) (d : Bytes) (x : Named) (h : (c.createDatabase d).1 = true) :
    (c.createDatabase d).2.has x = if x = .database d then true else c.has x := by
  unfold Catalog.createDatabase at h ⊢
  split
  · next hm => rw [if_pos hm] at h; cases h
  · cases x <;> simp [Catalog.has, Catalog.find]

theorem has_dropDatabase (c : Catalog) (d : Bytes) (b : Bool) (x : Named) :
    (c.dropDatabase d b).2.has x = if x = .database d then false else c.has x := by
  unfold Catalog.dropDatabase
  split
  · cases x <;> simp [Catalog.has, Catalog.find, Bool.and_comm]
  · split
    · next e => subst e; simpa [Catalog.has]
    · rfl

theorem has_createSchema (c : Catalog) (d s : Bytes) (x : Named) (h : (c.createSchema d s).1 = true) :
    (c.createSchema d s).2.has x = if x = .schema d s then true else c.has x := by
  unfold Catalog.createSchema at h ⊢
  split
  · next hm => rw [if_pos hm] at h; cases h
  next hm =>
  rw [if_neg hm] at h
  split
  · next hm => rw [if_pos hm] at h; cases h
  · cases x <;> simp [Catalog.has, Catalog.find]

theorem has_dropSchema (c : Catalog) (d s : Bytes) (b : Bool) (x : Named) :
    (c.dropSchema d s b).2.has x = if x = .schema d s then false else c.has x := by
  unfold Catalog.dropSchema
  split
  · cases x <;> simp [Catalog.has, Catalog.find, Bool.and_comm]
  · split
    · next e => subst e; simpa [Catalog.has]
    · rfl

theorem has_createTable (c : Catalog) (d s t : Bytes) (df : Definition) (x : Named) :
    (c.createTable d s t df).2.has x =
      if x = .table d s t ∧ (c.createTable d s t df).1 = true then true else c.has x := by
  unfold Catalog.createTable
  split
  · simp
  split
  · cases x <;> simp [Catalog.has, Catalog.find]
  · cases x with
    | database d => simp [Catalog.has]
    | schema d s => simp [Catalog.has]
    | table d' s' t' =>
      simp only [Catalog.has, Catalog.find, List.find?_cons, CatalogTable.named]
      by_cases e : d' = d ∧ s' = s ∧ t' = t
      · obtain ⟨rfl, rfl, rfl⟩ := e; simp
      · have : (d == d' && s == s' && t == t') = false := by
          rw [Bool.eq_false_iff]
          intro h
          simp only [Bool.and_eq_true, beq_iff_eq] at h
          exact e ⟨h.1.1.symm, h.1.2.symm, h.2.symm⟩
        rw [this]
        simp only [Named.table.injEq, and_true]
        rw [if_neg e]

theorem after_other {env : EngineEnv} {x : Named} {m : Mark} {op : EngineOp} {r : EngineReply}
    (h : r ≠ .done (.ok ())) : m.after env x op r = m := if_pos h

theorem agrees_auto {env : EngineEnv} {c : CatalogState} {x : Named} {m : Mark} {op : EngineOp}
    {f : Catalog → Bool × Catalog} (h : Agrees c x m)
    (hk : (f c.committed).1 = true → m = ⟨c.committed.has x, c.committed.has x⟩ →
      m.after env x op (.done (.ok ())) =
        ⟨(f c.committed).2.has x, (f c.committed).2.has x⟩) :
    Agrees (c.auto f).2 x (m.after env x op (c.auto f).1) := by
  obtain ⟨cc, ca⟩ := c
  cases ca with
  | some t => simp only [CatalogState.auto]; rw [after_other (by simp)]; exact h
  | none =>
    simp only [CatalogState.auto]
    cases hv : (f cc).1 with
    | false =>
      simp only [Bool.false_eq_true, if_false]
      rw [after_other (by simp [outcome])]
      exact h
    | true =>
      have := hk hv (by
        obtain ⟨h1, h2⟩ := h
        cases m
        simp only [Option.getD_none] at h1 h2
        rw [h1, h2])
      simp only [outcome, if_true]
      rw [this]
      exact ⟨rfl, rfl⟩

theorem agrees_write {env : EngineEnv} {c : CatalogState} {x : Named} {m : Mark} {op : EngineOp}
    {f : Catalog → Bool × Catalog} (h : Agrees c x m)
    (hk : ∀ t, (f t).1 = true → m = ⟨m.committed, t.has x⟩ →
      m.after env x op (.done (.ok ())) = ⟨m.committed, (f t).2.has x⟩)
    (hb : ∀ t, (f t).1 = false → (f t).2.has x = t.has x) :
    Agrees (c.write f).2 x (m.after env x op (c.write f).1) := by
  obtain ⟨cc, ca⟩ := c
  cases ca with
  | none => simp only [CatalogState.write]; rw [after_other (by simp)]; exact h
  | some t =>
    simp only [CatalogState.write]
    cases hv : (f t).1 with
    | false =>
      rw [after_other (by simp [outcome])]
      exact ⟨h.1, by rw [h.2]; exact (hb t hv).symm⟩
    | true =>
      have := hk t hv (by
        obtain ⟨h1, h2⟩ := h
        cases m
        simp only [Option.getD_some] at h1 h2
        rw [h2])
      simp only [outcome, if_true]
      rw [this]
      exact ⟨h.1, rfl⟩

/-- Operations that the marks treat as the catalog does. -/
def NotDropTable : EngineOp → Prop
  | .dropTable _ => False
  | _ => True

theorem fails_createSchema (c : Catalog) (d s : Bytes) (h : (c.createSchema d s).1 = false) :
    (c.createSchema d s).2 = c := by
  unfold Catalog.createSchema at h ⊢
  split
  · rfl
  next h1 =>
  rw [if_neg h1] at h
  split
  · rfl
  next h2 => rw [if_neg h2] at h; cases h

theorem fails_dropSchema (c : Catalog) (d s : Bytes) (b : Bool) (h : (c.dropSchema d s b).1 = false) :
    (c.dropSchema d s b).2 = c := by
  unfold Catalog.dropSchema at h ⊢
  split
  next h1 => rw [if_pos h1] at h; cases h
  · rfl

theorem agrees_step (env : EngineEnv) {c : CatalogState} {x : Named} {m : Mark} (op : EngineOp)
    (hn : NotDropTable op ∨ ∀ d s t, x ≠ .table d s t) (h : Agrees c x m) :
    Agrees (catalogStep env c op).2 x (m.after env x op (catalogStep env c op).1) := by
  cases op with
  | createDatabase dn o =>
    simp only [catalogStep]
    split
    · rw [after_other (by simp)]; exact h
    · refine agrees_auto h fun hb hm => ?_
      rw [has_createDatabase _ _ _ hb]
      simp only [Mark.after, ne_eq, not_true_eq_false, if_false]
      split
      · rfl
      · exact hm
  | dropDatabase dn b =>
    refine agrees_auto h fun hb hm => ?_
    rw [has_dropDatabase]
    simp only [Mark.after, ne_eq, not_true_eq_false, if_false]
    split
    · rfl
    · exact hm
  | listDatabases =>
    simp only [catalogStep]
    split <;> (rw [after_other (by simp)]; exact h)
  | begin =>
    simp only [catalogStep]
    split
    · rw [after_other (by simp)]; exact h
    · next ha =>
      simp only [Mark.after, ne_eq, not_true_eq_false, if_false]
      refine ⟨h.1, ?_⟩
      have := h.2
      rw [ha] at this
      exact this
  | commit =>
    simp only [catalogStep]
    split
    · next t ha =>
      simp only [Mark.after, ne_eq, not_true_eq_false, if_false]
      have := h.2
      rw [ha] at this
      exact ⟨this, this⟩
    · rw [after_other (by simp)]; exact h
  | rollback =>
    simp only [catalogStep]
    split
    · simp only [Mark.after, ne_eq, not_true_eq_false, if_false]
      exact ⟨h.1, h.1⟩
    · rw [after_other (by simp)]; exact h
  | createSchema sn =>
    refine agrees_write
      (f := fun c => c.createSchema (env.name sn.database) (env.name sn.schema)) h (fun t hb hm => ?_) (fun t hb => by
      rw [fails_createSchema _ _ _ hb])
    rw [has_createSchema _ _ _ _ hb]
    simp only [Mark.after, ne_eq, not_true_eq_false, if_false]
    split
    · rfl
    · exact hm
  | dropSchema sn b =>
    refine agrees_write
      (f := fun c => c.dropSchema (env.name sn.database) (env.name sn.schema) b) h (fun t hb hm => ?_) (fun t hb => by
      rw [fails_dropSchema _ _ _ _ hb])
    rw [has_dropSchema]
    simp only [Mark.after, ne_eq, not_true_eq_false, if_false]
    split
    · rfl
    · exact hm
  | listSchemas dn =>
    simp only [catalogStep, CatalogState.read]
    split <;> (rw [after_other (by simp)]; exact h)
  | openTable tn =>
    simp only [catalogStep, CatalogState.read]
    split <;> (rw [after_other (by simp)]; exact h)
  | createTable tn cn ct pk =>
    refine agrees_write (f := fun c => c.createTable (env.name tn.database) (env.name tn.schema)
      (env.name tn.table) ⟨1#32, cn, ct, pk⟩) h (fun t hb hm => ?_) (fun t hb => ?_)
    · rw [has_createTable]
      simp only [hb, and_true, Mark.after, ne_eq, not_true_eq_false, if_false]
      split
      · rfl
      · exact hm
    · rw [has_createTable]
      simp [hb]
  | dropTable tn =>
    rcases hn with hn | hn
    · exact hn.elim
    simp only [catalogStep, Mark.after, ne_eq, not_true_eq_false, if_false]
    rw [if_neg (hn _ _ _)]
    exact h
  | listTables sn => rw [after_other (by simp [catalogStep])]; exact h
  | createIndex tn i k => exact h
  | dropIndex tn i => exact h

theorem agrees_run (env : EngineEnv) (x : Named) : ∀ (ops : List EngineOp) (c : CatalogState) (m : Mark),
    ((∀ op ∈ ops, NotDropTable op) ∨ ∀ d s t, x ≠ .table d s t) → Agrees c x m →
    Agrees (catalogRun env c ops).2 x (Mark.run env x m (ops.zip (catalogRun env c ops).1))
  | [], _, _, _, h => h
  | op :: ops, c, m, hn, h => by
    have h1 := agrees_step env op (hn.imp (fun hn => hn op (by simp)) id) h
    have h2 := agrees_run env x ops _ _ (hn.imp (fun hn op ho => hn op (by simp [ho])) id) h1
    simpa [catalogRun, Mark.run] using h2

theorem agrees_initial (env : EngineEnv) (x : Named) :
    Agrees ⟨Catalog.initial env, none⟩ x ⟨x.initial, x.initial⟩ := by
  have : x.initial = (Catalog.initial env).has x := by
    cases x with
    | database d => simp [Named.initial, Catalog.initial, Catalog.has]
    | schema d s => simp [Named.initial, Catalog.initial, Catalog.has]
    | table d s t =>
      simp only [Named.initial, Catalog.initial, Catalog.has, Catalog.find, systemTables,
        CatalogTable.named, List.map_cons, List.map_nil, List.reverse_cons, List.reverse_nil,
        List.nil_append, List.cons_append, List.mem_cons, List.not_mem_nil, or_false]
      rw [Bool.eq_iff_iff, decide_eq_true_eq, List.find?_isSome]
      constructor
      · rintro ⟨rfl, rfl, rfl | rfl | rfl | rfl⟩ <;> simp
      · rintro ⟨e, he, h⟩
        simp only [List.mem_cons, List.not_mem_nil, or_false] at he
        rcases he with rfl | rfl | rfl | rfl <;> simp at h <;> simp [← h]
  exact ⟨this, this⟩

theorem agrees_after {env : EngineEnv} (hf : SystemFits env) {ops : List EngineOp}
    (hs : ∀ op ∈ ops, SmallOp env op) (x : Named)
    (hn : (∀ op ∈ ops, NotDropTable op) ∨ ∀ d s t, x ≠ .table d s t) :
    x.exists env (historyOf env ops) =
      ((catalogAfter env ops).active.getD (catalogAfter env ops).committed).has x := by
  unfold Named.exists historyOf
  rw [C46_histories_partial env hf ops hs]
  exact (agrees_run env x ops _ _ hn (agrees_initial env x)).2

end Maho
