import Verif.Lemmas.Catalog
import Verif.Lemmas.RoundTrip
/-
Properties C45-C51: the catalog and typed tables.
-/
namespace Maho
open Spec

/-! ### C45 -/

theorem ident_name {env : EngineEnv} {s : String} {id : Identifier}
    (h : (s, id) ∈ initialIdentifiers) : env.ident (ascii s) = id := env.builtin _ h

/-- Listing in a state without an open transaction. -/
theorem list_idle {env : EngineEnv} {s : EngineState} {c : CatalogState} (h : RepState env s c)
    (hidle : s.active = none) :
    engineStep env s .listDatabases =
      (.ids (.ok ((sortNames c.committed.databases).map env.ident)), s) := by
  obtain ⟨st, sa⟩ := s
  simp only at hidle
  subst hidle
  simp only [engineStep, listDatabases, withTransaction, h.1.listDatabases]
  rfl

/-- The system tables keep their definitions. -/
theorem systemTables_stored (env : EngineEnv) : ∀ p ∈ systemTables env,
    p.2.2.mapIds env.storedId = p.2.2 := by
  intro p hp
  simp only [systemTables, List.mem_cons, List.not_mem_nil, or_false] at hp
  have hst : ∀ s : Bytes, s.length ≤ 128 → env.storedId (env.ident s) = env.ident s :=
    env.storedId_ident
  have h1 := hst (ascii "sequence") (by decide)
  have h2 := hst (ascii "current") (by decide)
  have h3 := hst (ascii "database") (by decide)
  have h4 := hst (ascii "schema") (by decide)
  have h5 := hst (ascii "table") (by decide)
  have h6 := hst (ascii "table_id") (by decide)
  have h7 := hst (ascii "type") (by decide)
  rcases hp with rfl | rfl | rfl | rfl <;>
    simp [Definition.mapIds, systemDefinition, h1, h2, h3, h4, h5, h6, h7]

/-- C45: `Init` succeeds on an empty store. Afterwards the databases are maho and system, the
schemas are info in system and public in maho, and exactly the four system tables can be opened,
with their definitions and ids. This is for all names; 28, 41, 22 and 33 are the identifiers of
maho, system, info and public. -/
theorem C45_fresh_catalog (env : EngineEnv) (hf : SystemFits env) :
    (engineInit env ⟨[], none⟩).1 = some (.ok ()) ∧
    replyAfter env [] .listDatabases = .ids (.ok [28, 41]) ∧
    (∀ dn ids, replyAfter env [.begin] (.listSchemas dn) = .ids (.ok ids) ↔
      (env.name dn = ascii "system" ∧ ids = [22]) ∨ (env.name dn = ascii "maho" ∧ ids = [33])) ∧
    (∀ tn tbl, replyAfter env [.begin] (.openTable tn) = .table (.ok tbl) ↔
      ∃ p ∈ systemTables env, env.name tn.database = ascii "system" ∧
        env.name tn.schema = ascii "info" ∧ env.name tn.table = ascii p.1 ∧
        tbl = ⟨tn, p.2.2, BitVec.ofNat 32 p.2.1⟩) := by
  obtain ⟨h1, h2⟩ := initial_rep env hf
  refine ⟨h1, ?_, ?_, ?_⟩
  · have := reply_after hf (ops := []) (by simp) (op := .listDatabases) trivial
    rw [this]
    simp only [catalogAfter, catalogRun, catalogStep]
    rw [show sortNames (Catalog.initial env).databases = [ascii "maho", ascii "system"] from by
      change sortNames [ascii "system", ascii "maho"] = _; decide]
    simp only [List.map_cons, List.map_nil]
    rw [ident_name (s := "maho") (id := 28) (by decide), ident_name (s := "system") (id := 41) (by decide)]
  · intro dn ids
    have hops : ∀ op ∈ [EngineOp.begin], SmallOp env op := by simp [SmallOp]
    by_cases hs : Short env dn
    · rw [reply_after hf hops (op := .listSchemas dn) hs]
      simp only [catalogAfter, catalogRun, catalogStep, CatalogState.read]
      have hdbs : (Catalog.initial env).databases = [ascii "system", ascii "maho"] := rfl
      have hsch : (Catalog.initial env).schemas =
        [(ascii "system", ascii "info"), (ascii "maho", ascii "public")] := rfl
      have hsysmaho : ascii "system" ≠ ascii "maho" := by decide
      simp only [Catalog.schemasOf, hdbs, hsch, List.mem_cons, List.not_mem_nil, or_false]
      by_cases e1 : env.name dn = ascii "system"
      · rw [e1]
        have hl : (sortNames (List.map (fun x => x.snd) (List.filter (fun p => p.fst == ascii "system")
          [(ascii "system", ascii "info"), (ascii "maho", ascii "public")]))) = [ascii "info"] := by decide
        rw [hl]
        simp [hsysmaho, ident_name (env := env) (s := "info") (id := 22) (by decide)]
        exact ⟨fun h => h.symm, fun h => h.symm⟩
      · by_cases e2 : env.name dn = ascii "maho"
        · rw [e2]
          have hl : (sortNames (List.map (fun x => x.snd) (List.filter (fun p => p.fst == ascii "maho")
            [(ascii "system", ascii "info"), (ascii "maho", ascii "public")]))) = [ascii "public"] := by decide
          rw [hl]
          simp [Ne.symm hsysmaho, ident_name (env := env) (s := "public") (id := 33) (by decide)]
          exact ⟨fun h => h.symm, fun h => h.symm⟩
        · simp [e1, e2]
    · have hr := (rep_after hf hops).2
      have : replyAfter env [.begin] (.listSchemas dn) = .ids .panic := by
        unfold replyAfter
        have hact : ∃ t, (stateAfter env [.begin]).active = some t ∧
            Rep env t (Catalog.initial env) := by
          have hc : (catalogAfter env [.begin]).active = some (Catalog.initial env) := rfl
          rw [hc] at hr
          cases ha : (stateAfter env [.begin]).active with
          | none => rw [ha] at hr; exact hr.elim
          | some t => rw [ha] at hr; exact ⟨t, rfl, hr⟩
        obtain ⟨t, ht, hrep⟩ := hact
        simp only [engineStep, EngineState.inTx, ht, hrep.listSchemas_long hs]
      rw [this]
      simp only [EngineReply.ids.injEq, reduceCtorEq, false_iff]
      rintro (⟨e, _⟩ | ⟨e, _⟩) <;> exact hs (by rw [Short, e]; decide)
  · intro tn tbl
    have hops : ∀ op ∈ [EngineOp.begin], SmallOp env op := by simp [SmallOp]
    by_cases hs : Short env tn.database ∧ Short env tn.schema ∧ Short env tn.table
    · rw [reply_after hf hops (op := .openTable tn) hs]
      simp only [catalogAfter, catalogRun, catalogStep, CatalogState.read]
      have hids := idsOk_initial env
      constructor
      · intro h
        cases hfd : (Catalog.initial env).find (env.name tn.database) (env.name tn.schema)
            (env.name tn.table) with
        | none => rw [hfd] at h; simp at h
        | some e =>
          rw [hfd] at h
          obtain ⟨hm, h1, h2, h3⟩ := find_mem hfd
          obtain ⟨p, hp, rfl⟩ : ∃ p ∈ systemTables env, (⟨ascii "system", ascii "info", ascii p.1,
              p.2.1, p.2.2⟩ : CatalogTable) = e := by
            simpa [Catalog.initial] using hm
          refine ⟨p, hp, h1.symm, h2.symm, h3.symm, ?_⟩
          simp only [EngineReply.table.injEq, Res.ok.injEq] at h
          rw [← h, systemTables_stored env p hp]
      · rintro ⟨p, hp, h1, h2, h3, rfl⟩
        have hmem : (⟨ascii "system", ascii "info", ascii p.1, p.2.1, p.2.2⟩ : CatalogTable) ∈
            (Catalog.initial env).tables := by
          simp only [Catalog.initial, List.mem_reverse, List.mem_map]
          exact ⟨p, hp, rfl⟩
        cases hfd : (Catalog.initial env).find (env.name tn.database) (env.name tn.schema)
            (env.name tn.table) with
        | none =>
          have := List.find?_eq_none.1 hfd _ hmem
          simp [CatalogTable.named, h1, h2, h3] at this
        | some e =>
          obtain ⟨hm, g1, g2, g3⟩ := find_mem hfd
          obtain ⟨q, hq, rfl⟩ : ∃ p ∈ systemTables env, (⟨ascii "system", ascii "info", ascii p.1,
              p.2.1, p.2.2⟩ : CatalogTable) = e := by
            simpa [Catalog.initial] using hm
          simp only at g3
          have hpq : q = p := by
            rw [h3] at g3
            simp only [systemTables, List.mem_cons, List.not_mem_nil, or_false] at hp hq
            rcases hp with rfl | rfl | rfl | rfl <;> rcases hq with rfl | rfl | rfl | rfl <;>
              first | rfl | (dsimp only at g3; exact absurd g3 (by decide))
          subst hpq
          simp only [systemTables_stored env q hq]
    · have hr := (rep_after hf hops).2
      have : replyAfter env [.begin] (.openTable tn) = .table .panic := by
        unfold replyAfter
        have hact : ∃ t, (stateAfter env [.begin]).active = some t ∧
            Rep env t (Catalog.initial env) := by
          have hc : (catalogAfter env [.begin]).active = some (Catalog.initial env) := rfl
          rw [hc] at hr
          cases ha : (stateAfter env [.begin]).active with
          | none => rw [ha] at hr; exact hr.elim
          | some t => rw [ha] at hr; exact ⟨t, rfl, hr⟩
        obtain ⟨t, ht, hrep⟩ := hact
        simp only [engineStep, EngineState.inTx, ht, hrep.openTable_long hs]
      rw [this]
      simp only [EngineReply.table.injEq, reduceCtorEq, false_iff]
      rintro ⟨p, hp, h1, h2, h3, _⟩
      apply hs
      simp only [systemTables, List.mem_cons, List.not_mem_nil, or_false] at hp
      refine ⟨by rw [Short, h1]; decide, by rw [Short, h2]; decide, ?_⟩
      rw [Short, h3]
      rcases hp with rfl | rfl | rfl | rfl
      · exact (by decide : (ascii "sequences").length ≤ 128)
      · exact (by decide : (ascii "databases").length ≤ 128)
      · exact (by decide : (ascii "schemas").length ≤ 128)
      · exact (by decide : (ascii "tables").length ≤ 128)

example : SystemFits sampleEngine := sampleEngine_fits

example : replyAfter sampleEngine [.begin] (.openTable ⟨41, 22, 42⟩) =
    .table (.ok ⟨⟨41, 22, 42⟩, (tablesInfo sampleEngine).definition, 19#32⟩) := by decide +kernel

/-! ### C46 -/

/-- C46, C47, C48 on histories: for every history of operations, with any interleaving of
transactions, the replies are those of the catalog as a set of database names, a set of schemas
and a set of tables (Spec/Engine.lean). Missing: names of more than 128 bytes and definitions of
more than 8192 encoded bytes, where the code panics (`C46_long_name_panics`). -/
theorem C46_histories_partial (env : EngineEnv) (hf : SystemFits env) (ops : List EngineOp)
    (hs : ∀ op ∈ ops, SmallOp env op) :
    (engineRun env (EngineState.initial env) ops).1 =
      (catalogRun env ⟨Catalog.initial env, none⟩ ops).1 :=
  (engine_run ops (initial_rep env hf).2 hs).1

theorem sortNames_filter (d : Bytes) (l : List Bytes) :
    sortNames (l.filter (· != d)) = (sortNames l).filter (· != d) := by
  apply pairwise_ext (R := fun a b => bytesCompare a b = .lt)
  · intro a b h1 h2
    rw [← bytesCompare_swap, h1] at h2
    exact absurd h2 (by decide)
  · exact sortNames_sorted _
  · exact (sortNames_sorted _).filter _
  · intro x
    simp [mem_sortNames]

theorem catalog_idle {env : EngineEnv} (hf : SystemFits env) {ops : List EngineOp}
    (hs : ∀ op ∈ ops, SmallOp env op) (hidle : (stateAfter env ops).active = none) :
    (catalogAfter env ops).active = none := by
  have := active_after hf hs
  rw [hidle] at this
  simpa using this.symm

theorem smallOps_snoc {env : EngineEnv} {ops : List EngineOp} {op : EngineOp}
    (hs : ∀ op ∈ ops, SmallOp env op) (h : SmallOp env op) : ∀ o ∈ ops ++ [op], SmallOp env o := by
  intro o ho
  rcases List.mem_append.1 ho with ho | ho
  · exact hs o ho
  · rw [List.mem_singleton.1 ho]; exact h

/-- An operation in its own transaction that fails leaves the state as it was. -/
theorem auto_err {α : Type} {s : EngineState} {fn : Tree → Res α × Tree} {e : Err}
    (h : (withTransaction s fn).1 = some (.err e)) : (withTransaction s fn).2 = s := by
  unfold withTransaction at h ⊢
  cases ha : s.active with
  | some t => simp [ha] at h
  | none =>
    cases hfn : fn s.committed with
    | mk r t =>
      cases r <;> simp_all

/-- C46 as seen by a client, after any history that leaves no transaction open: there is a set of
names, listed in ascending order, such that create fails exactly on the names in it, drop fails
exactly on the names not in it unless `IF EXISTS` is given, the listing afterwards is the one with
the name inserted or removed, and a failure leaves the whole state as it was. Missing: names of
more than 128 bytes (`C46_long_name_panics`). -/
theorem C46_databases_partial (env : EngineEnv) (hf : SystemFits env) (ops : List EngineOp)
    (hs : ∀ op ∈ ops, SmallOp env op) (hidle : (stateAfter env ops).active = none) :
    ∃ names : List Bytes,
      names.Pairwise (fun a b => bytesCompare a b = .lt) ∧
      replyAfter env ops .listDatabases = .ids (.ok (names.map env.ident)) ∧
      ∀ dn, Short env dn →
        (replyAfter env ops (.createDatabase dn 0) =
          .done (if env.name dn ∈ names then .err .other else .ok ())) ∧
        (∀ ie, replyAfter env ops (.dropDatabase dn ie) =
          .done (if env.name dn ∈ names ∨ ie = true then .ok () else .err .other)) ∧
        (replyAfter env (ops ++ [.createDatabase dn 0]) .listDatabases =
          .ids (.ok ((insertName (env.name dn) names).map env.ident))) ∧
        (∀ ie, replyAfter env (ops ++ [.dropDatabase dn ie]) .listDatabases =
          .ids (.ok ((names.filter (· != env.name dn)).map env.ident))) ∧
        (env.name dn ∈ names → stateAfter env (ops ++ [.createDatabase dn 0]) = stateAfter env ops) ∧
        (env.name dn ∉ names →
          stateAfter env (ops ++ [.dropDatabase dn false]) = stateAfter env ops) := by
  have hci := catalog_idle hf hs hidle
  have hc := fun op hop => reply_after hf hs (op := op) hop
  generalize hcat : catalogAfter env ops = cs at hci hc
  obtain ⟨c, ca⟩ := cs
  simp only at hci
  subst hci
  have hcreate : ∀ dn, Short env dn → replyAfter env ops (.createDatabase dn 0) =
      .done (if env.name dn ∈ sortNames c.databases then .err .other else .ok ()) := by
    intro dn hd
    rw [hc (.createDatabase dn 0) hd]
    simp only [catalogStep, CatalogState.auto, Catalog.createDatabase, mem_sortNames]
    by_cases h : env.name dn ∈ c.databases <;> simp [h, outcome]
  have hdrop : ∀ dn ie, Short env dn → replyAfter env ops (.dropDatabase dn ie) =
      .done (if env.name dn ∈ sortNames c.databases ∨ ie = true then .ok () else .err .other) := by
    intro dn ie hd
    rw [hc (.dropDatabase dn ie) hd]
    simp only [catalogStep, CatalogState.auto, Catalog.dropDatabase, mem_sortNames]
    by_cases h : env.name dn ∈ c.databases <;> simp [h, outcome]
  refine ⟨sortNames c.databases, sortNames_sorted _, ?_, ?_⟩
  · rw [hc .listDatabases trivial]; rfl
  intro dn hd
  refine ⟨hcreate dn hd, fun ie => hdrop dn ie hd, ?_, ?_, ?_, ?_⟩
  · rw [reply_after hf (smallOps_snoc hs (op := .createDatabase dn 0) hd) (op := .listDatabases) trivial,
      catalogAfter_snoc, hcat]
    simp only [catalogStep, CatalogState.auto, Catalog.createDatabase]
    by_cases h : env.name dn ∈ c.databases
    · have : insertName (env.name dn) (sortNames c.databases) = sortNames c.databases := by
        apply pairwise_ext (R := fun a b => bytesCompare a b = .lt)
        · intro a b h1 h2
          rw [← bytesCompare_swap, h1] at h2
          exact absurd h2 (by decide)
        · exact insertName_sorted (sortNames_sorted _)
        · exact sortNames_sorted _
        · intro x
          rw [mem_insertName, mem_sortNames]
          constructor
          · rintro (rfl | h') <;> assumption
          · exact .inr
      simp [h, this]
    · simp [h]; rfl
  · intro ie
    rw [reply_after hf (smallOps_snoc hs (op := .dropDatabase dn ie) hd) (op := .listDatabases) trivial,
      catalogAfter_snoc, hcat]
    simp only [catalogStep, CatalogState.auto, Catalog.dropDatabase]
    by_cases h : env.name dn ∈ c.databases
    · simp [h, sortNames_filter]
    · have : (sortNames c.databases).filter (· != env.name dn) = sortNames c.databases := by
        rw [List.filter_eq_self]
        intro x hx
        simp only [bne_iff_ne, ne_eq]
        rintro rfl
        exact h (mem_sortNames.1 hx)
      rw [this]
      cases ie <;> simp [h]
  · intro h
    have hr := hcreate dn hd
    rw [if_pos h] at hr
    rw [stateAfter_snoc]
    simp only [replyAfter, engineStep, createDatabase, Nat.lt_irrefl, gt_iff_lt, if_false] at hr ⊢
    refine auto_err (e := .other) ?_
    cases hw : (withTransaction (stateAfter env ops) (fun t => createDatabaseTx env t dn)).1 with
    | none => rw [hw] at hr; simp [replyOf] at hr
    | some r => rw [hw] at hr; simp [replyOf] at hr; rw [hr]
  · intro h
    have hr := hdrop dn false hd
    rw [if_neg (by simp [h])] at hr
    rw [stateAfter_snoc]
    simp only [replyAfter, engineStep, dropDatabase] at hr ⊢
    refine auto_err (e := .other) ?_
    cases hw : (withTransaction (stateAfter env ops) (fun t => dropDatabaseTx env t dn false)).1 with
    | none => rw [hw] at hr; simp [replyOf] at hr
    | some r => rw [hw] at hr; simp [replyOf] at hr; rw [hr]

/-- A name that is not a keyword, in the sample environment. -/
def sampleId (s : String) : Identifier := sampleIdent (ascii s)

example : (∀ op ∈ [EngineOp.createDatabase (sampleId "db") 0, .dropDatabase 28 false],
    SmallOp sampleEngine op) ∧
    (stateAfter sampleEngine [.createDatabase (sampleId "db") 0, .dropDatabase 28 false]).active =
      none := by
  refine ⟨?_, by decide +kernel⟩
  intro op h
  simp only [List.mem_cons, List.not_mem_nil, or_false] at h
  rcases h with rfl | rfl <;> (simp only [SmallOp, Short]; decide +kernel)

example : replyAfter sampleEngine [.createDatabase (sampleId "db") 0, .dropDatabase 28 false]
    .listDatabases = .ids (.ok [sampleId "db", 41]) := by decide +kernel

/-- C46 fails for names of more than 128 bytes: after any history that leaves no transaction open,
creating such a database panics and leaves the store locked, so that every operation that starts a
transaction, of any session, waits forever. -/
theorem C46_long_name_panics (env : EngineEnv) (hf : SystemFits env) (ops : List EngineOp)
    (hs : ∀ op ∈ ops, SmallOp env op) (hidle : (stateAfter env ops).active = none)
    (dn : Identifier) (hl : ¬ Short env dn) :
    replyAfter env ops (.createDatabase dn 0) = .done .panic ∧
    replyAfter env (ops ++ [.createDatabase dn 0]) .begin = .blocked ∧
    replyAfter env (ops ++ [.createDatabase dn 0]) .listDatabases = .blocked ∧
    ∀ d, replyAfter env (ops ++ [.createDatabase dn 0]) (.createDatabase d 0) = .blocked := by
  have hr := rep_after hf hs
  have hp := hr.1.createDatabase_long hl
  have hst : engineStep env (stateAfter env ops) (.createDatabase dn 0) =
      (.done .panic, ⟨(stateAfter env ops).committed, some (stateAfter env ops).committed⟩) := by
    simp only [engineStep, createDatabase, Nat.lt_irrefl, gt_iff_lt, if_false, withTransaction,
      hidle, hp]
    rfl
  refine ⟨by unfold replyAfter; rw [hst], ?_, ?_, fun d => ?_⟩ <;>
    (simp only [replyAfter, stateAfter_snoc, hst]; rfl)

/-- A name of 129 bytes, in the sample environment. -/
def sampleLong : Identifier := 1000 + (bytesNumber (List.replicate 129 97#8) : Int)

example : ¬ Short sampleEngine sampleLong := by simp only [Short]; decide +kernel

/-! ### C47 -/

theorem catalog_open {env : EngineEnv} (hf : SystemFits env) {ops : List EngineOp}
    (hs : ∀ op ∈ ops, SmallOp env op) (hopen : (stateAfter env ops).active ≠ none) :
    ∃ c0 c, catalogAfter env ops = ⟨c0, some c⟩ := by
  have := active_after hf hs
  generalize hcat : catalogAfter env ops = cs at this
  obtain ⟨c0, ca⟩ := cs
  cases ca with
  | some c => exact ⟨c0, c, rfl⟩
  | none =>
    cases ha : (stateAfter env ops).active with
    | none => exact absurd ha hopen
    | some t => rw [ha] at this; simp at this

theorem schemasOf_insert (c : Catalog) (d s d' : Bytes) :
    ({ c with schemas := (d, s) :: c.schemas } : Catalog).schemasOf d' =
      if d' = d then insertName s (c.schemasOf d') else c.schemasOf d' := by
  unfold Catalog.schemasOf
  by_cases h : d' = d
  · subst h; simp [sortNames]
  · have : (d == d') = false := by simpa using fun e => h e.symm
    simp [h, this]

theorem mem_schemasOf {c : Catalog} {d s : Bytes} : s ∈ c.schemasOf d ↔ (d, s) ∈ c.schemas := by
  unfold Catalog.schemasOf
  rw [mem_sortNames]
  simp

theorem insertName_mem {s : Bytes} {l : List Bytes} (hl : l.Pairwise (fun a b => bytesCompare a b = .lt))
    (h : s ∈ l) : insertName s l = l := by
  apply pairwise_ext (R := fun a b => bytesCompare a b = .lt)
  · intro a b h1 h2
    rw [← bytesCompare_swap, h1] at h2
    exact absurd h2 (by decide)
  · exact insertName_sorted hl
  · exact hl
  · intro x
    rw [mem_insertName]
    constructor
    · rintro (rfl | h') <;> assumption
    · exact .inr

theorem schemasOf_filter (c : Catalog) (d s d' : Bytes) :
    ({ c with schemas := c.schemas.filter (· != (d, s)) } : Catalog).schemasOf d' =
      if d' = d then (c.schemasOf d').filter (· != s) else c.schemasOf d' := by
  apply pairwise_ext (R := fun a b => bytesCompare a b = .lt)
  · intro a b h1 h2
    rw [← bytesCompare_swap, h1] at h2
    exact absurd h2 (by decide)
  · exact sortNames_sorted _
  · split
    · exact (sortNames_sorted _).filter _
    · exact sortNames_sorted _
  · intro x
    rw [mem_schemasOf]
    split
    · next h => subst h; simp [mem_schemasOf]
    · next h => simp [mem_schemasOf, h]

/-- C47 as seen by a client, after any history that leaves a transaction open: there are a set of
databases and for every database a set of schemas, listed in ascending order, such that create
succeeds exactly for a new schema of an existing database, drop fails exactly for a missing schema
unless `IF EXISTS` is given, and afterwards the listings of all databases are the ones with the
schema inserted in or removed from its database. Missing: names of more than 128 bytes, where the
code panics. -/
theorem C47_schemas_partial (env : EngineEnv) (hf : SystemFits env) (ops : List EngineOp)
    (hs : ∀ op ∈ ops, SmallOp env op) (hopen : (stateAfter env ops).active ≠ none) :
    ∃ (dbs : List Bytes) (schemas : Bytes → List Bytes),
      (∀ d, (schemas d).Pairwise (fun a b => bytesCompare a b = .lt)) ∧
      (∀ dn, Short env dn → replyAfter env ops (.listSchemas dn) =
        .ids (if env.name dn ∈ dbs then .ok ((schemas (env.name dn)).map env.ident)
          else .err .other)) ∧
      ∀ sn : SchemaName, Short env sn.database → Short env sn.schema →
        (replyAfter env ops (.createSchema sn) =
          .done (if env.name sn.database ∈ dbs ∧ env.name sn.schema ∉ schemas (env.name sn.database)
            then .ok () else .err .other)) ∧
        (∀ ie, replyAfter env ops (.dropSchema sn ie) =
          .done (if env.name sn.schema ∈ schemas (env.name sn.database) ∨ ie = true
            then .ok () else .err .other)) ∧
        (∀ dn, Short env dn → env.name dn ∈ dbs →
          replyAfter env (ops ++ [.createSchema sn]) (.listSchemas dn) =
            .ids (.ok ((if env.name dn = env.name sn.database
              then insertName (env.name sn.schema) (schemas (env.name dn))
              else schemas (env.name dn)).map env.ident))) ∧
        (∀ ie dn, Short env dn → env.name dn ∈ dbs →
          replyAfter env (ops ++ [.dropSchema sn ie]) (.listSchemas dn) =
            .ids (.ok ((if env.name dn = env.name sn.database
              then (schemas (env.name dn)).filter (· != env.name sn.schema)
              else schemas (env.name dn)).map env.ident))) := by
  obtain ⟨c0, c, hcat⟩ := catalog_open hf hs hopen
  have hc := fun op hop => reply_after hf hs (op := op) hop
  rw [hcat] at hc
  refine ⟨c.databases, c.schemasOf, fun d => sortNames_sorted _, ?_, ?_⟩
  · intro dn hd
    rw [hc (.listSchemas dn) hd]
    rfl
  intro sn h1 h2
  refine ⟨?_, ?_, ?_, ?_⟩
  · rw [hc (.createSchema sn) ⟨h1, h2⟩]
    simp only [catalogStep, CatalogState.write, Catalog.createSchema, mem_schemasOf]
    by_cases hd : env.name sn.database ∈ c.databases <;>
      by_cases hm : (env.name sn.database, env.name sn.schema) ∈ c.schemas <;>
      simp [hd, hm, outcome]
  · intro ie
    rw [hc (.dropSchema sn ie) ⟨h1, h2⟩]
    simp only [catalogStep, CatalogState.write, Catalog.dropSchema, mem_schemasOf]
    by_cases hm : (env.name sn.database, env.name sn.schema) ∈ c.schemas <;>
      simp [hm, outcome]
  · intro dn hd hdb
    rw [reply_after hf (smallOps_snoc hs (op := .createSchema sn) ⟨h1, h2⟩)
      (op := .listSchemas dn) hd, catalogAfter_snoc, hcat]
    simp only [catalogStep, CatalogState.write, CatalogState.read, Catalog.createSchema]
    by_cases hsd : env.name sn.database ∈ c.databases
    · by_cases hm : (env.name sn.database, env.name sn.schema) ∈ c.schemas
      · simp only [hsd, hm, not_true, if_false, if_true, hdb]
        split
        · next e => 
          have := insertName_mem (l := c.schemasOf (env.name dn)) (sortNames_sorted _)
            (mem_schemasOf.2 (e ▸ hm))
          rw [this]
        · rfl
      · simp only [hsd, hm, not_true, if_false, hdb, if_true, schemasOf_insert]
    · have : env.name dn ≠ env.name sn.database := fun e => hsd (e ▸ hdb)
      simp only [hsd, not_false_eq_true, if_true, hdb, this, if_false]
  · intro ie dn hd hdb
    rw [reply_after hf (smallOps_snoc hs (op := .dropSchema sn ie) ⟨h1, h2⟩)
      (op := .listSchemas dn) hd, catalogAfter_snoc, hcat]
    simp only [catalogStep, CatalogState.write, CatalogState.read, Catalog.dropSchema]
    by_cases hm : (env.name sn.database, env.name sn.schema) ∈ c.schemas
    · simp only [hm, if_true, hdb, schemasOf_filter]
    · simp only [hm, if_false, hdb, if_true]
      split
      · next e =>
        have : (c.schemasOf (env.name dn)).filter (· != env.name sn.schema) =
            c.schemasOf (env.name dn) := by
          rw [List.filter_eq_self]
          intro x hx
          simp only [bne_iff_ne, ne_eq]
          rintro rfl
          exact hm (e ▸ mem_schemasOf.1 hx)
        rw [this]
      · rfl

example : SmallOp sampleEngine .begin ∧ (stateAfter sampleEngine [.begin]).active ≠ none :=
  ⟨trivial, by decide +kernel⟩

example : replyAfter sampleEngine [.begin, .createSchema ⟨28, sampleId "s"⟩,
    .createSchema ⟨28, sampleId "a"⟩] (.listSchemas 28) =
    .ids (.ok [sampleId "a", 33, sampleId "s"]) := by decide +kernel

/-- C47 fails for long names: the listing panics in every open transaction. -/
theorem C47_long_name_panics (env : EngineEnv) (hf : SystemFits env) (ops : List EngineOp)
    (hs : ∀ op ∈ ops, SmallOp env op) (hopen : (stateAfter env ops).active ≠ none)
    (dn : Identifier) (hl : ¬ Short env dn) :
    replyAfter env ops (.listSchemas dn) = .ids .panic := by
  have hr := (rep_after hf hs).2
  obtain ⟨c0, c, hcat⟩ := catalog_open hf hs hopen
  rw [hcat] at hr
  unfold replyAfter
  cases ha : (stateAfter env ops).active with
  | none => exact absurd ha hopen
  | some t =>
    rw [ha] at hr
    simp only [engineStep, EngineState.inTx, ha, Rep.listSchemas_long hr hl]

/-! ### C48 -/

/-- C48: `CreateTable` succeeds exactly if the schema exists (dropping it would succeed) and the
name is free (opening it fails). If it succeeds, the table is found afterwards under exactly this
name with this definition and some id, and every other lookup is as before. If it fails, every
lookup is as before. Missing: names of more than 128 bytes and definitions of more than 8192
encoded bytes, where the code panics, and columns whose identifiers are not stable when stored
(`C48_keyword_column_changes`). -/
theorem C48_create_table_partial (env : EngineEnv) (hf : SystemFits env) (ops : List EngineOp)
    (hs : ∀ op ∈ ops, SmallOp env op) (hopen : (stateAfter env ops).active ≠ none)
    (tn : TableName) (colNames : List Identifier) (colTypes : List ColumnType)
    (primary : List ColumnKey) (hop : SmallOp env (.createTable tn colNames colTypes primary))
    (hcols : ∀ id ∈ colNames, env.storedId id = id) :
    ∃ tid : TableId,
      replyAfter env ops (.createTable tn colNames colTypes primary) =
        .done (if replyAfter env ops (.dropSchema ⟨tn.database, tn.schema⟩ false) = .done (.ok ()) ∧
            replyAfter env ops (.openTable tn) = .table (.err .other)
          then .ok () else .err .other) ∧
      ∀ tn' : TableName, SmallOp env (.openTable tn') →
        replyAfter env (ops ++ [.createTable tn colNames colTypes primary]) (.openTable tn') =
          if replyAfter env ops (.createTable tn colNames colTypes primary) = .done (.ok ()) ∧
              env.name tn'.database = env.name tn.database ∧
              env.name tn'.schema = env.name tn.schema ∧ env.name tn'.table = env.name tn.table
          then .table (.ok ⟨tn', ⟨1#32, colNames, colTypes, primary⟩, tid⟩)
          else replyAfter env ops (.openTable tn') := by
  obtain ⟨c0, c, hcat⟩ := catalog_open hf hs hopen
  have hc := fun op hop => reply_after hf hs (op := op) hop
  rw [hcat] at hc
  obtain ⟨⟨h1, h2, h3⟩, h4⟩ := hop
  refine ⟨BitVec.ofNat 32 c.next, ?_, ?_⟩
  · rw [hc (.createTable tn colNames colTypes primary) ⟨⟨h1, h2, h3⟩, h4⟩,
      hc (.dropSchema ⟨tn.database, tn.schema⟩ false) ⟨h1, h2⟩, hc (.openTable tn) ⟨h1, h2, h3⟩]
    simp only [catalogStep, CatalogState.write, CatalogState.read, Catalog.createTable,
      Catalog.dropSchema]
    by_cases hm : (env.name tn.database, env.name tn.schema) ∈ c.schemas
    · cases hfd : c.find (env.name tn.database) (env.name tn.schema) (env.name tn.table) <;>
        simp [hm, outcome]
    · simp [hm, outcome]
  · intro tn' hs'
    rw [reply_after hf (smallOps_snoc hs (op := .createTable tn colNames colTypes primary)
      ⟨⟨h1, h2, h3⟩, h4⟩) (op := .openTable tn') hs', catalogAfter_snoc, hcat,
      hc (.createTable tn colNames colTypes primary) ⟨⟨h1, h2, h3⟩, h4⟩, hc (.openTable tn') hs']
    simp only [catalogStep, CatalogState.write, CatalogState.read, Catalog.createTable]
    have hdef : (⟨1#32, colNames, colTypes, primary⟩ : Definition).mapIds env.storedId =
        ⟨1#32, colNames, colTypes, primary⟩ := by
      simp only [Definition.mapIds, Definition.mk.injEq, true_and, and_true]
      rw [List.map_congr_left hcols]
      simp
    by_cases hm : (env.name tn.database, env.name tn.schema) ∈ c.schemas
    · by_cases hfd :
          (c.find (env.name tn.database) (env.name tn.schema) (env.name tn.table)).isSome = true
      · simp only [hm, hfd, not_true, if_false, if_true, outcome, Bool.false_eq_true]
        simp [Catalog.find]
      · simp only [hm, hfd, not_true, if_false, outcome, if_true, true_and, Bool.false_eq_true]
        by_cases hn : env.name tn'.database = env.name tn.database ∧
            env.name tn'.schema = env.name tn.schema ∧ env.name tn'.table = env.name tn.table
        · have hh : (⟨env.name tn.database, env.name tn.schema, env.name tn.table, c.next,
              ⟨1#32, colNames, colTypes, primary⟩⟩ : CatalogTable).named (env.name tn'.database)
              (env.name tn'.schema) (env.name tn'.table) = true := by
            simp [CatalogTable.named, hn.1, hn.2.1, hn.2.2]
          rw [if_pos hn]
          simp only [Catalog.find, List.find?_cons, hh, hdef]
        · have hh : (⟨env.name tn.database, env.name tn.schema, env.name tn.table, c.next,
              ⟨1#32, colNames, colTypes, primary⟩⟩ : CatalogTable).named (env.name tn'.database)
              (env.name tn'.schema) (env.name tn'.table) = false := by
            rw [← Bool.not_eq_true]
            intro hh
            simp only [CatalogTable.named, Bool.and_eq_true, beq_iff_eq] at hh
            exact hn ⟨hh.1.1.symm, hh.1.2.symm, hh.2.symm⟩
          rw [if_neg hn]
          simp only [Catalog.find, List.find?_cons, hh]
    · simp [hm, outcome]

/-- A table of the sample histories: one column `c` of type int64. -/
def sampleCreate (s : String) : EngineOp :=
  .createTable ⟨28, 33, sampleId s⟩ [sampleId "c"] [numberColumn] [1#32]

theorem sampleCreate_small {s : String} (h : (sampleEngine.name (sampleId s)).length ≤ 128) :
    SmallOp sampleEngine (sampleCreate s) := by
  refine ⟨⟨?_, ?_, h⟩, ?_⟩
  · exact (by decide +kernel : (sampleEngine.name 28).length ≤ 128)
  · exact (by decide +kernel : (sampleEngine.name 33).length ≤ 128)
  · exact (by decide +kernel : (Codec.definition.enc
      ⟨1#32, [sampleId "c"], [numberColumn], [1#32]⟩).length ≤ 8192)

example : SmallOp sampleEngine (sampleCreate "t") ∧
    (∀ id ∈ [sampleId "c"], sampleEngine.storedId id = id) :=
  ⟨sampleCreate_small (by decide +kernel), by decide +kernel⟩

example : replyAfter sampleEngine [.begin] (sampleCreate "t") = .done (.ok ()) ∧
    replyAfter sampleEngine [.begin, sampleCreate "t"] (.openTable ⟨28, 33, sampleId "t"⟩) =
      .table (.ok ⟨⟨28, 33, sampleId "t"⟩, ⟨1#32, [sampleId "c"], [numberColumn], [1#32]⟩, 512#32⟩) := by
  decide +kernel

/-- C48 in full fails: a column whose name is an unreserved keyword, here TEXT with identifier 43,
has another identifier when the table is opened. -/
theorem C48_keyword_column_changes :
    replyAfter sampleEngine [.begin] (.createTable ⟨28, 33, 1000⟩ [43] [numberColumn] []) =
      .done (.ok ()) ∧
    ∃ tbl, replyAfter sampleEngine [.begin, .createTable ⟨28, 33, 1000⟩ [43] [numberColumn] []]
        (.openTable ⟨28, 33, 1000⟩) = .table (.ok tbl) ∧ tbl.tt.columnNames ≠ [43] := by
  refine ⟨by decide +kernel, ?_⟩
  refine ⟨⟨⟨28, 33, 1000⟩, ⟨1#32, [sampleStoredId 43], [numberColumn], []⟩, 512#32⟩,
    by decide +kernel, by decide +kernel⟩

/-! ### C49 -/

theorem open_reply {env : EngineEnv} (hf : SystemFits env) {ops : List EngineOp}
    (hs : ∀ op ∈ ops, SmallOp env op) {c0 c : Catalog} (hcat : catalogAfter env ops = ⟨c0, some c⟩)
    {tn : TableName} (hop : SmallOp env (.openTable tn)) {tbl : EngineTable}
    (h : replyAfter env ops (.openTable tn) = .table (.ok tbl)) :
    ∃ e ∈ c.tables, e.database = env.name tn.database ∧ e.schema = env.name tn.schema ∧
      e.table = env.name tn.table ∧ tbl.tid = BitVec.ofNat 32 e.id := by
  rw [reply_after hf hs hop, hcat] at h
  simp only [catalogStep, CatalogState.read] at h
  cases hfd : c.find (env.name tn.database) (env.name tn.schema) (env.name tn.table) with
  | none => rw [hfd] at h; simp at h
  | some e =>
    rw [hfd] at h
    obtain ⟨hm, h1, h2, h3⟩ := find_mem hfd
    simp only [EngineReply.table.injEq, Res.ok.injEq] at h
    exact ⟨e, hm, h1, h2, h3, by rw [← h]⟩

/-- C49, after any history of fewer than 2^32 - 512 operations that leaves a transaction open,
whatever was committed or rolled back in it: two tables with the same id are the same table, every
table except the four system tables has an id of at least 512, and a new table gets an id greater
than that of every table there is. Missing: longer histories (`C49_ids_wrap`) and names too long
for the catalog, where the code panics. -/
theorem C49_ids_partial (env : EngineEnv) (hf : SystemFits env) (ops : List EngineOp)
    (hs : ∀ op ∈ ops, SmallOp env op) (hopen : (stateAfter env ops).active ≠ none)
    (hlen : ops.length < 2 ^ 32 - 512) :
    (∀ tn₁ tn₂ tbl₁ tbl₂, SmallOp env (.openTable tn₁) → SmallOp env (.openTable tn₂) →
      replyAfter env ops (.openTable tn₁) = .table (.ok tbl₁) →
      replyAfter env ops (.openTable tn₂) = .table (.ok tbl₂) → tbl₁.tid = tbl₂.tid →
      env.name tn₁.database = env.name tn₂.database ∧ env.name tn₁.schema = env.name tn₂.schema ∧
        env.name tn₁.table = env.name tn₂.table) ∧
    (∀ tn tbl, SmallOp env (.openTable tn) →
      replyAfter env ops (.openTable tn) = .table (.ok tbl) →
      512 ≤ tbl.tid.toNat ∨ (env.name tn.database = ascii "system" ∧
        env.name tn.schema = ascii "info" ∧ ∃ p ∈ systemTables env, env.name tn.table = ascii p.1 ∧
          tbl.tid.toNat = p.2.1)) ∧
    (∀ tn colNames colTypes primary tbl, SmallOp env (.createTable tn colNames colTypes primary) →
      replyAfter env ops (.createTable tn colNames colTypes primary) = .done (.ok ()) →
      replyAfter env (ops ++ [.createTable tn colNames colTypes primary]) (.openTable tn) =
        .table (.ok tbl) →
      512 ≤ tbl.tid.toNat ∧ ∀ tn' tbl', SmallOp env (.openTable tn') →
        replyAfter env ops (.openTable tn') = .table (.ok tbl') →
        tbl'.tid.toNat < tbl.tid.toNat) := by
  obtain ⟨c0, c, hcat⟩ := catalog_open hf hs hopen
  obtain ⟨hids, hnext⟩ := (ids_after env ops).2 c (by rw [hcat])
  have hnum : ∀ e ∈ c.tables, (BitVec.ofNat 32 e.id).toNat = e.id := by
    intro e he
    have := hids.below e he
    rw [BitVec.toNat_ofNat]
    exact Nat.mod_eq_of_lt (by omega)
  refine ⟨?_, ?_, ?_⟩
  · intro tn₁ tn₂ tbl₁ tbl₂ s1 s2 h1 h2 he
    obtain ⟨e₁, m₁, a1, a2, a3, a4⟩ := open_reply hf hs hcat s1 h1
    obtain ⟨e₂, m₂, b1, b2, b3, b4⟩ := open_reply hf hs hcat s2 h2
    have hid : e₁.id = e₂.id := by
      rw [← hnum e₁ m₁, ← hnum e₂ m₂, ← a4, ← b4, he]
    have := hids.id_inj m₁ m₂ hid
    subst this
    exact ⟨a1.symm.trans b1, a2.symm.trans b2, a3.symm.trans b3⟩
  · intro tn tbl s1 h1
    obtain ⟨e, m, a1, a2, a3, a4⟩ := open_reply hf hs hcat s1 h1
    rw [a4, hnum e m]
    rcases hids.user e m with h | h
    · exact .inl h
    · right
      obtain ⟨p, hp, rfl⟩ : ∃ p ∈ systemTables env, (⟨ascii "system", ascii "info", ascii p.1,
          p.2.1, p.2.2⟩ : CatalogTable) = e := by
        simpa [Catalog.initial] using h
      exact ⟨a1.symm, a2.symm, p, hp, a3.symm, rfl⟩
  · intro tn colNames colTypes primary tbl hop hcr hopn
    have hcr' := hcr
    rw [reply_after hf hs hop, hcat] at hcr'
    have hs' := smallOps_snoc hs hop
    have hcat' : catalogAfter env (ops ++ [.createTable tn colNames colTypes primary]) =
        ⟨c0, some (c.createTable (env.name tn.database) (env.name tn.schema) (env.name tn.table)
          ⟨1#32, colNames, colTypes, primary⟩).2⟩ := by
      rw [catalogAfter_snoc, hcat]; rfl
    simp only [catalogStep, CatalogState.write, Catalog.createTable] at hcr' hcat'
    by_cases hm : (env.name tn.database, env.name tn.schema) ∈ c.schemas
    · by_cases hfd :
          (c.find (env.name tn.database) (env.name tn.schema) (env.name tn.table)).isSome = true
      · simp [hm, hfd, outcome] at hcr'
      · simp only [hm, hfd, not_true, if_false, Bool.false_eq_true] at hcat'
        obtain ⟨e, m, a1, a2, a3, a4⟩ := open_reply hf hs' hcat' hop.1 hopn
        have he : e = ⟨env.name tn.database, env.name tn.schema, env.name tn.table, c.next,
            ⟨1#32, colNames, colTypes, primary⟩⟩ := by
          rcases List.mem_cons.1 m with rfl | m
          · rfl
          · exfalso
            apply hfd
            rw [Catalog.find, List.find?_isSome]
            exact ⟨e, m, by simp [CatalogTable.named, a1, a2, a3]⟩
        have htid : tbl.tid.toNat = c.next := by
          rw [a4, he, BitVec.toNat_ofNat]
          change c.next % 2 ^ 32 = c.next
          exact Nat.mod_eq_of_lt (by omega)
        rw [htid]
        refine ⟨hids.next, ?_⟩
        intro tn' tbl' s' h'
        obtain ⟨e', m', _, _, _, b4⟩ := open_reply hf hs hcat s' h'
        rw [b4, hnum e' m']
        exact hids.below e' m'
    · simp [hm, outcome] at hcr'

example : (stateAfter sampleEngine [.begin, sampleCreate "t", .rollback, .begin,
      sampleCreate "u", .commit, .begin]).active ≠ none ∧
    replyAfter sampleEngine [.begin, sampleCreate "t", .rollback, .begin,
      sampleCreate "u", .commit, .begin] (.openTable ⟨28, 33, sampleId "t"⟩) =
        .table (.err .other) := by decide +kernel

/-- Creating a table that exists uses up an id and changes nothing else. -/
theorem create_again {env : EngineEnv} {c0 c : Catalog} {tn : TableName} {cn : List Identifier}
    {ct : List ColumnType} {p : List ColumnKey}
    (hm : (env.name tn.database, env.name tn.schema) ∈ c.schemas)
    (hfd : (c.find (env.name tn.database) (env.name tn.schema) (env.name tn.table)).isSome = true) :
    ∀ n, (catalogRun env ⟨c0, some c⟩ (List.replicate n (.createTable tn cn ct p))).2 =
      ⟨c0, some { c with next := c.next + n }⟩ := by
  intro n
  induction n generalizing c with
  | zero => rfl
  | succ n ih =>
    rw [List.replicate_succ]
    simp only [catalogRun, catalogStep, CatalogState.write, Catalog.createTable, hm, hfd, not_true,
      if_false, if_true]
    rw [ih (c := { c with next := c.next + 1 }) hm hfd]
    simp only [CatalogState.mk.injEq, Option.some.injEq, Catalog.mk.injEq, true_and]
    omega

/-- After `n` attempts to create a table that exists, another table gets id 513 + n. -/
theorem sample_ids (n : Nat) :
    let ops := [EngineOp.begin, sampleCreate "a"] ++ List.replicate n (sampleCreate "a") ++
      [sampleCreate "b"]
    (∀ op ∈ ops, SmallOp sampleEngine op) ∧
    replyAfter sampleEngine ops (.openTable ⟨28, 33, sampleId "a"⟩) =
      .table (.ok ⟨⟨28, 33, sampleId "a"⟩, ⟨1#32, [sampleId "c"], [numberColumn], [1#32]⟩, 512#32⟩) ∧
    replyAfter sampleEngine ops (.openTable ⟨28, 33, sampleId "b"⟩) =
      .table (.ok ⟨⟨28, 33, sampleId "b"⟩, ⟨1#32, [sampleId "c"], [numberColumn], [1#32]⟩,
        BitVec.ofNat 32 (513 + n)⟩) := by
  intro ops
  have ha : SmallOp sampleEngine (sampleCreate "a") := sampleCreate_small (by decide +kernel)
  have hb : SmallOp sampleEngine (sampleCreate "b") := sampleCreate_small (by decide +kernel)
  have hsmall : ∀ op ∈ ops, SmallOp sampleEngine op := by
    intro op hop
    simp only [ops, List.mem_append, List.mem_cons, List.not_mem_nil, or_false,
      List.mem_replicate] at hop
    rcases hop with ((rfl | rfl) | ⟨_, rfl⟩) | rfl
    · trivial
    · exact ha
    · exact ha
    · exact hb
  have hname : ∀ s : String, (ascii s).length ≤ 128 → sampleEngine.name (sampleId s) = ascii s :=
    fun s h => sampleEngine.name_ident _ h
  have na := hname "a" (by decide)
  have nb := hname "b" (by decide)
  have n28 : sampleEngine.name 28 = ascii "maho" := by decide +kernel
  have n33 : sampleEngine.name 33 = ascii "public" := by decide +kernel
  let c1 : Catalog := { Catalog.initial sampleEngine with
    tables := ⟨ascii "maho", ascii "public", ascii "a", 512,
      ⟨1#32, [sampleId "c"], [numberColumn], [1#32]⟩⟩ :: (Catalog.initial sampleEngine).tables
    next := 513 }
  let c2 : Catalog := { c1 with
    tables := ⟨ascii "maho", ascii "public", ascii "b", 513 + n,
      ⟨1#32, [sampleId "c"], [numberColumn], [1#32]⟩⟩ :: c1.tables
    next := 513 + n + 1 }
  have hpub : (ascii "maho", ascii "public") ∈ (Catalog.initial sampleEngine).schemas := by decide
  have hfree : ∀ s : Bytes, ((Catalog.initial sampleEngine).find (ascii "maho") s (ascii "a")).isSome =
      false := by
    intro s
    have : (ascii "system" == ascii "maho") = false := by decide
    simp [Catalog.find, Catalog.initial, systemTables, CatalogTable.named, this]
  have hfreeb : ∀ s : Bytes, ((Catalog.initial sampleEngine).find (ascii "maho") s (ascii "b")).isSome =
      false := by
    intro s
    have : (ascii "system" == ascii "maho") = false := by decide
    simp [Catalog.find, Catalog.initial, systemTables, CatalogTable.named, this]
  have hab : (ascii "a" == ascii "b") = false := by decide
  have h1 : catalogAfter sampleEngine [.begin, sampleCreate "a"] =
      ⟨Catalog.initial sampleEngine, some c1⟩ := by
    simp only [catalogAfter, catalogRun, catalogStep, CatalogState.write, sampleCreate,
      Catalog.createTable, n28, n33, na, hpub, hfree, not_true, if_false, Bool.false_eq_true]
    rfl
  have h2 : catalogAfter sampleEngine ops = ⟨Catalog.initial sampleEngine, some c2⟩ := by
    simp only [ops]
    rw [catalogAfter_snoc]
    have : catalogAfter sampleEngine ([EngineOp.begin, sampleCreate "a"] ++
        List.replicate n (sampleCreate "a")) =
        ⟨Catalog.initial sampleEngine, some { c1 with next := 513 + n }⟩ := by
      have h1' := h1
      unfold catalogAfter at h1' ⊢
      rw [catalogRun_append, h1']
      refine create_again (c := c1) (tn := ⟨28, 33, sampleId "a"⟩) ?_ ?_ n
      · simp only [n28, n33]; exact hpub
      · simp only [n28, n33, na]
        simp [Catalog.find, c1, CatalogTable.named]
    rw [this]
    simp only [catalogStep, CatalogState.write, sampleCreate, Catalog.createTable, n28, n33, nb]
    have hno : ({ c1 with next := 513 + n } : Catalog).find (ascii "maho") (ascii "public")
        (ascii "b") = none := by
      have := hfreeb (ascii "public")
      simp only [Catalog.find, c1, List.find?_cons, CatalogTable.named, hab, Bool.and_false] at this ⊢
      simpa using this
    have hp1 : (ascii "maho", ascii "public") ∈ ({ c1 with next := 513 + n } : Catalog).schemas := hpub
    rw [hno]
    simp only [hp1, not_true, if_false, Option.isSome_none, Bool.false_eq_true]
    rfl
  have hst : sampleEngine.storedId (sampleId "c") = sampleId "c" := by decide +kernel
  refine ⟨hsmall, ?_, ?_⟩
  · have hop : SmallOp sampleEngine (.openTable ⟨28, 33, sampleId "a"⟩) := ha.1
    rw [reply_after sampleEngine_fits hsmall hop, h2]
    simp only [catalogStep, CatalogState.read, n28, n33, na]
    have : c2.find (ascii "maho") (ascii "public") (ascii "a") = some ⟨ascii "maho",
        ascii "public", ascii "a", 512, ⟨1#32, [sampleId "c"], [numberColumn], [1#32]⟩⟩ := by
      have hba : (ascii "b" == ascii "a") = false := by decide
      simp [Catalog.find, c2, c1, CatalogTable.named, hba]
    rw [this]
    simp [Definition.mapIds, hst]
  · have hop : SmallOp sampleEngine (.openTable ⟨28, 33, sampleId "b"⟩) := hb.1
    rw [reply_after sampleEngine_fits hsmall hop, h2]
    simp only [catalogStep, CatalogState.read, n28, n33, nb]
    have : c2.find (ascii "maho") (ascii "public") (ascii "b") = some ⟨ascii "maho",
        ascii "public", ascii "b", 513 + n, ⟨1#32, [sampleId "c"], [numberColumn], [1#32]⟩⟩ := by
      simp [Catalog.find, c2, CatalogTable.named]
    rw [this]
    simp [Definition.mapIds, hst]

/-- C49 in full fails: ids are kept as 64-bit numbers but used as 32-bit numbers, and failed
attempts use up ids, so after 2^32 attempts two tables share an id. -/
theorem C49_ids_wrap : ∃ ops : List EngineOp, (∀ op ∈ ops, SmallOp sampleEngine op) ∧
    ∃ tn₁ tn₂ tbl₁ tbl₂, replyAfter sampleEngine ops (.openTable tn₁) = .table (.ok tbl₁) ∧
      replyAfter sampleEngine ops (.openTable tn₂) = .table (.ok tbl₂) ∧
      sampleEngine.name tn₁.table ≠ sampleEngine.name tn₂.table ∧ tbl₁.tid = tbl₂.tid := by
  obtain ⟨n, hn⟩ : ∃ n, BitVec.ofNat 32 (513 + n) = 512#32 := ⟨4294967295, by decide⟩
  obtain ⟨h1, h2, h3⟩ := sample_ids n
  refine ⟨_, h1, _, _, _, _, h2, h3, by decide +kernel, hn.symm⟩

/-! ### C50 -/

/-- What is left of C50: the dropped database or schema itself is gone, so that dropping it again
fails and, for a schema, the listing does not contain it. The containment half of C50 fails, see the
theorems below. -/
theorem C50_dropped_name_partial (env : EngineEnv) (hf : SystemFits env) (ops : List EngineOp)
    (hs : ∀ op ∈ ops, SmallOp env op) :
    (∀ dn ie, Short env dn → replyAfter env ops (.dropDatabase dn ie) = .done (.ok ()) →
      replyAfter env (ops ++ [.dropDatabase dn ie]) (.dropDatabase dn false) =
        .done (.err .other)) ∧
    (∀ sn ie, SmallOp env (.dropSchema sn ie) →
      replyAfter env ops (.dropSchema sn ie) = .done (.ok ()) →
      replyAfter env (ops ++ [.dropSchema sn ie]) (.dropSchema sn false) = .done (.err .other) ∧
      ∀ cn ct p tbl, SmallOp env (.createTable ⟨sn.database, sn.schema, tbl⟩ cn ct p) →
        replyAfter env (ops ++ [.dropSchema sn ie])
          (.createTable ⟨sn.database, sn.schema, tbl⟩ cn ct p) = .done (.err .other)) := by
  constructor
  · intro dn ie hd h
    rw [reply_after hf hs (op := .dropDatabase dn ie) hd] at h
    rw [reply_after hf (smallOps_snoc hs (op := .dropDatabase dn ie) hd)
      (op := .dropDatabase dn false) hd, catalogAfter_snoc]
    generalize catalogAfter env ops = cs at h ⊢
    obtain ⟨c, ca⟩ := cs
    cases ca with
    | some c' => simp [catalogStep, CatalogState.auto] at h
    | none =>
      simp only [catalogStep, CatalogState.auto, Catalog.dropDatabase] at h ⊢
      by_cases hm : env.name dn ∈ c.databases
      · simp [hm, outcome]
      · cases ie <;> simp [hm, outcome]
  · intro sn ie hsm h
    rw [reply_after hf hs hsm] at h
    have key : ∃ c0 c, catalogAfter env (ops ++ [.dropSchema sn ie]) = ⟨c0, some c⟩ ∧
        (env.name sn.database, env.name sn.schema) ∉ c.schemas := by
      rw [catalogAfter_snoc]
      generalize catalogAfter env ops = cs at h ⊢
      obtain ⟨c0, ca⟩ := cs
      cases ca with
      | none => simp [catalogStep, CatalogState.write] at h
      | some c =>
        refine ⟨c0, (c.dropSchema (env.name sn.database) (env.name sn.schema) ie).2, rfl, ?_⟩
        unfold Catalog.dropSchema
        split
        · simp
        · assumption
    obtain ⟨c0, c, hcat, hno⟩ := key
    constructor
    · rw [reply_after hf (smallOps_snoc hs hsm) (op := .dropSchema sn false) hsm, hcat]
      simp [catalogStep, CatalogState.write, Catalog.dropSchema, hno, outcome]
    · intro cn ct p tbl hct
      rw [reply_after hf (smallOps_snoc hs hsm) hct, hcat]
      simp [catalogStep, CatalogState.write, Catalog.createTable, hno, outcome]

example : replyAfter sampleEngine [] (.dropDatabase 28 false) = .done (.ok ()) ∧
    replyAfter sampleEngine [.begin] (.dropSchema ⟨28, 33⟩ false) = .done (.ok ()) := by
  decide +kernel

/-- C50 fails for databases: after dropping a database its schemas are still there, and its tables
can still be opened and created. Here for the database maho with a table. -/
theorem C50_database_contents_stay :
    let ops := [EngineOp.begin, sampleCreate "t", .commit, .dropDatabase 28 false]
    (engineRun sampleEngine (EngineState.initial sampleEngine) ops).1 =
      [.done (.ok ()), .done (.ok ()), .done (.ok ()), .done (.ok ())] ∧
    (∃ tbl, replyAfter sampleEngine (ops ++ [.begin]) (.openTable ⟨28, 33, sampleId "t"⟩) =
      .table (.ok tbl)) ∧
    replyAfter sampleEngine (ops ++ [.begin]) (sampleCreate "u") = .done (.ok ()) ∧
    replyAfter sampleEngine (ops ++ [.createDatabase 28 0, .begin]) (.listSchemas 28) =
      .ids (.ok [33]) := by
  refine ⟨by decide +kernel, ⟨⟨⟨28, 33, sampleId "t"⟩, ⟨1#32, [sampleId "c"], [numberColumn],
    [1#32]⟩, 512#32⟩, by decide +kernel⟩, by decide +kernel, by decide +kernel⟩

/-- C50 fails for schemas: the tables of a dropped schema can still be opened. -/
theorem C50_schema_contents_stay :
    let ops := [EngineOp.begin, sampleCreate "t", .dropSchema ⟨28, 33⟩ false]
    (engineRun sampleEngine (EngineState.initial sampleEngine) ops).1 =
      [.done (.ok ()), .done (.ok ()), .done (.ok ())] ∧
    ∃ tbl, replyAfter sampleEngine ops (.openTable ⟨28, 33, sampleId "t"⟩) = .table (.ok tbl) := by
  refine ⟨by decide +kernel, ⟨⟨⟨28, 33, sampleId "t"⟩, ⟨1#32, [sampleId "c"], [numberColumn],
    [1#32]⟩, 512#32⟩, by decide +kernel⟩⟩

/-- C50 fails for tables: `DropTable` reports success in every state, also if the transaction is
completed, and never changes the reply to any later operation. -/
theorem C50_table_stays (env : EngineEnv) (ops : List EngineOp) (tn : TableName) :
    replyAfter env ops (.dropTable tn) = .done (.ok ()) ∧
    ∀ op, replyAfter env (ops ++ [.dropTable tn]) op = replyAfter env ops op := by
  have hst : engineStep env (stateAfter env ops) (.dropTable tn) =
      (.done (.ok ()), stateAfter env ops) := rfl
  refine ⟨by unfold replyAfter; rw [hst], fun op => ?_⟩
  unfold replyAfter
  rw [stateAfter_snoc, hst]

/-! ### C51 -/

theorem makeTypedInfo_ok {env : EngineEnv} {tid : TableId} {tn : TableName} {typ : List Field}
    {ti : TypedInfo} (h : makeTypedInfo env tid tn typ = .ok ti) :
    ti.typ = typ ∧ All2 FieldColumn typ ti.colTypes ∧ ∀ ck ∈ ti.key, ∃ i, i < typ.length ∧
      ck = makeColumnKey (BitVec.ofNat 32 i) false := by
  unfold makeTypedInfo at h
  obtain ⟨⟨names, cts, key⟩, h1, h⟩ := res_bind_ok.1 h
  simp only [Res.ok.injEq] at h
  subst h
  obtain ⟨h2, h3⟩ := typedFields_columns h1
  refine ⟨rfl, h2, ?_⟩
  intro ck hck
  have : ck ∈ key := by
    simp only [TypedInfo.key] at hck
    split at hck
    · simp at hck
    · simpa using hck
  obtain ⟨i, -, b, c⟩ := h3 ck this
  exact ⟨i, by omega, c⟩

/-- C51: whatever the struct type, a row that was made from a struct fits the columns of the
table, and reading it gives back the same struct exactly if all fields are exported and all
pointers that are not nil are to bool, string, float64 or int64. Nil and empty slices are not told
apart in columns that are not null. The property claims it for all structs: see the theorems below
for the others. -/
theorem C51_round_trip_partial (env : EngineEnv) (tid : TableId) (tn : TableName)
    (typ : List Field) (ti : TypedInfo) (hti : makeTypedInfo env tid tn typ = .ok ti) (st : Struct)
    (hst : st.typ = typ) (hv : Struct.Valid env st) (row : Row) (hrow : ti.structToRow st = .ok row) :
    FitsRow ti.colTypes row ∧
      ((∃ st', ti.rowToStruct env row = .ok st' ∧ SameStruct ti st st') ↔
        RecoverableStruct st) := by
  obtain ⟨h1, h2, -⟩ := makeTypedInfo_ok hti
  obtain ⟨sty, vals⟩ := st
  simp only at hst
  subst hst
  unfold TypedInfo.structToRow at hrow
  rw [if_neg (by simp [h1])] at hrow
  obtain ⟨h3, h4⟩ := fields_round h2 hv hrow
  refine ⟨h3, ?_⟩
  unfold RecoverableStruct
  rw [← h4]
  unfold TypedInfo.rowToStruct
  rw [h1]
  constructor
  · rintro ⟨st', h, hs⟩
    obtain ⟨vs, h5, h6⟩ := res_bind_ok.1 h
    simp only [Res.ok.injEq] at h6
    subst h6
    exact ⟨vs, h5, hs.2⟩
  · rintro ⟨ws, h, hs⟩
    exact ⟨⟨sty, ws⟩, by rw [h]; rfl, rfl, hs⟩

theorem column_make {i : Nat} (h : i < 2 ^ 31 - 1) :
    (ColumnKey.column (makeColumnKey (BitVec.ofNat 32 i) false)).toNat = i := by
  unfold ColumnKey.column makeColumnKey
  simp only [Bool.false_eq_true, if_false]
  have hs : (BitVec.ofNat 32 i + 1#32).slt 0#32 = false := by
    rw [BitVec.slt_eq_decide]
    simp only [decide_eq_false_iff_not, Int.not_lt]
    rw [BitVec.toInt_eq_toNat_cond, BitVec.toInt_eq_toNat_cond]
    simp only [BitVec.toNat_add, BitVec.toNat_ofNat]
    have h2 : (i % 2 ^ 32 + 1 % 2 ^ 32) % 2 ^ 32 = i + 1 := by omega
    rw [h2]
    simp
    split <;> omega
  rw [hs]
  simp only [Bool.false_eq_true, if_false]
  rw [show BitVec.ofNat 32 i + 1#32 - 1#32 = BitVec.ofNat 32 i from BitVec.add_sub_cancel _ _]
  rw [BitVec.toNat_ofNat]
  omega

/-- C51 through the store: inserting a struct in its table and looking it up gives the same
struct back, under the same conditions. -/
theorem C51_insert_lookup_partial (env : EngineEnv) (tid : TableId) (tn : TableName)
    (typ : List Field) (hlen : typ.length < 2 ^ 31) (ti : TypedInfo)
    (hti : makeTypedInfo env tid tn typ = .ok ti) (st : Struct)
    (hst : st.typ = typ) (hv : Struct.Valid env st) (hr : RecoverableStruct st)
    (t t' : Tree) (ht : TypedOk env ti t) (hins : typedInsert env t ti [st] = (.ok (), t')) :
    ∃ st', typedLookup env t' ti st = .ok st' ∧ SameStruct ti st st' := by
  obtain ⟨h1, h2, h3⟩ := makeTypedInfo_ok hti
  cases hrow : ti.structToRow st with
  | panic => rw [typedInsert_panic ht hrow] at hins; simp at hins
  | err e =>
    exfalso
    unfold typedInsert at hins
    rw [ht.openTyped] at hins
    simp [TypedInfo.structsToRows, hrow] at hins
  | ok row =>
    obtain ⟨h4, h5⟩ := C51_round_trip_partial env tid tn typ ti hti st hst hv row hrow
    have hcol : HasColumns (keyCols ti.key) row := by
      intro kc hkc
      simp only [keyCols, List.mem_map] at hkc
      obtain ⟨ck, hck, rfl⟩ := hkc
      obtain ⟨i, hi, rfl⟩ := h3 ck hck
      simp only
      rw [column_make (by omega), h4.1, ← (all2_get h2).1]
      exact hi
    rcases typedInsert_one ht hrow h4 hcol with ⟨_, h⟩ | ⟨_, t'', h, hok, _, hrows⟩
    · rw [h] at hins; simp at hins
    · rw [h] at hins
      simp only [Prod.mk.injEq, true_and] at hins
      subst hins
      have hself : rowOrder (keyCols ti.key) row row = .eq := rowOrder_eq_key.2 rfl
      have hin : row ∈ rowsOf t'' ti.tid := (hrows row).2 (.inl rfl)
      rcases typedLookup_eq hok hrow hcol with ⟨r, hr1, hr2, hr3⟩ | ⟨hn, _⟩
      · have : row = r := hok.unique hin hr1 hr2
        subst this
        rw [hr3]
        exact h5.2 hr
      · exact absurd hself (hn row hin)

/-- A struct type with all kinds of fields. -/
def sampleFields : List Field :=
  [⟨ascii "Id", ascii "primary", false, .int32⟩, ⟨ascii "Flag", [], false, .bool⟩,
   ⟨ascii "Name", ascii "size=10,name=title", true, .string⟩, ⟨ascii "Data", ascii "size=4", false, .bytes⟩,
   ⟨ascii "Weight", [], true, .float64⟩]

/-- A struct of this type. -/
def sampleStruct : Struct :=
  ⟨sampleFields, [.plain (.int (-5)), .plain (.bool true), .pointer (some (.str (ascii "abc"))),
    .slice none, .pointer none]⟩

example : ∃ ti row, makeTypedInfo sampleEngine 600#32 ⟨28, 33, 1000⟩ sampleFields = .ok ti ∧
    Struct.Valid sampleEngine sampleStruct ∧ RecoverableStruct sampleStruct ∧
    ti.structToRow sampleStruct = .ok row := by
  refine ⟨infoOf (makeTypedInfo sampleEngine 600#32 ⟨28, 33, 1000⟩ sampleFields),
    [some (.int (-5)), some (.bool true), some (.str (ascii "abc")), none, none],
    by decide +kernel, ?_, ?_, by decide +kernel⟩
  · refine .cons ⟨rfl, (by decide : -2 ^ 31 ≤ (-5 : BitVec 64).toInt ∧ (-5 : BitVec 64).toInt < 2 ^ 31)⟩
      (.cons ⟨rfl, trivial⟩ (.cons ⟨rfl, trivial⟩ (.cons ⟨rfl, rfl⟩
      (.cons rfl .nil))))
  · intro i fld v h1 h3
    rcases i with _ | _ | _ | _ | _ | i <;>
      simp [sampleStruct, sampleFields] at h1 h3 <;> subst h1 <;> subst h3 <;>
      simp [Recoverable, FieldExported, ascii]

/-- C51 fails for pointers to the other integer types: the row is written but
reading it panics. -/
theorem C51_int_pointer_panics : ∀ kind ∈ [Kind.int, .int8, .int16, .int32],
    let typ := [(⟨ascii "Id", ascii "primary", false, .int64⟩ : Field), ⟨ascii "Count", [], true, kind⟩]
    ∃ ti row, makeTypedInfo sampleEngine 600#32 ⟨28, 33, 1000⟩ typ = .ok ti ∧
      ti.structToRow ⟨typ, [.plain (.int 1), .pointer (some (.int 7))]⟩ = .ok row ∧
      ti.rowToStruct sampleEngine row = .panic := by
  intro kind hk typ
  refine ⟨infoOf (makeTypedInfo sampleEngine 600#32 ⟨28, 33, 1000⟩ typ),
    [some (.int 1), some (.int 7)], ?_⟩
  simp only [List.mem_cons, List.not_mem_nil, or_false] at hk
  rcases hk with rfl | rfl | rfl | rfl <;> decide +kernel

/-- C51 fails for pointers to float32 in the same way. -/
theorem C51_float32_pointer_panics :
    let typ := [(⟨ascii "Id", ascii "primary", false, .int64⟩ : Field), ⟨ascii "W", [], true, .float32⟩]
    ∃ ti row, makeTypedInfo sampleEngine 600#32 ⟨28, 33, 1000⟩ typ = .ok ti ∧
      ti.structToRow ⟨typ, [.plain (.int 1), .pointer (some (.float 0))]⟩ = .ok row ∧
      ti.rowToStruct sampleEngine row = .panic := by
  intro typ
  exact ⟨infoOf (makeTypedInfo sampleEngine 600#32 ⟨28, 33, 1000⟩ typ),
    [some (.int 1), some (.float 0)], by decide +kernel⟩

/-- C51 fails for fields that are not exported, which the `name` tag lets a struct have: the row
is written but reading it panics. -/
theorem C51_unexported_panics :
    let typ := [(⟨ascii "id", ascii "name=id,primary", false, .int64⟩ : Field)]
    ∃ ti row, makeTypedInfo sampleEngine 600#32 ⟨28, 33, 1000⟩ typ = .ok ti ∧
      ti.structToRow ⟨typ, [.plain (.int 1)]⟩ = .ok row ∧
      ti.rowToStruct sampleEngine row = .panic := by
  intro typ
  exact ⟨infoOf (makeTypedInfo sampleEngine 600#32 ⟨28, 33, 1000⟩ typ), [some (.int 1)],
    by decide +kernel⟩

end Maho
