import Verif.Props.Engine
import Verif.Lemmas.Listing
/-
Property C70: what exists is listed and found.
-/
namespace Maho
open Spec

/-- C70: after every history, what the replies say exists is what is listed and found: a database
exists if it was created successfully (or is one of the two of a new system) and was not dropped
successfully since, a schema or a table the same, where what a transaction did counts in it and
after its COMMIT. Outside of transactions `ListDatabases` lists exactly the databases that exist,
each once, in ascending order. In a transaction `ListSchemas` is refused exactly for databases that
do not exist and lists exactly the schemas that exist in the database, and `OpenTable` succeeds
exactly for the tables that exist if no table was dropped. Missing: names of more than 128 bytes
and definitions of more than 8192 encoded bytes (`C46_long_name_panics`), dropped tables
(`C50_table_stays`) and the listing of tables (`C70_tables_not_listed`). -/
theorem C70_listed_partial (env : EngineEnv) (hf : SystemFits env) (ops : List EngineOp)
    (hs : ∀ op ∈ ops, SmallOp env op) :
    ((stateAfter env ops).active = none → ∃ names : List Bytes,
      names.Pairwise (fun a b => bytesCompare a b = .lt) ∧
      (∀ d, d ∈ names ↔ (Named.database d).exists env (historyOf env ops) = true) ∧
      replyAfter env ops .listDatabases = .ids (.ok (names.map env.ident))) ∧
    ((stateAfter env ops).active ≠ none → ∀ dn, Short env dn →
      if (Named.database (env.name dn)).exists env (historyOf env ops) = true then
        ∃ names : List Bytes,
          names.Pairwise (fun a b => bytesCompare a b = .lt) ∧
          (∀ s, s ∈ names ↔ (Named.schema (env.name dn) s).exists env (historyOf env ops) = true) ∧
          replyAfter env ops (.listSchemas dn) = .ids (.ok (names.map env.ident))
      else replyAfter env ops (.listSchemas dn) = .ids (.err .other)) ∧
    ((stateAfter env ops).active ≠ none → (∀ tn, EngineOp.dropTable tn ∉ ops) → ∀ tn : TableName,
      Short env tn.database → Short env tn.schema → Short env tn.table →
      ((∃ tbl, replyAfter env ops (.openTable tn) = .table (.ok tbl)) ↔
        (Named.table (env.name tn.database) (env.name tn.schema) (env.name tn.table)).exists env
          (historyOf env ops) = true)) := by
  refine ⟨?_, ?_, ?_⟩
  · intro hidle
    have hci := catalog_idle hf hs hidle
    refine ⟨sortNames (catalogAfter env ops).committed.databases, sortNames_sorted _, ?_, ?_⟩
    · intro d
      rw [agrees_after hf hs _ (.inr (by simp)), hci, mem_sortNames]
      simp [Catalog.has]
    · rw [reply_after hf hs (op := .listDatabases) trivial]
      simp only [catalogStep, hci]
  · intro hopen dn hd
    obtain ⟨c0, c, hcat⟩ := catalog_open hf hs hopen
    have hr := reply_after hf hs (op := .listSchemas dn) hd
    rw [agrees_after hf hs _ (.inr (by simp)), hcat]
    rw [hcat] at hr
    simp only [catalogStep, CatalogState.read] at hr
    simp only [Option.getD_some, Catalog.has, decide_eq_true_eq]
    split
    · next hm =>
      rw [if_pos hm] at hr
      refine ⟨c.schemasOf (env.name dn), sortNames_sorted _, ?_, hr⟩
      intro s
      rw [agrees_after hf hs _ (.inr (by simp)), hcat, mem_schemasOf]
      simp [Catalog.has]
    · next hm => rw [if_neg hm] at hr; exact hr
  · intro hopen hn tn h1 h2 h3
    obtain ⟨c0, c, hcat⟩ := catalog_open hf hs hopen
    have hr := reply_after hf hs (op := .openTable tn) ⟨h1, h2, h3⟩
    rw [hcat] at hr
    rw [agrees_after hf hs _ (.inl fun op ho => by
      cases op <;> first | trivial | exact (hn _ ho).elim), hcat, hr]
    simp only [catalogStep, CatalogState.read, Option.getD_some, Catalog.has]
    cases c.find (env.name tn.database) (env.name tn.schema) (env.name tn.table) <;> simp

/-- C70 fails for tables: `ListTables` returns no tables, whatever exists. -/
theorem C70_tables_not_listed (env : EngineEnv) (ops : List EngineOp) (sn : SchemaName) :
    replyAfter env ops (.listTables sn) = .ids (.ok []) := rfl

example : (∀ op ∈ [EngineOp.createDatabase (sampleId "db") 0, .begin,
    .createSchema ⟨sampleId "db", sampleId "s"⟩, .dropSchema ⟨28, 33⟩ false],
      SmallOp sampleEngine op) ∧
    (∀ tn, EngineOp.dropTable tn ∉ [EngineOp.createDatabase (sampleId "db") 0, .begin,
      .createSchema ⟨sampleId "db", sampleId "s"⟩, .dropSchema ⟨28, 33⟩ false]) ∧
    (stateAfter sampleEngine [.createDatabase (sampleId "db") 0, .begin,
      .createSchema ⟨sampleId "db", sampleId "s"⟩, .dropSchema ⟨28, 33⟩ false]).active ≠ none := by
  refine ⟨?_, by simp, by decide +kernel⟩
  intro op h
  simp only [List.mem_cons, List.not_mem_nil, or_false] at h
  rcases h with rfl | rfl | rfl | rfl <;> simp only [SmallOp, Short] <;> decide +kernel

example : (Named.schema (ascii "db") (ascii "s")).exists sampleEngine (historyOf sampleEngine
      [.createDatabase (sampleId "db") 0, .begin, .createSchema ⟨sampleId "db", sampleId "s"⟩,
        .dropSchema ⟨28, 33⟩ false]) = true ∧
    (Named.schema (ascii "db") (ascii "s")).exists sampleEngine (historyOf sampleEngine
      [.createDatabase (sampleId "db") 0, .begin, .createSchema ⟨sampleId "db", sampleId "s"⟩,
        .rollback]) = false ∧
    (Named.schema (ascii "maho") (ascii "public")).exists sampleEngine (historyOf sampleEngine
      [.begin, .dropSchema ⟨28, 33⟩ false, .commit]) = false := by decide +kernel

/-- A table that exists and is not listed. -/
example : replyAfter sampleEngine [.begin] (sampleCreate "t") = .done (.ok ()) ∧
    replyAfter sampleEngine [.begin, sampleCreate "t"] (.listTables ⟨28, 33⟩) = .ids (.ok []) ∧
    (Named.table (ascii "maho") (ascii "public") (ascii "t")).exists sampleEngine
      (historyOf sampleEngine [.begin, sampleCreate "t"]) = true := by decide +kernel

end Maho
