import Verif.Lemmas.Typed
/-
The tree of a transaction represents a catalog, and the operations of the engine are the
operations on catalogs.
-/
namespace Maho
open Spec

/-! ### The system tables -/

theorem sequencesInfo_eq (env : EngineEnv) : sequencesInfo env =
    ⟨sequencesFields, 16#32, ⟨41, 22, 38⟩, [env.ident (ascii "sequence"), env.ident (ascii "current")],
      [nameColumn, numberColumn], some [1#32], [ascii "Sequence", ascii "Current"]⟩ := rfl

theorem databasesInfo_eq (env : EngineEnv) : databasesInfo env =
    ⟨databasesFields, 17#32, ⟨41, 22, 16⟩, [env.ident (ascii "database")], [nameColumn],
      some [1#32], [ascii "Database"]⟩ := rfl

theorem schemasInfo_eq (env : EngineEnv) : schemasInfo env =
    ⟨schemasFields, 18#32, ⟨41, 22, 37⟩, [env.ident (ascii "database"), env.ident (ascii "schema")],
      [nameColumn, nameColumn], some [1#32, 2#32], [ascii "Database", ascii "Schema"]⟩ := rfl

theorem tablesInfo_eq (env : EngineEnv) : tablesInfo env =
    ⟨tablesFields, 19#32, ⟨41, 22, 42⟩, [env.ident (ascii "database"), env.ident (ascii "schema"),
      env.ident (ascii "table"), env.ident (ascii "table_id"), env.ident (ascii "type")],
      [nameColumn, nameColumn, nameColumn, numberColumn, ⟨.bytes, 8192#32, false, true⟩],
      some [1#32, 2#32, 3#32], tablesFields.map (·.name)⟩ := rfl

theorem key1 : keyCols [1#32] = [(0, false)] := by decide
theorem key2 : keyCols [1#32, 2#32] = [(0, false), (1, false)] := by decide
theorem key3 : keyCols [1#32, 2#32, 3#32] = [(0, false), (1, false), (2, false)] := by decide

theorem seqKey (env : EngineEnv) : keyCols (sequencesInfo env).key = [(0, false)] := key1
theorem dbKey (env : EngineEnv) : keyCols (databasesInfo env).key = [(0, false)] := key1
theorem schKey (env : EngineEnv) : keyCols (schemasInfo env).key = [(0, false), (1, false)] := key2
theorem tblKey (env : EngineEnv) :
    keyCols (tablesInfo env).key = [(0, false), (1, false), (2, false)] := key3

/-! ### Rows -/

def seqRow (n : Nat) : Row := [some (.str nextTableIdSequence), some (.int (BitVec.ofNat 64 n))]
def dbRow (d : Bytes) : Row := [some (.str d)]
def schRow (p : Bytes × Bytes) : Row := [some (.str p.1), some (.str p.2)]
def tblRow (env : EngineEnv) (e : CatalogTable) : Row :=
  [some (.str e.database), some (.str e.schema), some (.str e.table),
    some (.int (BitVec.ofNat 64 e.id)), some (.bytes (env.encodeDef e.definition))]

theorem dbRow_order (env : EngineEnv) (a b : Bytes) :
    rowOrder (keyCols (databasesInfo env).key) (dbRow a) (dbRow b) = .eq ↔ a = b := by
  rw [dbKey, rowOrder_eq_iff]
  simp [dbRow, SameKeyValue]

theorem schRow_order (env : EngineEnv) (a b : Bytes × Bytes) :
    rowOrder (keyCols (schemasInfo env).key) (schRow a) (schRow b) = .eq ↔ a = b := by
  rw [schKey, rowOrder_eq_iff]
  simp [schRow, SameKeyValue, Prod.ext_iff]

theorem tblRow_order (env : EngineEnv) (d s n : Bytes) (x y : Option Value) (e : CatalogTable) :
    rowOrder (keyCols (tablesInfo env).key) [some (.str d), some (.str s), some (.str n), x, y]
      (tblRow env e) = .eq ↔ e.named d s n = true := by
  rw [tblKey, rowOrder_eq_iff]
  simp only [tblRow, SameKeyValue, CatalogTable.named, Bool.and_eq_true, beq_iff_eq, and_assoc]
  simp [@eq_comm _ d, @eq_comm _ s, @eq_comm _ n]

/-- The tree represents the catalog. -/
structure Rep (env : EngineEnv) (t : Tree) (c : Catalog) : Prop where
  seqs : TypedOk env (sequencesInfo env) t
  dbs : TypedOk env (databasesInfo env) t
  schs : TypedOk env (schemasInfo env) t
  tbls : TypedOk env (tablesInfo env) t
  seqRows : ∀ r, r ∈ rowsOf t 16#32 ↔ r = seqRow c.next
  dbRows : ∀ r, r ∈ rowsOf t 17#32 ↔ ∃ d ∈ c.databases, r = dbRow d
  schRows : ∀ r, r ∈ rowsOf t 18#32 ↔ ∃ p ∈ c.schemas, r = schRow p
  tblRows : ∀ r, r ∈ rowsOf t 19#32 ↔ ∃ e ∈ c.tables, r = tblRow env e

/-! ### Structs and rows -/

theorem dbStruct (env : EngineEnv) {d : Bytes} (h : d.length ≤ 128) :
    (databasesInfo env).structToRow (databasesRow d) = .ok (dbRow d) := by
  simp [TypedInfo.structToRow, databasesInfo_eq, databasesRow, databasesFields, fieldsToRow, fieldToValue, nameColumn,
    scalarToValue, stringToValue, dbRow, Nat.not_lt.2 h]

theorem dbStruct_long (env : EngineEnv) {d : Bytes} (h : 128 < d.length) :
    (databasesInfo env).structToRow (databasesRow d) = .panic := by
  simp [TypedInfo.structToRow, databasesInfo_eq, databasesRow, databasesFields, fieldsToRow, fieldToValue, nameColumn,
    scalarToValue, stringToValue, h]

theorem schStruct (env : EngineEnv) {d s : Bytes} (h : d.length ≤ 128) (h2 : s.length ≤ 128) :
    (schemasInfo env).structToRow (schemasRow d s) = .ok (schRow (d, s)) := by
  simp [TypedInfo.structToRow, schemasInfo_eq, schemasRow, schemasFields, fieldsToRow, fieldToValue, nameColumn,
    scalarToValue, stringToValue, schRow, Nat.not_lt.2 h, Nat.not_lt.2 h2]

theorem tblStruct (env : EngineEnv) {d s n : Bytes} {i : BitVec 64} {b : Option Bytes}
    (h : d.length ≤ 128) (h2 : s.length ≤ 128)
    (h3 : n.length ≤ 128) (h4 : (b.getD []).length ≤ 8192) :
    (tablesInfo env).structToRow (tablesRow d s n i b) =
      .ok [some (.str d), some (.str s), some (.str n), some (.int i), some (.bytes (b.getD []))] := by
  simp [TypedInfo.structToRow, tablesInfo_eq, tablesRow, tablesFields, fieldsToRow, fieldToValue, nameColumn,
    scalarToValue, stringToValue, sliceToValue, numberColumn, Nat.not_lt.2 h, Nat.not_lt.2 h2, Nat.not_lt.2 h3,
    Nat.not_lt.2 h4]

theorem seqStruct (env : EngineEnv) (i : BitVec 64) :
    (sequencesInfo env).structToRow (sequencesRow nextTableIdSequence i) =
      .ok [some (.str nextTableIdSequence), some (.int i)] := by
  have : nextTableIdSequence.length ≤ 128 := by decide
  simp [TypedInfo.structToRow, sequencesInfo_eq, sequencesRow, sequencesFields, fieldsToRow, fieldToValue, nameColumn,
    scalarToValue, stringToValue, numberColumn, Nat.not_lt.2 this]

theorem dbBack (env : EngineEnv) (d : Bytes) :
    (databasesInfo env).rowToStruct env (dbRow d) = .ok (databasesRow d) := by
  simp [TypedInfo.rowToStruct, databasesInfo_eq, databasesFields, rowToFields, valueToField,
    Field.exported, isUpperByte, ascii,
    nameColumn, setPlain, dbRow, databasesRow]

theorem schBack (env : EngineEnv) (p : Bytes × Bytes) :
    (schemasInfo env).rowToStruct env (schRow p) = .ok (schemasRow p.1 p.2) := by
  simp [TypedInfo.rowToStruct, schemasInfo_eq, schemasFields, rowToFields, valueToField,
    Field.exported, isUpperByte, ascii,
    nameColumn, setPlain, schRow, schemasRow]

theorem tblBack (env : EngineEnv) (e : CatalogTable) :
    (tablesInfo env).rowToStruct env (tblRow env e) = .ok (tablesRow e.database e.schema e.table
      (BitVec.ofNat 64 e.id) (some (env.encodeDef e.definition))) := by
  simp [TypedInfo.rowToStruct, tablesInfo_eq, tablesFields, rowToFields, valueToField,
    Field.exported, isUpperByte, ascii,
    nameColumn, numberColumn, setPlain, setInt, tblRow, tablesRow]

theorem seqBack (env : EngineEnv) (n : Nat) :
    (sequencesInfo env).rowToStruct env (seqRow n) =
      .ok (sequencesRow nextTableIdSequence (BitVec.ofNat 64 n)) := by
  simp [TypedInfo.rowToStruct, sequencesInfo_eq, sequencesFields, rowToFields, valueToField,
    Field.exported, isUpperByte, ascii,
    nameColumn, numberColumn, setPlain, setInt, seqRow, sequencesRow]

/-! ### Lookups -/

theorem Rep.lookupDb {env : EngineEnv} {t : Tree} {c : Catalog} (h : Rep env t c) {d : Bytes}
    (hd : d.length ≤ 128) :
    typedLookup env t (databasesInfo env) (databasesRow d) =
      if d ∈ c.databases then .ok (databasesRow d) else .err .eof := by
  have hcol : HasColumns (keyCols (databasesInfo env).key) (dbRow d) := by
    rw [dbKey]; simp [HasColumns, dbRow]
  rcases typedLookup_eq h.dbs (dbStruct env hd) hcol with ⟨r, hr, he, hl⟩ | ⟨hn, hl⟩
  · obtain ⟨d', hd', rfl⟩ := (h.dbRows r).1 hr
    have := (dbRow_order env d d').1 he
    subst this
    rw [hl, dbBack, if_pos hd']
  · rw [hl, if_neg]
    intro hm
    exact hn (dbRow d) ((h.dbRows _).2 ⟨d, hm, rfl⟩) ((dbRow_order env d d).2 rfl)

theorem Rep.lookupSch {env : EngineEnv} {t : Tree} {c : Catalog} (h : Rep env t c) {d s : Bytes}
    (hd : d.length ≤ 128) (hs : s.length ≤ 128) :
    typedLookup env t (schemasInfo env) (schemasRow d s) =
      if (d, s) ∈ c.schemas then .ok (schemasRow d s) else .err .eof := by
  have hcol : HasColumns (keyCols (schemasInfo env).key) (schRow (d, s)) := by
    rw [schKey]; simp [HasColumns, schRow]
  rcases typedLookup_eq h.schs (schStruct env hd hs) hcol with ⟨r, hr, he, hl⟩ | ⟨hn, hl⟩
  · obtain ⟨p', hp', rfl⟩ := (h.schRows r).1 hr
    have := (schRow_order env (d, s) p').1 he
    subst this
    rw [hl, schBack, if_pos hp']
  · rw [hl, if_neg]
    intro hm
    exact hn (schRow (d, s)) ((h.schRows _).2 ⟨(d, s), hm, rfl⟩) ((schRow_order env _ _).2 rfl)

theorem Rep.lookupTbl {env : EngineEnv} {t : Tree} {c : Catalog} (h : Rep env t c) {d s n : Bytes}
    (hd : d.length ≤ 128) (hs : s.length ≤ 128) (hn : n.length ≤ 128) :
    typedLookup env t (tablesInfo env) (tablesRow d s n 0#64 none) =
      match c.find d s n with
      | none => .err .eof
      | some e => .ok (tablesRow d s n (BitVec.ofNat 64 e.id) (some (env.encodeDef e.definition))) := by
  have hcol : HasColumns (keyCols (tablesInfo env).key)
      [some (.str d), some (.str s), some (.str n), some (.int 0#64), some (.bytes [])] := by
    rw [tblKey]; simp [HasColumns]
  have hst := tblStruct env (i := 0#64) (b := none) hd hs hn (by simp)
  rcases typedLookup_eq h.tbls hst hcol with ⟨r, hr, he, hl⟩ | ⟨hno, hl⟩
  · obtain ⟨e, hmem, rfl⟩ := (h.tblRows r).1 hr
    have hnamed := (tblRow_order env d s n _ _ e).1 he
    cases hf : c.find d s n with
    | none =>
      have := List.find?_eq_none.1 hf e hmem
      exact absurd hnamed this
    | some e' =>
      have hn' : e'.named d s n = true :=
        List.find?_some (p := fun e : CatalogTable => e.named d s n) hf
      have hm' : e' ∈ c.tables := List.mem_of_find?_eq_some hf
      have heq : tblRow env e = tblRow env e' := by
        refine h.tbls.unique hr ((h.tblRows _).2 ⟨e', hm', rfl⟩) ?_
        refine (tblRow_order env _ _ _ _ _ e').2 ?_
        simp [CatalogTable.named] at hnamed hn' ⊢
        simp [hnamed, hn']
      rw [hl, heq, tblBack]
      simp [CatalogTable.named] at hn'
      simp [hn']
  · cases hf : c.find d s n with
    | none => rw [hl]
    | some e' =>
      have hn' : e'.named d s n = true :=
        List.find?_some (p := fun e : CatalogTable => e.named d s n) hf
      have hm' : e' ∈ c.tables := List.mem_of_find?_eq_some hf
      exact absurd ((tblRow_order env d s n _ _ e').2 hn')
        (hno _ ((h.tblRows _).2 ⟨e', hm', rfl⟩))

/-! ### Databases -/

theorem tid_ne {a b : TableId} (h : a.toNat ≠ b.toNat := by decide) : a ≠ b :=
  fun e => h (by rw [e])

theorem Rep.withDb {env : EngineEnv} {t t' : Tree} {c : Catalog} (h : Rep env t c)
    (hok : TypedOk env (databasesInfo env) t') (ho : OnlyIn (databasesInfo env) t t')
    {l : List Bytes} (hr : ∀ r, r ∈ rowsOf t' 17#32 ↔ ∃ d ∈ l, r = dbRow d) :
    Rep env t' { c with databases := l } where
  seqs := h.seqs.other ho hok.engine hok.sorted (show (17#32 : TableId) ≠ 16#32 by decide)
  dbs := hok
  schs := h.schs.other ho hok.engine hok.sorted (show (17#32 : TableId) ≠ 18#32 by decide)
  tbls := h.tbls.other ho hok.engine hok.sorted (show (17#32 : TableId) ≠ 19#32 by decide)
  seqRows := by rw [ho.rows (show (17#32 : TableId) ≠ 16#32 by decide)]; exact h.seqRows
  dbRows := hr
  schRows := by rw [ho.rows (show (17#32 : TableId) ≠ 18#32 by decide)]; exact h.schRows
  tblRows := by rw [ho.rows (show (17#32 : TableId) ≠ 19#32 by decide)]; exact h.tblRows

theorem Rep.withSch {env : EngineEnv} {t t' : Tree} {c : Catalog} (h : Rep env t c)
    (hok : TypedOk env (schemasInfo env) t') (ho : OnlyIn (schemasInfo env) t t')
    {l : List (Bytes × Bytes)} (hr : ∀ r, r ∈ rowsOf t' 18#32 ↔ ∃ p ∈ l, r = schRow p) :
    Rep env t' { c with schemas := l } where
  seqs := h.seqs.other ho hok.engine hok.sorted (show (18#32 : TableId) ≠ 16#32 by decide)
  dbs := h.dbs.other ho hok.engine hok.sorted (show (18#32 : TableId) ≠ 17#32 by decide)
  schs := hok
  tbls := h.tbls.other ho hok.engine hok.sorted (show (18#32 : TableId) ≠ 19#32 by decide)
  seqRows := by rw [ho.rows (show (18#32 : TableId) ≠ 16#32 by decide)]; exact h.seqRows
  dbRows := by rw [ho.rows (show (18#32 : TableId) ≠ 17#32 by decide)]; exact h.dbRows
  schRows := hr
  tblRows := by rw [ho.rows (show (18#32 : TableId) ≠ 19#32 by decide)]; exact h.tblRows

theorem Rep.withTbl {env : EngineEnv} {t t' : Tree} {c : Catalog} (h : Rep env t c)
    (hok : TypedOk env (tablesInfo env) t') (ho : OnlyIn (tablesInfo env) t t')
    {l : List CatalogTable} (hr : ∀ r, r ∈ rowsOf t' 19#32 ↔ ∃ e ∈ l, r = tblRow env e) :
    Rep env t' { c with tables := l } where
  seqs := h.seqs.other ho hok.engine hok.sorted (show (19#32 : TableId) ≠ 16#32 by decide)
  dbs := h.dbs.other ho hok.engine hok.sorted (show (19#32 : TableId) ≠ 17#32 by decide)
  schs := h.schs.other ho hok.engine hok.sorted (show (19#32 : TableId) ≠ 18#32 by decide)
  tbls := hok
  seqRows := by rw [ho.rows (show (19#32 : TableId) ≠ 16#32 by decide)]; exact h.seqRows
  dbRows := by rw [ho.rows (show (19#32 : TableId) ≠ 17#32 by decide)]; exact h.dbRows
  schRows := by rw [ho.rows (show (19#32 : TableId) ≠ 18#32 by decide)]; exact h.schRows
  tblRows := hr

theorem Rep.withSeq {env : EngineEnv} {t t' : Tree} {c : Catalog} (h : Rep env t c)
    (hok : TypedOk env (sequencesInfo env) t') (ho : OnlyIn (sequencesInfo env) t t')
    {n : Nat} (hr : ∀ r, r ∈ rowsOf t' 16#32 ↔ r = seqRow n) :
    Rep env t' { c with next := n } where
  seqs := hok
  dbs := h.dbs.other ho hok.engine hok.sorted (show (16#32 : TableId) ≠ 17#32 by decide)
  schs := h.schs.other ho hok.engine hok.sorted (show (16#32 : TableId) ≠ 18#32 by decide)
  tbls := h.tbls.other ho hok.engine hok.sorted (show (16#32 : TableId) ≠ 19#32 by decide)
  seqRows := hr
  dbRows := by rw [ho.rows (show (16#32 : TableId) ≠ 17#32 by decide)]; exact h.dbRows
  schRows := by rw [ho.rows (show (16#32 : TableId) ≠ 18#32 by decide)]; exact h.schRows
  tblRows := by rw [ho.rows (show (16#32 : TableId) ≠ 19#32 by decide)]; exact h.tblRows

theorem fits_name {s : Bytes} (h : s.length ≤ 128) : FitsColumn nameColumn (some (.str s)) :=
  ⟨by simp [HasType, nameColumn], h⟩

theorem fitsRow_nil : FitsRow [] [] := ⟨rfl, by intro i ct v h; simp at h⟩

theorem fitsRow_cons {ct : ColumnType} {v : Option Value} {cts : List ColumnType} {row : Row}
    (h : FitsColumn ct v) (hr : FitsRow cts row) : FitsRow (ct :: cts) (v :: row) := by
  refine ⟨by simp [hr.1], ?_⟩
  intro i ct' v' h1 h2
  cases i with
  | zero => simp at h1 h2; subst h1; subst h2; exact h
  | succ i => simp at h1 h2; exact hr.2 i ct' v' h1 h2

theorem fits_number (i : BitVec 64) : FitsColumn numberColumn (some (.int i)) := by
  refine ⟨by simp [HasType, numberColumn], ?_⟩
  have h1 := BitVec.le_toInt i
  have h2 := BitVec.toInt_lt (x := i)
  simp only [numberColumn]
  change -(2 ^ (8 * 8) : Int) ≤ 2 * i.toInt ∧ 2 * i.toInt < 2 ^ (8 * 8)
  simp at h1 h2 ⊢
  omega

theorem Rep.createDatabase {env : EngineEnv} {t : Tree} {c : Catalog} (h : Rep env t c)
    {dn : Identifier} (hd : Short env dn) :
    ∃ t', createDatabaseTx env t dn = (outcome (c.createDatabase (env.name dn)).1, t') ∧
      Rep env t' (c.createDatabase (env.name dn)).2 := by
  have hcol : HasColumns (keyCols (databasesInfo env).key) (dbRow (env.name dn)) := by
    rw [dbKey]; simp [HasColumns, dbRow]
  have hfit : FitsRow (databasesInfo env).colTypes (dbRow (env.name dn)) :=
    fitsRow_cons (fits_name hd) fitsRow_nil
  unfold createDatabaseTx Catalog.createDatabase
  rcases typedInsert_one h.dbs (dbStruct env hd) hfit hcol with ⟨⟨r, hr, he⟩, hi⟩ | ⟨hn, t', hi, h1, h2, h3⟩
  · obtain ⟨d', hd', rfl⟩ := (h.dbRows r).1 hr
    have := (dbRow_order env _ d').1 he
    rw [this, if_pos hd', ← this, hi]
    exact ⟨t, rfl, h⟩
  · rw [if_neg, hi]
    · refine ⟨t', rfl, h.withDb h1 h2 ?_⟩
      intro r
      rw [show (17#32 : TableId) = (databasesInfo env).tid from rfl, h3 r]
      simp only [List.mem_cons, exists_eq_or_imp]
      rw [← h.dbRows r]; rfl
    · intro hm
      exact hn (dbRow (env.name dn)) ((h.dbRows _).2 ⟨_, hm, rfl⟩) ((dbRow_order env _ _).2 rfl)

theorem Rep.dropDatabase {env : EngineEnv} {t : Tree} {c : Catalog} (h : Rep env t c)
    {dn : Identifier} (hd : Short env dn) (ie : Bool) :
    ∃ t', dropDatabaseTx env t dn ie = (outcome (c.dropDatabase (env.name dn) ie).1, t') ∧
      Rep env t' (c.dropDatabase (env.name dn) ie).2 := by
  have hcol : HasColumns (keyCols (databasesInfo env).key) (dbRow (env.name dn)) := by
    rw [dbKey]; simp [HasColumns, dbRow]
  unfold dropDatabaseTx Catalog.dropDatabase
  rcases typedDelete_point h.dbs (dbStruct env hd) hcol with ⟨hn, hi⟩ | ⟨r, hr, he, t', hi, h1, h2, h3⟩
  · rw [if_neg]
    · simp only [hi]
      refine ⟨t, ?_, h⟩
      cases ie <;> rfl
    · intro hm
      exact hn (dbRow (env.name dn)) ((h.dbRows _).2 ⟨_, hm, rfl⟩) ((dbRow_order env _ _).2 rfl)
  · obtain ⟨d', hd', rfl⟩ := (h.dbRows r).1 hr
    have hdd := (dbRow_order env _ d').1 he
    rw [if_pos (hdd ▸ hd')]
    simp only [hi]
    refine ⟨t', rfl, h.withDb h1 h2 ?_⟩
    intro r
    rw [show (17#32 : TableId) = (databasesInfo env).tid from rfl, h3 r,
      show (databasesInfo env).tid = (17#32 : TableId) from rfl, h.dbRows r]
    constructor
    · rintro ⟨⟨d, hm, rfl⟩, hne⟩
      exact ⟨d, by simp [hm]; exact fun e => hne ((dbRow_order env _ _).2 e.symm), rfl⟩
    · rintro ⟨d, hm, rfl⟩
      simp at hm
      exact ⟨⟨d, hm.1, rfl⟩, fun e => hm.2 ((dbRow_order env _ _).1 e).symm⟩

/-! ### Schemas -/

theorem Rep.createSchema {env : EngineEnv} {t : Tree} {c : Catalog} (h : Rep env t c)
    {sn : SchemaName} (hd : Short env sn.database) (hs : Short env sn.schema) :
    ∃ t', createSchema env t sn =
        (outcome (c.createSchema (env.name sn.database) (env.name sn.schema)).1, t') ∧
      Rep env t' (c.createSchema (env.name sn.database) (env.name sn.schema)).2 := by
  unfold Maho.createSchema Catalog.createSchema
  rw [h.lookupDb hd]
  by_cases hdb : env.name sn.database ∈ c.databases
  · rw [if_pos hdb]
    rw [if_neg (by simpa using hdb)]
    simp only
    have hcol : HasColumns (keyCols (schemasInfo env).key)
        (schRow (env.name sn.database, env.name sn.schema)) := by
      rw [schKey]; simp [HasColumns, schRow]
    have hfit : FitsRow (schemasInfo env).colTypes
        (schRow (env.name sn.database, env.name sn.schema)) :=
      fitsRow_cons (fits_name hd) (fitsRow_cons (fits_name hs) fitsRow_nil)
    rcases typedInsert_one h.schs (schStruct env hd hs) hfit hcol with
      ⟨⟨r, hr, he⟩, hi⟩ | ⟨hn, t', hi, h1, h2, h3⟩
    · obtain ⟨p, hp, rfl⟩ := (h.schRows r).1 hr
      have := (schRow_order env _ p).1 he
      rw [this, if_pos hp, hi]
      exact ⟨t, rfl, h⟩
    · rw [if_neg, hi]
      · refine ⟨t', rfl, h.withSch h1 h2 ?_⟩
        intro r
        rw [show (18#32 : TableId) = (schemasInfo env).tid from rfl, h3 r]
        simp only [List.mem_cons, exists_eq_or_imp]
        rw [← h.schRows r]; rfl
      · intro hm
        exact hn (schRow _) ((h.schRows _).2 ⟨_, hm, rfl⟩) ((schRow_order env _ _).2 rfl)
  · rw [if_neg hdb, if_pos (by simpa using hdb)]
    exact ⟨t, rfl, h⟩

theorem Rep.dropSchema {env : EngineEnv} {t : Tree} {c : Catalog} (h : Rep env t c)
    {sn : SchemaName} (hd : Short env sn.database) (hs : Short env sn.schema) (ie : Bool) :
    ∃ t', dropSchema env t sn ie =
        (outcome (c.dropSchema (env.name sn.database) (env.name sn.schema) ie).1, t') ∧
      Rep env t' (c.dropSchema (env.name sn.database) (env.name sn.schema) ie).2 := by
  have hcol : HasColumns (keyCols (schemasInfo env).key)
      (schRow (env.name sn.database, env.name sn.schema)) := by
    rw [schKey]; simp [HasColumns, schRow]
  unfold Maho.dropSchema Catalog.dropSchema
  rcases typedDelete_point h.schs (schStruct env hd hs) hcol with
    ⟨hn, hi⟩ | ⟨r, hr, he, t', hi, h1, h2, h3⟩
  · rw [if_neg]
    · simp only [hi]
      refine ⟨t, ?_, h⟩
      cases ie <;> rfl
    · intro hm
      exact hn (schRow _) ((h.schRows _).2 ⟨_, hm, rfl⟩) ((schRow_order env _ _).2 rfl)
  · obtain ⟨p, hp, rfl⟩ := (h.schRows r).1 hr
    have hpp := (schRow_order env _ p).1 he
    rw [if_pos (hpp ▸ hp)]
    simp only [hi]
    refine ⟨t', rfl, h.withSch h1 h2 ?_⟩
    intro r
    rw [show (18#32 : TableId) = (schemasInfo env).tid from rfl, h3 r,
      show (schemasInfo env).tid = (18#32 : TableId) from rfl, h.schRows r]
    constructor
    · rintro ⟨⟨q, hm, rfl⟩, hne⟩
      refine ⟨q, ?_, rfl⟩
      rw [List.mem_filter]
      exact ⟨hm, by simp only [bne_iff_ne]; exact fun e => hne ((schRow_order env _ _).2 e.symm)⟩
    · rintro ⟨q, hm, rfl⟩
      rw [List.mem_filter, bne_iff_ne] at hm
      exact ⟨⟨q, hm.1, rfl⟩, fun e => hm.2 ((schRow_order env _ _).1 e).symm⟩

/-! ### Tables -/

theorem Rep.openTable {env : EngineEnv} {t : Tree} {c : Catalog} (h : Rep env t c)
    {tn : TableName} (hd : Short env tn.database) (hs : Short env tn.schema)
    (hn : Short env tn.table) :
    openEngineTable env t tn =
      match c.find (env.name tn.database) (env.name tn.schema) (env.name tn.table) with
      | none => .err .other
      | some e => .ok ⟨tn, e.definition.mapIds env.storedId, BitVec.ofNat 32 e.id⟩ := by
  unfold openEngineTable
  rw [h.lookupTbl hd hs hn]
  cases c.find (env.name tn.database) (env.name tn.schema) (env.name tn.table) with
  | none => rfl
  | some e =>
    simp only [tablesRow, Struct.bytesField, Struct.intField]
    simp [env.decodeDef_encodeDef]

theorem Rep.nextTableId {env : EngineEnv} {t : Tree} {c : Catalog} (h : Rep env t c) :
    ∃ t', nextTableId env t = (.ok (BitVec.ofNat 64 c.next), t') ∧
      Rep env t' { c with next := c.next + 1 } := by
  have hst := seqStruct env 0#64
  have hb := boundRow_some hst
  have hcol : ∀ m', some ([some (.str nextTableIdSequence), some (.int 0#64)] : Row) = some m' →
      HasColumns (keyCols (sequencesInfo env).key) m' := by
    intro m' e; cases e; rw [seqKey]; simp [HasColumns]
  have hsel := typedSelect_eq h.seqs hb hb hcol hcol
    (updateCurrent env (sequencesInfo env) (nextTableIdRow env)) 0#64
  have hord : ∀ n, rowOrder (keyCols (sequencesInfo env).key)
      [some (.str nextTableIdSequence), some (.int 0#64)] (seqRow n) = .eq := by
    intro n
    rw [seqKey, rowOrder_eq_iff]
    simp [seqRow, SameKeyValue]
  rcases scan_point h.seqs [some (.str nextTableIdSequence), some (.int 0#64)] with
    ⟨it, hit, hrel, he, hsc⟩ | ⟨hn, _⟩
  · have hrow : it.row = seqRow c.next :=
      (h.seqRows _).1 (mem_rowsOf.2 ⟨it, hit, hrel, rfl⟩)
    have hup := C32_update_in_place env.toStoreEnv t (sequencesInfo env).table it [1#32]
      [some (.int (BitVec.ofNat 64 c.next + 1#64))] h.seqs.tableOk hit hrel rfl
      (by intro cc hcc; simp at hcc; subst hcc; exact (by decide : 1 < 2)) rfl
    obtain ⟨hup1, rest, hp1, hp2⟩ := hup
    generalize hg : updateRow env.toStoreEnv t (sequencesInfo env).table it.key [1#32]
      [some (.int (BitVec.ofNat 64 c.next + 1#64))] = q at hup1 hp2
    obtain ⟨res, t'⟩ := q
    simp only at hup1 hp2
    subst hup1
    have hs' : SortedTree t' := by
      have := updateRow_sorted (env := env.toStoreEnv) (tbl := (sequencesInfo env).table)
        (key := it.key) (cols := [1#32]) (vals := [some (.int (BitVec.ofNat 64 c.next + 1#64))])
        h.seqs.sorted
      rwa [hg] at this
    have ho : OnlyIn (sequencesInfo env) t t' := by
      intro rel hne
      have := updateRow_other (env := env.toStoreEnv) (tbl := (sequencesInfo env).table)
        (key := it.key) (cols := [1#32]) (vals := [some (.int (BitVec.ofNat 64 c.next + 1#64))])
        h.seqs.sorted (rel := rel) hne
      rwa [hg] at this
    have hk : Kept (sequencesInfo env).tid (sequencesInfo env).colTypes (sequencesInfo env).key t' := by
      have := updateRow_kept (env := env.toStoreEnv) (tbl := (sequencesInfo env).table)
        (key := it.key) (cols := [1#32]) (vals := [some (.int (BitVec.ofNat 64 c.next + 1#64))])
        h.seqs.sorted h.seqs.kept (fun _ => ⟨rfl, rfl⟩)
      rwa [hg] at this
    refine ⟨t', ?_, h.withSeq ⟨hs', h.seqs.engine, ?_, hk⟩ ho ?_⟩
    · unfold Maho.nextTableId typedUpdate
      simp only
      rw [hsel, hsc]
      simp only [selectLoop, updateCurrent, nextTableIdRow, hrow, seqBack]
      have : (sequencesRow nextTableIdSequence (BitVec.ofNat 64 c.next)).intField 1 =
          BitVec.ofNat 64 c.next := rfl
      rw [this]
      have hcv : (sequencesInfo env).structToColsVals [⟨ascii "Current", [], false, .int64⟩]
          [.plain (.int (BitVec.ofNat 64 c.next + 1#64))] =
          .ok ([1#32], [some (.int (BitVec.ofNat 64 c.next + 1#64))]) := rfl
      simp only [hcv, hg]
    · rw [ho.type h.seqs.engine h.seqs.sorted, h.seqs.type]
    · intro r
      have hnew : replaceColumns it.row [1#32] [some (.int (BitVec.ofNat 64 c.next + 1#64))] =
          seqRow (c.next + 1) := by
        rw [hrow, seqRow, seqRow, BitVec.ofNat_add]
        rfl
      have h1 := rowsOf_perm hp1 16#32
      have h2 := rowsOf_perm hp2 16#32
      rw [rowsOf_cons_same (tid := 16#32) hrel] at h1
      rw [hnew] at h2
      have hrel2 : (⟨it.rel, it.key, seqRow (c.next + 1)⟩ : Item).rel = 
          toRelationId 16#32 0#32 := hrel
      rw [rowsOf_cons_same (tid := 16#32) hrel2] at h2
      have hnd : (rowsOf t 16#32).Nodup := by
        refine h.seqs.ascending.imp ?_
        intro a b hab e
        subst e
        rw [← rowKey_compare] at hab
        exact bytesCompare_lt_irrefl _ hab
      have hnil : rowsOf rest 16#32 = [] := by
        rw [List.eq_nil_iff_forall_not_mem]
        intro x hx
        have hx1 : x = seqRow c.next := (h.seqRows x).1 (h1.mem_iff.2 (List.mem_cons_of_mem _ hx))
        have := (List.nodup_cons.1 (h1.nodup_iff.1 hnd)).1
        rw [hrow, ← hx1] at this
        exact this hx
      rw [hnil] at h2
      rw [h2.mem_iff]; simp
  · exact absurd (hord c.next) (hn (seqRow c.next) ((h.seqRows _).2 rfl))

theorem Rep.createTable {env : EngineEnv} {t : Tree} {c : Catalog} (h : Rep env t c)
    {tn : TableName} (hd : Short env tn.database) (hs : Short env tn.schema)
    (hn : Short env tn.table) {colNames : List Identifier} {colTypes : List ColumnType}
    {primary : List ColumnKey}
    (hdef : (env.encodeDef ⟨1#32, colNames, colTypes, primary⟩).length ≤ 8192) :
    ∃ t', createEngineTable env t tn colNames colTypes primary =
        (outcome (c.createTable (env.name tn.database) (env.name tn.schema) (env.name tn.table)
          ⟨1#32, colNames, colTypes, primary⟩).1, t') ∧
      Rep env t' (c.createTable (env.name tn.database) (env.name tn.schema) (env.name tn.table)
          ⟨1#32, colNames, colTypes, primary⟩).2 := by
  unfold createEngineTable Catalog.createTable
  rw [h.lookupSch hd hs]
  by_cases hsch : (env.name tn.database, env.name tn.schema) ∈ c.schemas
  · rw [if_pos hsch, if_neg (by simpa using hsch)]
    simp only
    obtain ⟨t1, hnx, h1⟩ := h.nextTableId
    rw [hnx]
    simp only
    have hst := tblStruct env (i := BitVec.ofNat 64 c.next)
      (b := some (env.encodeDef ⟨1#32, colNames, colTypes, primary⟩)) hd hs hn hdef
    have hcol : HasColumns (keyCols (tablesInfo env).key)
        [some (.str (env.name tn.database)), some (.str (env.name tn.schema)),
          some (.str (env.name tn.table)), some (.int (BitVec.ofNat 64 c.next)),
          some (.bytes (env.encodeDef ⟨1#32, colNames, colTypes, primary⟩))] := by
      rw [tblKey]; simp [HasColumns]
    have hfit : FitsRow (tablesInfo env).colTypes
        [some (.str (env.name tn.database)), some (.str (env.name tn.schema)),
          some (.str (env.name tn.table)), some (.int (BitVec.ofNat 64 c.next)),
          some (.bytes (env.encodeDef ⟨1#32, colNames, colTypes, primary⟩))] := by
      refine fitsRow_cons (fits_name hd) (fitsRow_cons (fits_name hs) (fitsRow_cons (fits_name hn)
        (fitsRow_cons (fits_number _) (fitsRow_cons ⟨?_, hdef⟩ fitsRow_nil))))
      simp [HasType]
    rcases typedInsert_one h1.tbls hst hfit hcol with ⟨⟨r, hr, he⟩, hi⟩ | ⟨hno, t', hi, h3, h4, h5⟩
    · obtain ⟨e, hm, rfl⟩ := (h1.tblRows r).1 hr
      have hnm := (tblRow_order env _ _ _ _ _ e).1 he
      have : (c.find (env.name tn.database) (env.name tn.schema) (env.name tn.table)).isSome := by
        rw [Catalog.find, List.find?_isSome]
        exact ⟨e, hm, hnm⟩
      rw [if_pos this, hi]
      exact ⟨t1, rfl, h1⟩
    · rw [if_neg, hi]
      · refine ⟨t', rfl, h1.withTbl h3 h4 ?_⟩
        intro r
        rw [show (19#32 : TableId) = (tablesInfo env).tid from rfl, h5 r]
        simp only [List.mem_cons, exists_eq_or_imp]
        rw [show (tablesInfo env).tid = (19#32 : TableId) from rfl, h1.tblRows r]
        rfl
      · intro hf
        rw [Catalog.find, List.find?_isSome] at hf
        obtain ⟨e, hm, hnm⟩ := hf
        exact hno (tblRow env e) ((h1.tblRows _).2 ⟨e, hm, rfl⟩) ((tblRow_order env _ _ _ _ _ e).2 hnm)
  · rw [if_neg hsch, if_pos (by simpa using hsch)]
    exact ⟨t, rfl, h⟩

/-! ### Ascending lists -/

theorem pairwise_ext {α : Type} {R : α → α → Prop} (hR : ∀ a b, R a b → ¬ R b a) :
    ∀ {l l' : List α}, l.Pairwise R → l'.Pairwise R → (∀ x, x ∈ l ↔ x ∈ l') → l = l'
  | [], [], _, _, _ => rfl
  | [], y :: ys, _, _, h => nomatch (h y).2 (by simp)
  | x :: xs, [], _, _, h => nomatch (h x).1 (by simp)
  | x :: xs, y :: ys, h1, h2, h => by
    have hxy : x = y := by
      rcases List.mem_cons.1 ((h x).1 (by simp)) with e | hx
      · exact e
      · rcases List.mem_cons.1 ((h y).2 (by simp)) with e | hy
        · exact e.symm
        · exact absurd ((List.pairwise_cons.1 h1).1 y hy) (hR _ _ ((List.pairwise_cons.1 h2).1 x hx))
    subst hxy
    have hirr : ∀ a, ¬ R a a := fun a ha => hR _ _ ha ha
    have ht : ∀ z, z ∈ xs ↔ z ∈ ys := by
      intro z
      constructor
      · intro hz
        rcases List.mem_cons.1 ((h z).1 (List.mem_cons_of_mem _ hz)) with e | hz'
        · subst e; exact absurd ((List.pairwise_cons.1 h1).1 z hz) (hirr z)
        · exact hz'
      · intro hz
        rcases List.mem_cons.1 ((h z).2 (List.mem_cons_of_mem _ hz)) with e | hz'
        · subst e; exact absurd ((List.pairwise_cons.1 h2).1 z hz) (hirr z)
        · exact hz'
    rw [pairwise_ext hR (List.pairwise_cons.1 h1).2 (List.pairwise_cons.1 h2).2 ht]

theorem exists_map {α β : Type} {f : α → β} {l : List β} (h : ∀ x ∈ l, ∃ a, x = f a) :
    ∃ L : List α, l = L.map f := by
  induction l with
  | nil => exact ⟨[], rfl⟩
  | cons x xs ih =>
    obtain ⟨a, rfl⟩ := h x (by simp)
    obtain ⟨L, rfl⟩ := ih (fun y hy => h y (List.mem_cons_of_mem _ hy))
    exact ⟨a :: L, rfl⟩

theorem mem_insertName {s x : Bytes} {l : List Bytes} : x ∈ insertName s l ↔ x = s ∨ x ∈ l := by
  induction l with
  | nil => simp [insertName]
  | cons y ys ih =>
    simp only [insertName]
    split
    · simp
    · next h => rw [bytesCompare_eq_iff] at h; subst h; simp
    · simp only [List.mem_cons, ih]
      constructor
      · rintro (h | h | h) <;> simp [h]
      · rintro (h | h | h) <;> simp [h]

theorem mem_sortNames {x : Bytes} {l : List Bytes} : x ∈ sortNames l ↔ x ∈ l := by
  unfold sortNames
  induction l with
  | nil => simp
  | cons y ys ih => simp [mem_insertName, ih]

theorem insertName_sorted {s : Bytes} {l : List Bytes}
    (h : l.Pairwise (fun a b => bytesCompare a b = .lt)) :
    (insertName s l).Pairwise (fun a b => bytesCompare a b = .lt) := by
  induction l with
  | nil => simp [insertName]
  | cons y ys ih =>
    obtain ⟨h1, h2⟩ := List.pairwise_cons.1 h
    simp only [insertName]
    split
    · next hc =>
      refine List.pairwise_cons.2 ⟨?_, h⟩
      intro z hz
      rcases List.mem_cons.1 hz with rfl | hz
      · exact hc
      · exact bytesCompare_lt_trans hc (h1 z hz)
    · exact h
    · next hc =>
      refine List.pairwise_cons.2 ⟨?_, ih h2⟩
      intro z hz
      rcases mem_insertName.1 hz with rfl | hz
      · exact bytesCompare_gt_iff.1 hc
      · exact h1 z hz

theorem sortNames_sorted (l : List Bytes) :
    (sortNames l).Pairwise (fun a b => bytesCompare a b = .lt) := by
  unfold sortNames
  induction l with
  | nil => simp
  | cons y ys ih => exact insertName_sorted ih

theorem rowOrder_asymm (key : List ColumnKey) (a b : Row)
    (h : rowOrder (keyCols key) a b = .lt) : ¬ rowOrder (keyCols key) b a = .lt := by
  rw [← rowOrder_swap, h]; decide

theorem dbRow_lt (env : EngineEnv) (a b : Bytes) :
    rowOrder (keyCols (databasesInfo env).key) (dbRow a) (dbRow b) = bytesCompare a b := by
  rw [dbKey]
  simp [rowOrder, dbRow, columnOrder, keyRank, ascOrder, Ordering.then_eq]

theorem schRow_lt (env : EngineEnv) (p q : Bytes × Bytes) :
    rowOrder (keyCols (schemasInfo env).key) (schRow p) (schRow q) =
      (bytesCompare p.1 q.1).then (bytesCompare p.2 q.2) := by
  rw [schKey]
  simp [rowOrder, schRow, columnOrder, keyRank, ascOrder, Ordering.then_eq]

/-! ### Listings -/

theorem Rep.dbList {env : EngineEnv} {t : Tree} {c : Catalog} (h : Rep env t c) :
    rowsOf t 17#32 = (sortNames c.databases).map dbRow := by
  refine pairwise_ext (rowOrder_asymm (databasesInfo env).key) h.dbs.ascending ?_ ?_
  · rw [List.pairwise_map]
    exact (sortNames_sorted _).imp (fun {a b} hab => by rw [dbRow_lt]; exact hab)
  · intro r
    have := h.dbRows r
    rw [this]
    simp [mem_sortNames, eq_comm]

theorem listLoop (env : EngineEnv) (t : Tree) : ∀ (items : List Item) (ds : List Bytes)
    (acc : List Identifier), items.map (·.row) = ds.map dbRow →
    selectLoop (fun _ row s => listDatabaseRow env row s) items (acc, t) =
      (.ok (), (acc ++ ds.map env.ident, t))
  | [], [], acc, _ => by simp [selectLoop]
  | [], _ :: _, _, h => by simp at h
  | _ :: _, [], _, h => by simp at h
  | it :: its, d :: ds, acc, h => by
    simp only [List.map_cons, List.cons.injEq] at h
    have hrow : listDatabaseRow env (dbRow d) (acc, t) = (.ok (), (acc ++ [env.ident d], t)) := by
      simp only [listDatabaseRow, dbBack]; rfl
    simp only [selectLoop, h.1, hrow]
    rw [listLoop env t its ds _ h.2]
    simp

theorem Rep.listDatabases {env : EngineEnv} {t : Tree} {c : Catalog} (h : Rep env t c) :
    listDatabasesTx env t = (.ok ((sortNames c.databases).map env.ident), t) := by
  unfold listDatabasesTx
  rw [typedSelect_eq h.dbs (mn := none) (mx := none) rfl rfl (by simp) (by simp)]
  rw [listLoop env t _ (sortNames c.databases) []]
  · simp
  · rw [scan_rows]
    simp only [atLeast, atMost, Bool.and_self]
    rw [List.filter_eq_self.2 (by simp)]
    exact h.dbList

theorem schLoop (env : EngineEnv) (dn : Identifier) (t : Tree) : ∀ (items : List Item)
    (ps : List (Bytes × Bytes)) (acc : List Identifier), items.map (·.row) = ps.map schRow →
    selectLoop (fun _ row s => listSchemaRow env dn row s) items (acc, t) =
      (.ok (), (acc ++ (ps.takeWhile (fun p => p.1 == env.name dn)).map (fun p => env.ident p.2), t))
  | [], [], acc, _ => by simp [selectLoop]
  | [], _ :: _, _, h => by simp at h
  | _ :: _, [], _, h => by simp at h
  | it :: its, p :: ps, acc, h => by
    simp only [List.map_cons, List.cons.injEq] at h
    have hrow : listSchemaRow env dn (schRow p) (acc, t) =
        if p.1 ≠ env.name dn then (.err .eof, (acc, t))
        else (.ok (), (acc ++ [env.ident p.2], t)) := by
      simp only [listSchemaRow, schBack]; rfl
    simp only [selectLoop, h.1, hrow]
    by_cases hp : p.1 = env.name dn
    · simp only [hp, ne_eq, not_true_eq_false, ↓reduceIte]
      rw [schLoop env dn t its ps _ h.2]
      simp [hp]
    · simp [hp]

theorem takeWhile_first {d : Bytes} : ∀ {ps : List (Bytes × Bytes)},
    ps.Pairwise (fun p q => (bytesCompare p.1 q.1).then (bytesCompare p.2 q.2) = .lt) →
    (∀ p ∈ ps, bytesCompare d p.1 ≠ .gt) →
    ps.takeWhile (fun p => p.1 == d) = ps.filter (fun p => p.1 == d)
  | [], _, _ => rfl
  | p :: ps, hs, hge => by
    obtain ⟨h1, h2⟩ := List.pairwise_cons.1 hs
    by_cases hp : p.1 = d
    · simp [hp]
      exact takeWhile_first h2 (fun q hq => hge q (List.mem_cons_of_mem _ hq))
    · simp only [List.takeWhile_cons, List.filter_cons, beq_iff_eq, hp, ↓reduceIte]
      symm
      rw [List.filter_eq_nil_iff]
      intro q hq
      simp only [beq_iff_eq]
      intro he
      have hlt : bytesCompare d p.1 = .lt := by
        have := hge p (by simp)
        cases hc : bytesCompare d p.1 with
        | lt => rfl
        | eq => exact absurd (bytesCompare_eq_iff.1 hc).symm hp
        | gt => exact absurd hc this
      have hpq := h1 q hq
      rw [he, (bytesCompare_gt_iff.2 hlt : bytesCompare p.1 d = .gt)] at hpq
      cases hpq

theorem bytesCompare_nil (s : Bytes) : bytesCompare [] s ≠ .gt := by
  cases s <;> simp [bytesCompare]

theorem Rep.listSchemas {env : EngineEnv} {t : Tree} {c : Catalog} (h : Rep env t c)
    {dn : Identifier} (hd : Short env dn) :
    listSchemas env t dn =
      if env.name dn ∈ c.databases then .ok ((c.schemasOf (env.name dn)).map env.ident)
      else .err .other := by
  unfold Maho.listSchemas
  rw [h.lookupDb hd]
  by_cases hdb : env.name dn ∈ c.databases
  · rw [if_pos hdb, if_pos hdb]
    simp only
    have hst : (schemasInfo env).structToRow (schemasRow (env.name dn) []) =
      .ok (schRow (env.name dn, [])) := schStruct env hd (by simp)
    rw [typedSelect_eq h.schs (mx := none) (boundRow_some hst) rfl
      (by intro m' e; cases e; rw [schKey]; simp [HasColumns, schRow]) (by simp)]
    have hrows := scan_rows (schemasInfo env) t (some (schRow (env.name dn, []))) none
    obtain ⟨L, hL⟩ := exists_map (f := schRow) (l := rowsOf t 18#32) (by
      intro x hx
      obtain ⟨p, _, rfl⟩ := (h.schRows x).1 hx
      exact ⟨p, rfl⟩)
    rw [show (schemasInfo env).tid = (18#32 : TableId) from rfl, hL, List.filter_map] at hrows
    rw [schLoop env dn t _ _ [] hrows]
    simp only [List.nil_append, Res.ok.injEq]
    have hasc : L.Pairwise (fun p q => (bytesCompare p.1 q.1).then (bytesCompare p.2 q.2) = .lt) := by
      have := h.schs.ascending
      rw [show (schemasInfo env).tid = (18#32 : TableId) from rfl, hL, List.pairwise_map] at this
      exact this.imp (fun {a b} hab => by rw [schRow_lt] at hab; exact hab)
    have hmem : ∀ p, p ∈ L ↔ p ∈ c.schemas := by
      intro p
      have := h.schRows (schRow p)
      rw [hL] at this
      simp only [List.mem_map] at this
      constructor
      · intro hp
        obtain ⟨q, hq, e⟩ := this.1 ⟨p, hp, rfl⟩
        simp [schRow] at e
        rw [Prod.ext e.1 e.2]; exact hq
      · intro hp
        obtain ⟨q, hq, e⟩ := this.2 ⟨p, hp, rfl⟩
        simp [schRow] at e
        rw [← Prod.ext e.1 e.2]; exact hq
    rw [takeWhile_first (hasc.filter _)]
    · unfold Catalog.schemasOf
      have : ∀ l : List (Bytes × Bytes), l.map (fun p => env.ident p.2) = (l.map (·.2)).map env.ident := by
        intro l; simp
      rw [this]
      congr 1
      refine pairwise_ext (R := fun a b => bytesCompare a b = .lt) ?_ ?_ (sortNames_sorted _) ?_
      · intro a b hab hba
        exact bytesCompare_lt_irrefl _ (bytesCompare_lt_trans hab hba)
      · rw [List.pairwise_map]
        refine List.Pairwise.imp_of_mem ?_ ((hasc.filter _).filter _)
        intro p q hp hq hpq
        have h1 := (List.mem_filter.1 hp).2
        have h2 := (List.mem_filter.1 hq).2
        simp only [beq_iff_eq] at h1 h2
        rw [h1, h2, bytesCompare_self] at hpq
        exact hpq
      · intro x
        rw [mem_sortNames]
        simp only [List.mem_map, List.mem_filter, hmem]
        constructor
        · rintro ⟨p, ⟨⟨hp, _⟩, h1⟩, rfl⟩
          exact ⟨p, ⟨hp, h1⟩, rfl⟩
        · rintro ⟨p, ⟨hp, h1⟩, rfl⟩
          refine ⟨p, ⟨⟨hp, ?_⟩, h1⟩, rfl⟩
          simp only [beq_iff_eq] at h1
          simp only [Function.comp, atLeast, atMost, Bool.and_true, schRow_lt, bne_iff_ne, h1,
            bytesCompare_self]
          exact bytesCompare_nil _
    · intro p hp hgt
      have := (List.mem_filter.1 hp).2
      simp only [Function.comp, atLeast, atMost, Bool.and_true, schRow_lt, bne_iff_ne, hgt] at this
      exact this rfl
  · rw [if_neg hdb, if_neg hdb]

/-! ### Histories -/

/-- The states are related. -/
def RepState (env : EngineEnv) (s : EngineState) (c : CatalogState) : Prop :=
  Rep env s.committed c.committed ∧
    match s.active, c.active with
    | none, none => True
    | some t, some d => Rep env t d
    | _, _ => False

theorem auto_step {env : EngineEnv} {s : EngineState} {c : CatalogState} (h : RepState env s c)
    {f : Tree → Res Unit × Tree} {g : Catalog → Bool × Catalog}
    (hfg : ∀ t d, Rep env t d → ∃ t', f t = (outcome (g d).1, t') ∧ Rep env t' (g d).2) :
    replyOf .done (withTransaction s f).1 = (c.auto g).1 ∧
      RepState env (withTransaction s f).2 (c.auto g).2 := by
  obtain ⟨st, sa⟩ := s
  obtain ⟨ct, ca⟩ := c
  obtain ⟨h1, h2⟩ := h
  simp only at h1 h2
  unfold withTransaction CatalogState.auto
  cases sa with
  | some t =>
    cases ca with
    | none => simp at h2
    | some d => exact ⟨rfl, h1, h2⟩
  | none =>
    cases ca with
    | some d => simp at h2
    | none =>
      simp only
      obtain ⟨t', e, h3⟩ := hfg st ct h1
      rw [e]
      cases hb : (g ct).1 with
      | true => simp [outcome, replyOf, RepState]; exact h3
      | false => simp [outcome, replyOf, RepState]; exact h1

theorem write_step {env : EngineEnv} {s : EngineState} {c : CatalogState} (h : RepState env s c)
    {f : Tree → Res Unit × Tree} {g : Catalog → Bool × Catalog}
    (hfg : ∀ t d, Rep env t d → ∃ t', f t = (outcome (g d).1, t') ∧ Rep env t' (g d).2) :
    EngineReply.done (s.inTx f).1 = (c.write g).1 ∧ RepState env (s.inTx f).2 (c.write g).2 := by
  obtain ⟨st, sa⟩ := s
  obtain ⟨ct, ca⟩ := c
  obtain ⟨h1, h2⟩ := h
  simp only at h1 h2
  unfold EngineState.inTx CatalogState.write
  cases sa with
  | none =>
    cases ca with
    | none => exact ⟨rfl, h1, h2⟩
    | some d => simp at h2
  | some t =>
    cases ca with
    | none => simp at h2
    | some d =>
      simp only
      obtain ⟨t', e, h3⟩ := hfg t d h2
      rw [e]
      exact ⟨rfl, h1, h3⟩

theorem read_step {α : Type} {env : EngineEnv} {s : EngineState} {c : CatalogState}
    (h : RepState env s c) {mk : Res α → EngineReply}
    {f : Tree → Res α} {g : Catalog → Res α} (hfg : ∀ t d, Rep env t d → f t = g d) :
    mk (s.inTx (fun t => (f t, t))).1 = (c.read mk g).1 ∧
      RepState env (s.inTx (fun t => (f t, t))).2 (c.read mk g).2 := by
  obtain ⟨st, sa⟩ := s
  obtain ⟨ct, ca⟩ := c
  obtain ⟨h1, h2⟩ := h
  simp only at h1 h2
  unfold EngineState.inTx CatalogState.read
  cases sa with
  | none =>
    cases ca with
    | none => exact ⟨rfl, h1, h2⟩
    | some d => simp at h2
  | some t =>
    cases ca with
    | none => simp at h2
    | some d =>
      simp only
      rw [hfg t d h2]
      exact ⟨rfl, h1, h2⟩

theorem engine_step {env : EngineEnv} {s : EngineState} {c : CatalogState} (h : RepState env s c)
    (op : EngineOp) (hop : SmallOp env op) :
    (engineStep env s op).1 = (catalogStep env c op).1 ∧
      RepState env (engineStep env s op).2 (catalogStep env c op).2 := by
  cases op with
  | createDatabase dn opts =>
    simp only [engineStep, catalogStep, createDatabase]
    by_cases ho : opts > 0
    · rw [if_pos ho, if_pos ho]
      exact ⟨rfl, h⟩
    · rw [if_neg ho, if_neg ho]
      exact auto_step h (fun t d hr => hr.createDatabase hop)
  | dropDatabase dn ie => exact auto_step h (fun t d hr => hr.dropDatabase hop ie)
  | listDatabases =>
    obtain ⟨st, sa⟩ := s
    obtain ⟨ct, ca⟩ := c
    obtain ⟨h1, h2⟩ := h
    simp only at h1 h2
    simp only [engineStep, catalogStep, listDatabases, withTransaction]
    cases sa with
    | some t =>
      cases ca with
      | none => simp at h2
      | some d => exact ⟨rfl, h1, h2⟩
    | none =>
      cases ca with
      | some d => simp at h2
      | none =>
        simp only [h1.listDatabases]
        exact ⟨rfl, h1, h2⟩
  | begin =>
    obtain ⟨st, sa⟩ := s
    obtain ⟨ct, ca⟩ := c
    obtain ⟨h1, h2⟩ := h
    simp only at h1 h2
    cases sa <;> cases ca <;> simp_all [engineStep, catalogStep, EngineState.begin, RepState]
  | commit =>
    obtain ⟨st, sa⟩ := s
    obtain ⟨ct, ca⟩ := c
    obtain ⟨h1, h2⟩ := h
    simp only at h1 h2
    cases sa <;> cases ca <;> simp_all [engineStep, catalogStep, EngineState.commit, RepState]
  | rollback =>
    obtain ⟨st, sa⟩ := s
    obtain ⟨ct, ca⟩ := c
    obtain ⟨h1, h2⟩ := h
    simp only at h1 h2
    cases sa <;> cases ca <;> simp_all [engineStep, catalogStep, EngineState.rollback, RepState]
  | createSchema sn => exact write_step h (fun t d hr => hr.createSchema hop.1 hop.2)
  | dropSchema sn ie => exact write_step h (fun t d hr => hr.dropSchema hop.1 hop.2 ie)
  | listSchemas dn => exact read_step h (fun t d hr => hr.listSchemas hop)
  | openTable tn => exact read_step h (fun t d hr => hr.openTable hop.1 hop.2.1 hop.2.2)
  | createTable tn cn ct p =>
    exact write_step h (fun t d hr => hr.createTable hop.1.1 hop.1.2.1 hop.1.2.2 hop.2)
  | dropTable tn => exact ⟨rfl, h⟩
  | listTables sn => exact ⟨rfl, h⟩
  | createIndex tn i k => exact ⟨rfl, h⟩
  | dropIndex tn i => exact ⟨rfl, h⟩

theorem engine_run {env : EngineEnv} (ops : List EngineOp) : ∀ {s : EngineState} {c : CatalogState},
    RepState env s c → (∀ op ∈ ops, SmallOp env op) →
    (engineRun env s ops).1 = (catalogRun env c ops).1 ∧
      RepState env (engineRun env s ops).2 (catalogRun env c ops).2 := by
  induction ops with
  | nil => intro s c h _; exact ⟨rfl, h⟩
  | cons op ops ih =>
    intro s c h hops
    obtain ⟨h1, h2⟩ := engine_step h op (hops op (by simp))
    obtain ⟨h3, h4⟩ := ih h2 (fun o ho => hops o (List.mem_cons_of_mem _ ho))
    simp only [engineRun, catalogRun]
    exact ⟨by rw [h1, h3], h4⟩


/-! ### A new store -/

/-- A table that can be created. -/
structure Creatable (env : EngineEnv) (ti : TypedInfo) : Prop where
  engine : engineTableId ≤ ti.tid
  length : ti.colNames.length = ti.colTypes.length
  primary : ti.primary = some ti.key
  rowid : rowidMisused ti.colNames ti.colTypes ti.key = false
  key : keyInRange ti.colNames ti.key
  stable : ti.tt.mapIds env.storedId = ti.tt

/-- Nothing is stored under the table id. -/
def FreshId (env : EngineEnv) (t : Tree) (tid : TableId) : Prop :=
  getTableType env.toStoreEnv t tid = .ok none ∧ ∀ it ∈ t, it.rel ≠ toRelationId tid 0#32

theorem create_typed {env : EngineEnv} {ti : TypedInfo} {t : Tree} (hs : SortedTree t)
    (hc : Creatable env ti) (hf : FreshId env t ti.tid) :
    ∃ t', createTypedTable env t ti = .ok t' ∧ TypedOk env ti t' ∧ rowsOf t' ti.tid = [] ∧
      (∀ tj, TypedOk env tj t → TypedOk env tj t') ∧
      (∀ tid, engineTableId ≤ tid → rowsOf t' tid = rowsOf t tid) ∧
      (∀ tid, engineTableId ≤ tid → ti.tid ≠ tid → FreshId env t tid → FreshId env t' tid) := by
  obtain ⟨t', hput⟩ : ∃ t', t' = t.put ⟨tableTypesRelation, typeKey ti.tid, [tidValue ti.tid,
    some (.bytes (env.encodeType ⟨1#32, ti.tn, ti.colNames, ti.colTypes, ti.key⟩))]⟩ := ⟨_, rfl⟩
  have hcr : createTable env.toStoreEnv t ti.tid ti.tn ti.colNames ti.colTypes ti.primary = .ok t' :=
    createTable_ok.2
      ⟨hc.engine, hf.1, hc.length, ti.key, hc.primary, hc.rowid, hc.key, hput⟩
  obtain ⟨key, hk, hty⟩ := create_gives_type hs hcr
  have hother := fun rel (h : tableTypesRelation ≠ rel) => createTable_other hs hcr h
  have hs' : SortedTree t' := by rw [hput]; exact Tree.sorted_put hs _
  have hnt : ∀ tid, engineTableId ≤ tid → tableTypesRelation ≠ toRelationId tid 0#32 :=
    fun tid h => rel_ne_types h 0#32
  have hold : ∀ tid, tid ≠ ti.tid →
      getTableType env.toStoreEnv t' tid = getTableType env.toStoreEnv t tid := by
    intro tid hne
    have := getTableType_put_other (env := env.toStoreEnv) hs hne (row := [tidValue ti.tid,
      some (.bytes (env.encodeType ⟨1#32, ti.tn, ti.colNames, ti.colTypes, ti.key⟩))])
    rwa [← hput] at this
  have hkey : key = ti.key := by
    rw [hc.primary] at hk; cases hk; rfl
  subst hkey
  have hno : ∀ it ∈ t', it.rel ≠ toRelationId ti.tid 0#32 := by
    intro it hit he
    have hm : it ∈ t'.filter (fun x => x.rel == toRelationId ti.tid 0#32) :=
      List.mem_filter.2 ⟨hit, by simp [he]⟩
    rw [hother _ (hnt _ hc.engine)] at hm
    exact hf.2 it (List.mem_filter.1 hm).1 he
  refine ⟨t', hcr, ⟨hs', hc.engine, ?_, ?_⟩, ?_, ?_, ?_, ?_⟩
  · rw [hty, show (⟨1#32, ti.tn, ti.colNames, ti.colTypes, ti.key⟩ : TableType) = ti.tt from rfl,
      hc.stable]
  · exact ⟨fun it hit he => absurd he (hno it hit), fun it hit he => absurd he (hno it hit)⟩
  · rw [List.eq_nil_iff_forall_not_mem]
    intro r hr
    obtain ⟨it, hit, hrel, _⟩ := mem_rowsOf.1 hr
    exact hno it hit hrel
  · intro tj hj
    have hne : tj.tid ≠ ti.tid := by
      intro e
      have := hj.type
      rw [e, hf.1] at this
      cases this
    exact ⟨hs', hj.engine, by rw [hold _ hne, hj.type], hj.kept.congr (hother _ (hnt _ hj.engine))⟩
  · intro tid he
    exact rowsOf_congr (hother _ (hnt _ he))
  · intro tid he hne hft
    refine ⟨by rw [hold _ (fun e => hne e.symm), hft.1], ?_⟩
    intro it hit hrel
    have hm : it ∈ t'.filter (fun x => x.rel == toRelationId tid 0#32) :=
      List.mem_filter.2 ⟨hit, by simp [hrel]⟩
    rw [hother _ (hnt _ he)] at hm
    exact hft.2 it (List.mem_filter.1 hm).1 hrel

theorem FreshId.other {env : EngineEnv} {ti : TypedInfo} {t t' : Tree} {tid : TableId}
    (h : FreshId env t tid) (ho : OnlyIn ti t t') (he : engineTableId ≤ ti.tid) (hs : SortedTree t)
    (hne : ti.tid ≠ tid) : FreshId env t' tid := by
  refine ⟨by rw [ho.type he hs, h.1], ?_⟩
  intro it hit hrel
  have hm : it ∈ t'.filter (fun x => x.rel == toRelationId tid 0#32) :=
    List.mem_filter.2 ⟨hit, by simp [hrel]⟩
  rw [ho _ (fun e => hne (toRelationId_inj e).1)] at hm
  exact h.2 it (List.mem_filter.1 hm).1 hrel

theorem fresh_nil (env : EngineEnv) (tid : TableId) : FreshId env [] tid :=
  ⟨getTableType_none.2 (by simp), by simp⟩

theorem builtin_name (env : EngineEnv) {s : String} {id : Identifier}
    (h : (s, id) ∈ initialIdentifiers) (hl : (ascii s).length ≤ 128) : env.name id = ascii s := by
  have := env.builtin (s, id) h
  simp only at this
  rw [← this, env.name_ident _ hl]

theorem builtin_stored (env : EngineEnv) {s : String} {id : Identifier}
    (h : (s, id) ∈ initialIdentifiers) (hl : (ascii s).length ≤ 128) : env.storedId id = id := by
  have := env.builtin (s, id) h
  have h2 := env.storedId_ident (ascii s) hl
  simp only at this
  rw [this] at h2
  exact h2

theorem ident_ne_rowid (env : EngineEnv) {s : Bytes} (hl : s.length ≤ 128)
    (h : s ≠ ascii "__rowid") : env.ident s ≠ idRowid := by
  intro e
  have h1 := env.name_ident s hl
  rw [e, builtin_name env (s := "__rowid") (by decide) (by decide)] at h1
  exact h h1.symm

theorem not_rowidMisused {colNames : List Identifier} {colTypes : List ColumnType}
    {key : List ColumnKey} (h : idRowid ∉ colNames) : rowidMisused colNames colTypes key = false := by
  unfold rowidMisused
  rw [List.any_eq_false]
  intro i _
  have : ¬ colNames[i]? = some idRowid := fun e => h (List.mem_of_getElem? e)
  simp [this]

/-- What the definitions of the system tables have in common. -/
theorem creatable_of {env : EngineEnv} {ti : TypedInfo} {names : List Bytes}
    (h1 : engineTableId ≤ ti.tid) (h2 : ti.colNames.length = ti.colTypes.length)
    (h3 : ti.primary = some ti.key) (h4 : keyInRange ti.colNames ti.key)
    (h5 : ti.colNames = names.map env.ident) (h6 : ∀ s ∈ names, s.length ≤ 128)
    (h7 : ascii "__rowid" ∉ names)
    (h8 : env.storedId ti.tn.database = ti.tn.database)
    (h9 : env.storedId ti.tn.schema = ti.tn.schema)
    (h10 : env.storedId ti.tn.table = ti.tn.table) : Creatable env ti := by
  refine ⟨h1, h2, h3, ?_, h4, ?_⟩
  · apply not_rowidMisused
    rw [h5]
    intro hm
    obtain ⟨s, hs, e⟩ := List.mem_map.1 hm
    exact ident_ne_rowid env (h6 s hs) (fun e => h7 (e ▸ hs)) e
  · have : ti.colNames.map env.storedId = ti.colNames := by
      rw [h5, List.map_map]
      exact List.map_congr_left (fun s hs => env.storedId_ident s (h6 s hs))
    simp [TableType.mapIds, TypedInfo.tt, this, h8, h9, h10]

theorem stored_system (env : EngineEnv) : env.storedId 41 = 41 :=
  builtin_stored env (s := "system") (by decide) (by decide)
theorem stored_info (env : EngineEnv) : env.storedId 22 = 22 :=
  builtin_stored env (s := "info") (by decide) (by decide)

theorem sequences_creatable (env : EngineEnv) : Creatable env (sequencesInfo env) :=
  creatable_of (names := [ascii "sequence", ascii "current"]) (by exact (by decide : engineTableId ≤ 16#32)) rfl rfl
    (by intro ck h; simp [sequencesInfo_eq, TypedInfo.key] at h; subst h; exact (by decide : 0 < 2))
    rfl (by decide) (by decide) (stored_system env) (stored_info env)
    (builtin_stored env (s := "sequences") (id := 38) (by decide) (by decide))

theorem databases_creatable (env : EngineEnv) : Creatable env (databasesInfo env) :=
  creatable_of (names := [ascii "database"]) (by exact (by decide : engineTableId ≤ 17#32)) rfl rfl
    (by intro ck h; simp [databasesInfo_eq, TypedInfo.key] at h; subst h; exact (by decide : 0 < 1))
    rfl (by decide) (by decide) (stored_system env) (stored_info env)
    (builtin_stored env (s := "databases") (id := 16) (by decide) (by decide))

theorem schemas_creatable (env : EngineEnv) : Creatable env (schemasInfo env) :=
  creatable_of (names := [ascii "database", ascii "schema"]) (by exact (by decide : engineTableId ≤ 18#32)) rfl rfl
    (by
      intro ck h
      simp [schemasInfo_eq, TypedInfo.key] at h
      rcases h with rfl | rfl
      · exact (by decide : 0 < 2)
      · exact (by decide : 1 < 2))
    rfl (by decide) (by decide) (stored_system env) (stored_info env)
    (builtin_stored env (s := "schemas") (id := 37) (by decide) (by decide))

theorem tables_creatable (env : EngineEnv) : Creatable env (tablesInfo env) :=
  creatable_of (names := [ascii "database", ascii "schema", ascii "table", ascii "table_id",
      ascii "type"]) (by exact (by decide : engineTableId ≤ 19#32)) rfl rfl
    (by
      intro ck h
      simp [tablesInfo_eq, TypedInfo.key] at h
      rcases h with rfl | rfl | rfl
      · exact (by decide : 0 < 5)
      · exact (by decide : 1 < 5)
      · exact (by decide : 2 < 5))
    rfl (by decide) (by decide) (stored_system env) (stored_info env)
    (builtin_stored env (s := "tables") (id := 42) (by decide) (by decide))

theorem insert_step {env : EngineEnv} {ti : TypedInfo} {t : Tree} (h : TypedOk env ti t)
    (hnil : rowsOf t ti.tid = []) {structs : List Struct} {rows : List Row}
    (hr : ti.structsToRows structs = .ok rows)
    (hfit : ∀ r ∈ rows, FitsRow ti.colTypes r) (hcol : ∀ r ∈ rows, HasColumns (keyCols ti.key) r)
    (hnew : rows.Pairwise (fun a b => rowOrder (keyCols ti.key) a b ≠ .eq)) :
    ∃ t', typedInsert env t ti structs = (.ok (), t') ∧ TypedOk env ti t' ∧ OnlyIn ti t t' ∧
      ∀ r, r ∈ rowsOf t' ti.tid ↔ r ∈ rows := by
  obtain ⟨t', h1, h2, h3, h4⟩ := typedInsert_rows h hr hfit hcol ⟨hnew, by simp [hnil]⟩
  refine ⟨t', h1, h2, h3, fun r => ?_⟩
  rw [h4.mem_iff, hnil]; simp

theorem name_system (env : EngineEnv) : env.name idSystem = ascii "system" :=
  builtin_name env (by decide) (by decide)
theorem name_info (env : EngineEnv) : env.name idInfo = ascii "info" :=
  builtin_name env (by decide) (by decide)
theorem name_maho (env : EngineEnv) : env.name idMaho = ascii "maho" :=
  builtin_name env (by decide) (by decide)
theorem name_public (env : EngineEnv) : env.name idPublic = ascii "public" :=
  builtin_name env (by decide) (by decide)

/-- The row of a system table. -/
theorem initTableRow_eq (env : EngineEnv) {ti : TypedInfo} {s : String} {n : Nat} {d : Definition}
    (h1 : ti.tn.database = idSystem) (h2 : ti.tn.schema = idInfo) (h3 : env.name ti.tn.table = ascii s)
    (hl : (ascii s).length ≤ 128) (h4 : ti.tid.zeroExtend 64 = BitVec.ofNat 64 n)
    (h5 : ti.definition = d) (h6 : (env.encodeDef d).length ≤ 8192) :
    (tablesInfo env).structToRow (initTableRow env ti) =
      .ok (tblRow env ⟨ascii "system", ascii "info", ascii s, n, d⟩) := by
  unfold initTableRow
  rw [h1, h2, h3, name_system, name_info, h4, h5,
    tblStruct env (by decide) (by decide) hl (by simpa using h6)]
  rfl

theorem tblRow_fits (env : EngineEnv) {e : CatalogTable} (h1 : e.database.length ≤ 128)
    (h2 : e.schema.length ≤ 128) (h3 : e.table.length ≤ 128)
    (h4 : (env.encodeDef e.definition).length ≤ 8192) :
    FitsRow (tablesInfo env).colTypes (tblRow env e) :=
  fitsRow_cons (fits_name h1) (fitsRow_cons (fits_name h2) (fitsRow_cons (fits_name h3)
    (fitsRow_cons (fits_number _) (fitsRow_cons ⟨by simp [HasType], h4⟩ fitsRow_nil))))

theorem tblRow_columns (env : EngineEnv) (e : CatalogTable) :
    HasColumns (keyCols (tablesInfo env).key) (tblRow env e) := by
  rw [tblKey]; simp [HasColumns, tblRow]

/-- The entries of the system tables in the order in which they are inserted. -/
def systemEntries (env : EngineEnv) : List CatalogTable :=
  (systemTables env).map (fun p => ⟨ascii "system", ascii "info", ascii p.1, p.2.1, p.2.2⟩)

theorem structsToRows_map {ti : TypedInfo} {α : Type} {f : α → Struct} {g : α → Row} :
    ∀ {l : List α}, (∀ a ∈ l, ti.structToRow (f a) = .ok (g a)) →
      ti.structsToRows (l.map f) = .ok (l.map g)
  | [], _ => rfl
  | a :: l, h => by
    simp [TypedInfo.structsToRows, h a (by simp),
      structsToRows_map (l := l) (fun x hx => h x (List.mem_cons_of_mem _ hx))]

theorem initRows (env : EngineEnv) (hf : SystemFits env) :
    (tablesInfo env).structsToRows ((initTables env).map (fun it => initTableRow env it.1)) =
      .ok ((systemEntries env).map (tblRow env)) := by
  have hf0 := hf _ (show ("sequences", 16, systemDefinition env
    [("sequence", nameColumn), ("current", numberColumn)] 1) ∈ systemTables env by simp [systemTables])
  have hf1 := hf _ (show ("databases", 17, systemDefinition env
    [("database", nameColumn)] 1) ∈ systemTables env by simp [systemTables])
  have hf2 := hf _ (show ("schemas", 18, systemDefinition env
    [("database", nameColumn), ("schema", nameColumn)] 2) ∈ systemTables env by simp [systemTables])
  have hf3 := hf _ (show ("tables", 19, systemDefinition env
    [("database", nameColumn), ("schema", nameColumn), ("table", nameColumn),
      ("table_id", numberColumn), ("type", ⟨.bytes, 8192#32, false, true⟩)] 3) ∈ systemTables env by
    simp [systemTables])
  have h0 := initTableRow_eq env (ti := sequencesInfo env) (s := "sequences") (n := 16) rfl rfl
    (builtin_name env (id := 38) (by decide) (by decide)) (by decide) rfl rfl hf0
  have h1 := initTableRow_eq env (ti := databasesInfo env) (s := "databases") (n := 17) rfl rfl
    (builtin_name env (id := 16) (by decide) (by decide)) (by decide) rfl rfl hf1
  have h2 := initTableRow_eq env (ti := schemasInfo env) (s := "schemas") (n := 18) rfl rfl
    (builtin_name env (id := 37) (by decide) (by decide)) (by decide) rfl rfl hf2
  have h3 := initTableRow_eq env (ti := tablesInfo env) (s := "tables") (n := 19) rfl rfl
    (builtin_name env (id := 42) (by decide) (by decide)) (by decide) rfl rfl hf3
  simp [initTables, TypedInfo.structsToRows, h0, h1, h2, h3, systemEntries, systemTables]
  exact ⟨rfl, rfl, rfl, rfl⟩

theorem initStore_ok (env : EngineEnv) (hf : SystemFits env) :
    ∃ t, initStore env [] = (.ok (), t) ∧ Rep env t (Catalog.initial env) := by
  -- sequences
  obtain ⟨a1, ca, oka, nila, _, _, fra⟩ := create_typed (env := env) (t := []) List.Pairwise.nil
    (sequences_creatable env) (fresh_nil env _)
  have f17 := fra 17#32 (by decide) (show (16#32 : TableId) ≠ 17#32 by decide) (fresh_nil env _)
  have f18 := fra 18#32 (by decide) (show (16#32 : TableId) ≠ 18#32 by decide) (fresh_nil env _)
  have f19 := fra 19#32 (by decide) (show (16#32 : TableId) ≠ 19#32 by decide) (fresh_nil env _)
  obtain ⟨a2, ia, oka2, oa, ra⟩ := insert_step oka nila
    (structs := [sequencesRow nextTableIdSequence 512#64]) (rows := [seqRow 512])
    (by simp [TypedInfo.structsToRows, seqStruct, seqRow])
    (by
      intro r hr
      simp at hr; subst hr
      exact fitsRow_cons (fits_name (by decide)) (fitsRow_cons (fits_number _) fitsRow_nil))
    (by
      intro r hr
      simp at hr; subst hr
      rw [seqKey]; simp [HasColumns, seqRow])
    (by simp)
  replace f17 := f17.other oa oka.engine oka.sorted (show (16#32 : TableId) ≠ 17#32 by decide)
  replace f18 := f18.other oa oka.engine oka.sorted (show (16#32 : TableId) ≠ 18#32 by decide)
  replace f19 := f19.other oa oka.engine oka.sorted (show (16#32 : TableId) ≠ 19#32 by decide)
  -- databases
  obtain ⟨b1, cb, okb, nilb, keepb, rowsb, frb⟩ := create_typed oka2.sorted
    (databases_creatable env) f17
  replace f18 := frb 18#32 (by decide) (show (17#32 : TableId) ≠ 18#32 by decide) f18
  replace f19 := frb 19#32 (by decide) (show (17#32 : TableId) ≠ 19#32 by decide) f19
  have oka3 := keepb _ oka2
  obtain ⟨b2, ib, okb2, ob, rb⟩ := insert_step okb nilb
    (structs := [databasesRow (env.name idSystem), databasesRow (env.name idMaho)])
    (rows := [dbRow (ascii "system"), dbRow (ascii "maho")])
    (by
      rw [name_system, name_maho]
      simp only [TypedInfo.structsToRows]
      rw [dbStruct env (by decide), dbStruct env (by decide)]
      rfl)
    (by
      intro r hr
      simp at hr
      rcases hr with rfl | rfl <;> exact fitsRow_cons (fits_name (by decide)) fitsRow_nil)
    (by
      intro r hr
      simp at hr
      rw [dbKey]
      rcases hr with rfl | rfl <;> simp [HasColumns, dbRow])
    (by
      simp only [List.pairwise_cons, List.mem_singleton, forall_eq, List.not_mem_nil,
        false_implies, implies_true, List.Pairwise.nil, and_true, ne_eq, dbRow_order]
      decide)
  replace f18 := f18.other ob okb.engine okb.sorted (show (17#32 : TableId) ≠ 18#32 by decide)
  replace f19 := f19.other ob okb.engine okb.sorted (show (17#32 : TableId) ≠ 19#32 by decide)
  have oka4 := oka3.other ob okb.engine okb2.sorted (show (17#32 : TableId) ≠ 16#32 by decide)
  -- schemas
  obtain ⟨c1, cc, okc, nilc, keepc, rowsc, frc⟩ := create_typed okb2.sorted
    (schemas_creatable env) f18
  replace f19 := frc 19#32 (by decide) (show (18#32 : TableId) ≠ 19#32 by decide) f19
  have oka5 := keepc _ oka4
  have okb3 := keepc _ okb2
  obtain ⟨c2, ic, okc2, oc, rc⟩ := insert_step okc nilc
    (structs := [schemasRow (env.name idSystem) (env.name idInfo),
      schemasRow (env.name idMaho) (env.name idPublic)])
    (rows := [schRow (ascii "system", ascii "info"), schRow (ascii "maho", ascii "public")])
    (by
      rw [name_system, name_maho, name_info, name_public]
      simp only [TypedInfo.structsToRows]
      rw [schStruct env (by decide) (by decide), schStruct env (by decide) (by decide)]
      rfl)
    (by
      intro r hr
      simp at hr
      rcases hr with rfl | rfl <;>
        exact fitsRow_cons (fits_name (by decide)) (fitsRow_cons (fits_name (by decide)) fitsRow_nil))
    (by
      intro r hr
      simp at hr
      rw [schKey]
      rcases hr with rfl | rfl <;> simp [HasColumns, schRow])
    (by
      simp only [List.pairwise_cons, List.mem_singleton, forall_eq, List.not_mem_nil,
        false_implies, implies_true, List.Pairwise.nil, and_true, ne_eq, schRow_order]
      decide)
  replace f19 := f19.other oc okc.engine okc.sorted (show (18#32 : TableId) ≠ 19#32 by decide)
  have oka6 := oka5.other oc okc.engine okc2.sorted (show (18#32 : TableId) ≠ 16#32 by decide)
  have okb4 := okb3.other oc okc.engine okc2.sorted (show (18#32 : TableId) ≠ 17#32 by decide)
  -- tables
  obtain ⟨d1, cd, okd, nild, keepd, rowsd, _⟩ := create_typed okc2.sorted
    (tables_creatable env) f19
  have oka7 := keepd _ oka6
  have okb5 := keepd _ okb4
  have okc3 := keepd _ okc2
  have hent : ∀ e ∈ systemEntries env, e.database.length ≤ 128 ∧ e.schema.length ≤ 128 ∧
      e.table.length ≤ 128 ∧ (env.encodeDef e.definition).length ≤ 8192 := by
    intro e he
    obtain ⟨p, hp, rfl⟩ := List.mem_map.1 he
    refine ⟨(by decide : (ascii "system").length ≤ 128), (by decide : (ascii "info").length ≤ 128),
      ?_, hf p hp⟩
    change (ascii p.1).length ≤ 128
    simp only [systemTables, List.mem_cons, List.not_mem_nil, or_false] at hp
    rcases hp with rfl | rfl | rfl | rfl
    · exact (by decide : (ascii "sequences").length ≤ 128)
    · exact (by decide : (ascii "databases").length ≤ 128)
    · exact (by decide : (ascii "schemas").length ≤ 128)
    · exact (by decide : (ascii "tables").length ≤ 128)
  obtain ⟨d2, id, okd2, od, rd⟩ := insert_step okd nild (initRows env hf)
    (by
      intro r hr
      obtain ⟨e, he, rfl⟩ := List.mem_map.1 hr
      obtain ⟨h1, h2, h3, h4⟩ := hent e he
      exact tblRow_fits env h1 h2 h3 h4)
    (by
      intro r hr
      obtain ⟨e, he, rfl⟩ := List.mem_map.1 hr
      exact tblRow_columns env e)
    (by
      rw [List.pairwise_map]
      have : (systemEntries env).Pairwise (fun a b => a.table ≠ b.table) := by
        simp only [systemEntries, systemTables, List.map_cons, List.map_nil, List.pairwise_cons,
          List.mem_cons, List.not_mem_nil, or_false, forall_eq_or_imp, forall_eq,
          false_implies, implies_true, List.Pairwise.nil, and_true]
        decide
      refine this.imp ?_
      intro a b hab he
      have := (tblRow_order env _ _ _ _ _ b).1 he
      simp [CatalogTable.named] at this
      exact hab this.2.symm)
  have oka8 := oka7.other od okd.engine okd2.sorted (show (19#32 : TableId) ≠ 16#32 by decide)
  have okb6 := okb5.other od okd.engine okd2.sorted (show (19#32 : TableId) ≠ 17#32 by decide)
  have okc4 := okc3.other od okd.engine okd2.sorted (show (19#32 : TableId) ≠ 18#32 by decide)
  refine ⟨d2, ?_, oka8, okb6, okc4, okd2, ?_, ?_, ?_, ?_⟩
  · have hloop : initLoop env (initTables env) [] = (.ok (), d1) := by
      have h512 : ((maxReservedTableId + 1#32).zeroExtend 64 : BitVec 64) = 512#64 := by decide
      simp only [initTables, h512, initLoop, ca, ia, cb, ib, cc, ic, cd, List.length_cons,
        List.length_nil]
      simp
    unfold initStore
    rw [hloop]
    exact id
  · intro r
    rw [od.rows (show (19#32 : TableId) ≠ 16#32 by decide), rowsd _ (by decide),
      oc.rows (show (18#32 : TableId) ≠ 16#32 by decide), rowsc _ (by decide),
      ob.rows (show (17#32 : TableId) ≠ 16#32 by decide), rowsb _ (by decide)]
    have := ra r
    rw [show (sequencesInfo env).tid = (16#32 : TableId) from rfl] at this
    rw [this]
    simp [Catalog.initial]
  · intro r
    rw [od.rows (show (19#32 : TableId) ≠ 17#32 by decide), rowsd _ (by decide),
      oc.rows (show (18#32 : TableId) ≠ 17#32 by decide), rowsc _ (by decide)]
    have := rb r
    rw [show (databasesInfo env).tid = (17#32 : TableId) from rfl] at this
    rw [this]
    simp [Catalog.initial]
  · intro r
    rw [od.rows (show (19#32 : TableId) ≠ 18#32 by decide), rowsd _ (by decide)]
    have := rc r
    rw [show (schemasInfo env).tid = (18#32 : TableId) from rfl] at this
    rw [this]
    simp [Catalog.initial]
  · intro r
    have := rd r
    rw [show (tablesInfo env).tid = (19#32 : TableId) from rfl] at this
    rw [this]
    simp only [Catalog.initial, List.mem_reverse, List.mem_map, systemEntries]
    constructor
    · rintro ⟨e, he, rfl⟩; exact ⟨e, he, rfl⟩
    · rintro ⟨e, he, rfl⟩; exact ⟨e, he, rfl⟩

theorem initial_rep (env : EngineEnv) (hf : SystemFits env) :
    (engineInit env ⟨[], none⟩).1 = some (.ok ()) ∧
      RepState env (EngineState.initial env) ⟨Catalog.initial env, none⟩ := by
  obtain ⟨t, h1, h2⟩ := initStore_ok env hf
  unfold EngineState.initial engineInit withTransaction
  simp only [h1]
  exact ⟨trivial, h2, trivial⟩

end Maho
