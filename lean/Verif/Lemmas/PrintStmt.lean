import Verif.Model.Print
import Verif.Spec.PrintStmt
import Verif.Lemmas.PrintExpr
import Verif.Lemmas.GrammarSelect
import Verif.Lemmas.ColumnType
/-
Helper lemmas for C63: printed statements are read back.
-/
namespace Maho
open P Maho.Spec

theorem map_ok {α β : Type} {m : P α} {f : α → β} {a : α} {ts rest : List Token}
    (h : m ts = .ok a rest) : (f <$> m) ts = .ok (f a) rest := by
  show P.bind m (fun a => pure (f a)) ts = _
  simp only [P.bind, h]
  rfl

theorem parensOpt_map (o : Option Expr) : o.map parens = parensOpt o := by
  cases o <;> simp [parensOpt]

/-- A name follows. -/
def isName : Token → Bool
  | .identifier _ => true
  | _ => false

theorem fair_isName : IsFair isName := ⟨rfl, rfl⟩

/-- A reserved word follows. -/
def isWord : Token → Bool
  | .reserved _ => true
  | _ => false

theorem fair_isWord : IsFair isWord := ⟨rfl, rfl⟩

/-- The parser reads the tokens as the statement. -/
def StmtRun (env : ParseEnv) (s : Stmt) (ts : List Token) : Prop :=
  ∀ n, ts.length < n → ∀ rest, Ends queryEnd rest →
    (parsers env n).stmt env (ts ++ rest) = .ok (some s) rest

theorem stmt_hit {env : ParseEnv} {p : Parsers} {id : Identifier} {us : List Token}
    (hid : id ∈ stmtKeywords) :
    p.stmt env (.reserved id :: us) = p.afterKeyword env id us := by
  unfold Parsers.stmt
  have h : maybeToken .endOfStatement (.reserved id :: us) = .ok false (.reserved id :: us) :=
    maybeToken_miss (f := fun | .reserved _ => true | _ => false) (.cons rfl) ⟨rfl, rfl⟩ rfl (by simp)
  rw [bind_ok h, if_neg (by simp), bind_ok (expectReserved_hit hid)]

theorem table_ends {tn : TableName} {ts rest : List Token} (h : TableText tn ts) :
    Ends isName (ts ++ rest) := by
  obtain ⟨id, us, rfl⟩ := tableName_start h
  exact .cons rfl

theorem names_ends {l : List Identifier} {ts rest : List Token} (h : Separated Name l ts) :
    Ends isName (ts ++ rest) := by
  cases h with
  | one h => cases h; exact .cons rfl
  | cons h _ => cases h; exact .cons rfl

/-- The tokens of `IF EXISTS`. -/
def ifExistsTokens (b : Bool) : List Token :=
  if b then [.reserved Kw.IF, .reserved Kw.EXISTS] else []

theorem ifExists_run {b : Bool} {rest : List Token} (h : Ends isName rest) :
    parseIfExists (ifExistsTokens b ++ rest) = .ok b rest := by
  unfold parseIfExists ifExistsTokens
  cases b with
  | true =>
    simp only [if_true, List.cons_append, List.nil_append]
    rw [bind_ok (clause_hit (expectReserved_hit (by simp)))]
    rfl
  | false =>
    simp only [Bool.false_eq_true, if_false, List.nil_append]
    rw [bind_ok (clause_miss h fair_isName rfl)]
    rfl

/-- The tokens of `IF NOT EXISTS`. -/
def ifNotExistsTokens (b : Bool) : List Token :=
  if b then [.reserved Kw.IF, .reserved Kw.NOT, .reserved Kw.EXISTS] else []

theorem ifNotExists_run {b : Bool} {rest : List Token} (h : Ends isName rest) :
    parseIfNotExists (ifNotExistsTokens b ++ rest) = .ok b rest := by
  unfold parseIfNotExists ifNotExistsTokens
  cases b with
  | true =>
    simp only [if_true, List.cons_append, List.nil_append]
    rw [bind_ok (clause_hit (a := Kw.EXISTS) (by
      rw [bind_ok (expectReserved_hit (by simp))]
      exact expectReserved_hit (by simp)))]
    rfl
  | false =>
    simp only [Bool.false_eq_true, if_false, List.nil_append]
    rw [bind_ok (clause_miss h fair_isName rfl)]
    rfl

theorem schema_ends {sn : SchemaName} {ts rest : List Token} (h : SchemaForm sn ts) :
    Ends isName (ts ++ rest) := by
  cases h <;> exact .cons rfl

theorem printSchema_ok {env : ParseEnv} {sn : SchemaName} (h : PlainSchema env sn) :
    ∃ ts, Lex env.toScanEnv (sn.print env) ts ∧ SchemaForm sn ts := by
  obtain ⟨d, s⟩ := sn
  obtain ⟨hs, hd⟩ := h
  simp only at hs hd
  by_cases h0 : d = 0
  · subst h0
    exact ⟨_, (Lex.name hs).cast (by simp [SchemaName.print]) rfl, .one s⟩
  · exact ⟨_, (Lex.dot (hd.resolve_left h0) (Lex.name hs)).cast (by simp [SchemaName.print, h0]) rfl,
      .two d s⟩

section
set_option linter.unusedSectionVars false
variable {env : ParseEnv} (hw : KnowsWords env.toScanEnv)
include hw

theorem Lex.ifExists {a b : Bytes} {ts us : List Token} (e : Bool) (h1 : Lex env.toScanEnv a ts)
    (h2 : Lex env.toScanEnv b us) :
    Lex env.toScanEnv (a ++ (ascii " " ++ ((if e then ascii "IF EXISTS " else []) ++ b)))
      (ts ++ (ifExistsTokens e ++ us)) := by
  cases e with
  | true =>
    exact (h1.space ((Lex.word hw "IF" Kw.IF).space ((Lex.word hw "EXISTS" Kw.EXISTS).space h2))).cast
      (by simp [show ascii "IF EXISTS " = ascii "IF" ++ (ascii " " ++ (ascii "EXISTS" ++ ascii " ")) from rfl])
      (by simp [ifExistsTokens])
  | false => exact (h1.space h2).cast (by simp) (by simp [ifExistsTokens])

theorem Lex.ifNotExists {a b : Bytes} {ts us : List Token} (e : Bool) (h1 : Lex env.toScanEnv a ts)
    (h2 : Lex env.toScanEnv b us) :
    Lex env.toScanEnv (a ++ ((if e then ascii " IF NOT EXISTS" else []) ++ (ascii " " ++ b)))
      (ts ++ (ifNotExistsTokens e ++ us)) := by
  cases e with
  | true =>
    exact (h1.space ((Lex.word hw "IF" Kw.IF).space ((Lex.word hw "NOT" Kw.NOT).space
      ((Lex.word hw "EXISTS" Kw.EXISTS).space h2)))).cast
      (by simp [show ascii " IF NOT EXISTS" = ascii " " ++ (ascii "IF" ++ (ascii " " ++ (ascii "NOT" ++
        (ascii " " ++ ascii "EXISTS")))) from rfl])
      (by simp [ifNotExistsTokens])
  | false => exact (h1.space h2).cast (by simp) (by simp [ifNotExistsTokens])

/-- What is shown of a statement. -/
def StmtOk (env : ParseEnv) (s : Stmt) : Prop :=
  ∃ b ts, s.print env = .ok b ∧ Lex env.toScanEnv b ts ∧ StmtRun env (parensStmt s) ts

theorem begin_ok : StmtOk env .begin :=
  ⟨_, _, rfl, Lex.word hw "BEGIN" Kw.BEGIN, fun _ _ _ _ => by
    rw [List.cons_append, stmt_hit (by decide)]; rfl⟩

theorem commit_ok : StmtOk env .commit :=
  ⟨_, _, rfl, Lex.word hw "COMMIT" Kw.COMMIT, fun _ _ _ _ => by
    rw [List.cons_append, stmt_hit (by decide)]; rfl⟩

theorem rollback_ok : StmtOk env .rollback :=
  ⟨_, _, rfl, Lex.word hw "ROLLBACK" Kw.ROLLBACK, fun _ _ _ _ => by
    rw [List.cons_append, stmt_hit (by decide)]; rfl⟩

theorem createSchema_ok {sn : SchemaName} (h : PlainSchema env sn) :
    StmtOk env (.createSchema sn) := by
  obtain ⟨ts, h1, h2⟩ := printSchema_ok h
  refine ⟨_, _, rfl, ((Lex.word hw "CREATE" Kw.CREATE).space
    ((Lex.word hw "SCHEMA" Kw.SCHEMA).space h1)).cast ?_ rfl, fun n _ rest hr => ?_⟩
  · simp [show ascii "CREATE SCHEMA " = ascii "CREATE" ++ (ascii " " ++ (ascii "SCHEMA" ++ ascii " ")) from rfl]
  · simp only [List.cons_append, List.nil_append]
    rw [stmt_hit (by decide)]
    refine map_ok (a := Stmt.createSchema sn) ?_
    unfold Parsers.create
    rw [bind_ok (expectReserved_hit (by decide)), if_neg (by decide), if_neg (by decide),
      if_pos (by decide), bind_ok (schemaName_run h2 hr fair_queryEnd rfl)]
    rfl

theorem dropSchema_ok {sn : SchemaName} {e : Bool} (h : PlainSchema env sn) :
    StmtOk env (.dropSchema e sn) := by
  obtain ⟨ts, h1, h2⟩ := printSchema_ok h
  refine ⟨_, _, rfl, (((Lex.word hw "DROP" Kw.DROP).space
    (Lex.word hw "SCHEMA" Kw.SCHEMA)).ifExists hw e h1).cast ?_ rfl, fun n _ rest hr => ?_⟩
  · simp [show ascii "DROP SCHEMA " = ascii "DROP" ++ (ascii " " ++ (ascii "SCHEMA" ++ ascii " ")) from rfl]
  · simp only [List.cons_append, List.nil_append, List.append_assoc]
    rw [stmt_hit (by decide)]
    refine map_ok (a := Stmt.dropSchema e sn) ?_
    unfold parseDrop
    rw [bind_ok (expectReserved_hit (by decide)), if_neg (by decide), if_neg (by decide),
      if_pos (by decide)]
    unfold parseDropSchema
    rw [bind_ok (ifExists_run (schema_ends h2)), bind_ok (schemaName_run h2 hr fair_queryEnd rfl)]
    rfl

theorem dropDatabase_ok {d : Identifier} {e : Bool} (h : Plain env d) :
    StmtOk env (.dropDatabase e d) := by
  refine ⟨_, _, rfl, (((Lex.word hw "DROP" Kw.DROP).space
    (Lex.word hw "DATABASE" Kw.DATABASE)).ifExists hw e (Lex.name h)).cast ?_ rfl,
    fun n _ rest hr => ?_⟩
  · simp [show ascii "DROP DATABASE " = ascii "DROP" ++ (ascii " " ++ (ascii "DATABASE" ++ ascii " ")) from rfl]
  · simp only [List.cons_append, List.nil_append, List.append_assoc]
    rw [stmt_hit (by decide)]
    refine map_ok (a := Stmt.dropDatabase e d) ?_
    unfold parseDrop
    rw [bind_ok (expectReserved_hit (by decide)), if_pos (by decide)]
    unfold parseDropDatabase
    rw [bind_ok (ifExists_run (.cons rfl)), bind_ok expectIdentifier_hit]
    rfl

theorem dropIndex_ok {tn : TableName} {i : Identifier} {e : Bool} (h : PlainTable env tn)
    (hi : Plain env i) : StmtOk env (.dropIndex tn i e) := by
  obtain ⟨ts, h1, h2⟩ := printTable_ok h
  refine ⟨_, _, rfl, (((Lex.word hw "DROP" Kw.DROP).space
    (Lex.word hw "INDEX" Kw.INDEX)).ifExists hw e ((Lex.name hi).space
      ((Lex.word hw "ON" Kw.ON).space h1))).cast ?_ rfl, fun n _ rest hr => ?_⟩
  · simp [show ascii "DROP INDEX " = ascii "DROP" ++ (ascii " " ++ (ascii "INDEX" ++ ascii " ")) from rfl,
      show ascii " ON " = ascii " " ++ (ascii "ON" ++ ascii " ") from rfl]
  · simp only [List.cons_append, List.nil_append, List.append_assoc]
    rw [stmt_hit (by decide)]
    refine map_ok (a := Stmt.dropIndex tn i e) ?_
    unfold parseDrop
    rw [bind_ok (expectReserved_hit (by decide)), if_neg (by decide), if_pos (by decide)]
    unfold parseDropIndex
    rw [bind_ok (ifExists_run (.cons rfl)), bind_ok expectIdentifier_hit,
      bind_ok (expectReserved_hit (by decide)), bind_ok (tableName_run h2 hr fair_queryEnd rfl)]
    rfl

theorem separated_tables : ∀ {l : List TableName}, l ≠ [] → (∀ t ∈ l, PlainTable env t) →
    ∃ ts, Lex env.toScanEnv (commas (l.map (TableName.print env))) ts ∧ Separated TableText l ts
  | [], h, _ => absurd rfl h
  | tn :: l, _, h => by
    obtain ⟨ts, h1, h2⟩ := printTable_ok (h tn (by simp))
    cases l with
    | nil => exact ⟨ts, h1, .one h2⟩
    | cons t l =>
      obtain ⟨us, h3, h4⟩ := separated_tables (l := t :: l) (by simp) fun k hk => h k (by simp [hk])
      exact ⟨_, (h1.comma h3).cast (commas_cons _ _ _) rfl, .cons h2 h4⟩

omit hw in
theorem tables_ends {l : List TableName} {ts rest : List Token} (h : Separated TableText l ts) :
    Ends isName (ts ++ rest) := by
  cases h with
  | one h => exact table_ends h
  | cons h _ => rw [List.append_assoc]; exact table_ends h

theorem dropTableText_ok {l : List TableName} {e c : Bool} (h0 : l ≠ [])
    (h : ∀ t ∈ l, PlainTable env t) : StmtOk env (.dropTable e c l) := by
  obtain ⟨ts, h1, h2⟩ := separated_tables hw h0 h
  have h3 := ((Lex.word hw "DROP" Kw.DROP).space (Lex.word hw "TABLE" Kw.TABLE)).ifExists hw e h1
  have h4 : Lex env.toScanEnv (ascii "DROP TABLE " ++ (if e then ascii "IF EXISTS " else []) ++
      commas (l.map (TableName.print env)) ++ (if c then ascii " CASCADE" else []))
      ([.reserved Kw.DROP, .reserved Kw.TABLE] ++ (ifExistsTokens e ++ (ts ++
        (if c then [.reserved Kw.CASCADE] else [])))) := by
    have ht : ascii "DROP TABLE " = ascii "DROP" ++ (ascii " " ++ (ascii "TABLE" ++ ascii " ")) := rfl
    cases c with
    | true => exact (h3.space (Lex.word hw "CASCADE" Kw.CASCADE)).cast (by
        simp [ht, show ascii " CASCADE" = ascii " " ++ ascii "CASCADE" from rfl]) (by simp)
    | false => exact h3.cast (by simp [ht]) (by simp)
  refine ⟨_, _, rfl, h4, fun n _ rest hr => ?_⟩
  simp only [List.cons_append, List.nil_append, List.append_assoc]
  rw [stmt_hit (by decide)]
  refine map_ok (a := Stmt.dropTable e c l) ?_
  unfold parseDrop
  rw [bind_ok (expectReserved_hit (by decide)), if_neg (by decide), if_neg (by decide),
    if_neg (by decide)]
  unfold parseDropTable
  rw [bind_ok (ifExists_run (tables_ends h2))]
  have h5 : Ends (tailEnd [Kw.CASCADE]) ((if c then [.reserved Kw.CASCADE] else []) ++ rest) := by
    cases c with
    | true => exact .cons rfl
    | false => exact hr.mono fun t ht => tailEnd_cons _ (tailEnd_queryEnd ht)
  obtain ⟨as, h6, h7⟩ := separatedList_run (S := Eq) (n := ts.length + 1) (item := parseTableName)
    (f := fun t => t == Tok.comma || tailEnd [Kw.CASCADE] t)
    (g := tailEnd [Kw.CASCADE]) (rest := (if c then [.reserved Kw.CASCADE] else []) ++ rest) rfl
    (fun t ht => by simp [ht]) (fair_tailEnd _) rfl h5
    (fun b us hb _ rest hr => ⟨b, tableName_run hb hr ⟨rfl, rfl⟩ rfl, rfl⟩) h2 (by omega)
  obtain rfl := Pairwise2.eq h6
  rw [bind_ok h7]
  cases c with
  | true =>
    simp only [if_true, List.cons_append, List.nil_append]
    rw [bind_ok (optionalReserved_hit (by simp))]
    rfl
  | false =>
    simp only [Bool.false_eq_true, if_false, List.nil_append]
    rw [bind_ok (optionalReserved_miss hr fair_queryEnd (fun _ _ => rfl)), if_neg (by simp),
      bind_ok (optionalReserved_miss hr fair_queryEnd (fun _ _ => rfl))]
    rfl

theorem delete_ok {tn : TableName} {cond : Option Expr} (h : PlainTable env tn)
    (hc : PrintableOpt env cond) : StmtOk env (.delete tn cond) := by
  obtain ⟨ts, h1, h2⟩ := printTable_ok h
  obtain ⟨us, h3, h4⟩ := clause_ok hw env.words "WHERE" Kw.WHERE (by decide)
    (opt_ok hw env.words cond hc)
    ((Lex.word hw "DELETE" Kw.DELETE).space ((Lex.word hw "FROM" Kw.FROM).space h1))
  refine ⟨_, _, rfl, h3.cast ?_ rfl, fun n hn rest hr => ?_⟩
  · simp [show ascii "DELETE FROM " = ascii "DELETE" ++ (ascii " " ++ (ascii "FROM" ++ ascii " ")) from rfl,
      show ascii " WHERE " = ascii " " ++ (ascii "WHERE" ++ ascii " ") from rfl]
  · simp only [List.length_append, List.length_cons, List.length_nil] at hn
    simp only [List.cons_append, List.nil_append, List.append_assoc]
    rw [stmt_hit (by decide)]
    have h5 : Ends (tailEnd []) rest := hr.mono fun t => tailEnd_queryEnd
    show (expectReserved [Kw.FROM] >>= fun _ => some <$> (parsers env n).delete) _ = _
    rw [bind_ok (expectReserved_hit (by decide))]
    rw [show parensStmt (.delete tn cond) = .delete tn (parensOpt cond) by
      simp [parensStmt, changeStmt, parensOpt_map]]
    refine map_ok ?_
    unfold Parsers.delete
    rw [bind_ok (tableName_run h2 (optExpr_ends h4 h5) (fair_tailEnd _) rfl),
      bind_ok (optExpr_run (grammar_ok env n).1 h4 (by omega) (by simp) (by simp) h5)]
    rfl

theorem setting_ok {value : Bytes} (h : PlainSetting env value) :
    ∃ v ts, (∀ s, v ≠ .str s) ∧ env.valueString v = value ∧ ExprOk env env.words (.lit (some v)) ts := by
  rcases h with rfl | rfl | ⟨i, hi, rfl⟩ | ⟨f, l, h1, h2, h3, rfl⟩
  · obtain ⟨ts, h⟩ := lit_ok hw env.words (v := some (.bool true)) trivial
    exact ⟨_, ts, by simp, rfl, h⟩
  · obtain ⟨ts, h⟩ := lit_ok hw env.words (v := some (.bool false)) trivial
    exact ⟨_, ts, by simp, rfl, h⟩
  · obtain ⟨ts, h⟩ := lit_ok hw env.words (v := some (.int i)) hi
    exact ⟨_, ts, by simp, rfl, h⟩
  · obtain ⟨ts, h⟩ := lit_ok hw env.words (v := some (.float f)) ⟨l, h1, h2, h3⟩
    exact ⟨_, ts, by simp, rfl, h⟩

theorem set_ok {var : Identifier} {value : Bytes}
    (hv : var = Kw.DATABASE ∨ var = Kw.SCHEMA ∨ 0 ≤ var) (hl : Legible env var)
    (h : PlainSetting env value) : StmtOk env (.set var value) := by
  obtain ⟨v, ts, h1, h2, h3⟩ := setting_ok hw h
  have h4 : Lex env.toScanEnv value ts := h3.lex.cast (by simp [Expr.print, h2]) rfl
  have h5 : Written env.words (.lit (some v)) ts := by simpa [parens] using h3.written
  refine ⟨_, _, rfl, ((Lex.word hw "SET" Kw.SET).space ((Lex.legible hl).space
    ((Lex.word hw "TO" Kw.TO).space h4))).cast ?_ rfl, fun n hn rest hr => ?_⟩
  · simp [show ascii "SET " = ascii "SET" ++ ascii " " from rfl,
      show ascii " TO " = ascii " " ++ (ascii "TO" ++ ascii " ") from rfl]
  · simp only [List.length_append, List.length_cons, List.length_nil] at hn
    simp only [List.cons_append, List.nil_append]
    rw [stmt_hit (by decide)]
    refine map_ok (a := Stmt.set var value) ?_
    unfold Parsers.set
    have h7 : (parsers env n).settingValue env (ts ++ rest) = .ok value rest := by
      unfold Parsers.settingValue
      rw [bind_ok ((grammar_ok env n).1.expr h5 (by omega) (hr.mono fun t ht =>
        exprEnd_tailEnd (l := []) (by simp) (tailEnd_queryEnd ht)))]
      cases v with
      | str s => exact absurd rfl (h1 s)
      | _ => exact congrArg (PRes.ok · rest) h2
    have h8 : maybeToken Tok.equal (.reserved Kw.TO :: (ts ++ rest)) =
        .ok false (.reserved Kw.TO :: (ts ++ rest)) :=
      maybeToken_miss (f := isWord) (.cons rfl) fair_isWord rfl (by simp)
    have h9 : (do
        let equal ← maybeToken Tok.equal
        let _ ← if equal then pure 0 else expectReserved [Kw.TO]
        let value ← (parsers env n).settingValue env
        pure (Stmt.set var value) : P Stmt) (.reserved Kw.TO :: (ts ++ rest)) = .ok (.set var value) rest := by
      rw [bind_ok h8, if_neg (by simp), bind_ok (expectReserved_hit (by simp))]
      exact (bind_ok h7).trans rfl
    rcases hv with rfl | rfl | hv
    · rw [if_pos (by decide), bind_ok (optionalReservedId_hit (by decide))]
      exact h9
    · rw [if_pos (by decide), bind_ok (optionalReservedId_hit (by decide))]
      exact h9
    · rw [if_neg (by omega), bind_ok (optionalReservedId_miss (f := isName) (.cons rfl) fair_isName
          (fun _ _ => rfl))]
      exact h9

omit hw in
theorem query_run {q : Query} {ts : List Token} (h : QueryText env.words q ts)
    (ht : ts.head? ≠ some (.reserved Kw.TABLE)) : StmtRun env (.query q) ts := by
  intro n hn rest hr
  have hg := grammar_ok env n
  cases h with
  | select h1 h2 h3 h4 h5 h6 =>
    simp only [List.length_cons, List.length_append] at hn
    simp only [List.cons_append, List.append_assoc]
    rw [stmt_hit (by decide)]
    exact map_ok (select_run hg.1 hg.2.2 h1 h2 h3 h4 h5 h6 (by omega) hr)
  | @values rows ts m hm h =>
    simp only [List.length_cons] at hn
    rw [List.cons_append, stmt_hit (by decide)]
    exact map_ok (values_run hg.1 h hm (by omega) hr)
  | table h => simp at ht
  | showReserved v h =>
    simp only [List.cons_append, List.nil_append]
    rw [stmt_hit (by decide)]
    exact map_ok (showVariable_run h)
  | showVariable v h =>
    simp only [List.cons_append, List.nil_append]
    rw [stmt_hit (by decide)]
    exact map_ok (showVariable_run h)
  | shows h =>
    rw [List.cons_append, stmt_hit (by decide)]
    exact map_ok (show_form h hr)

theorem queryStmt_ok {q : Query} (h : PrintableQuery env q) : StmtOk env (.query q) := by
  obtain ⟨ts, h1, h2, h3⟩ := query_ok hw env.words q h
  exact ⟨_, _, rfl, h1, query_run h2 (by rw [h3]; cases q <;> simp [queryWord])⟩

theorem explain_ok {q : Query} (hq : ∃ rs f c g h o, q = .select rs f c g h o)
    (h : PrintableQuery env q) : StmtOk env (.explain q false) := by
  obtain ⟨ts, h1, h2, h3⟩ := query_ok hw env.words q h
  refine ⟨_, _, rfl, ((Lex.word hw "EXPLAIN" Kw.EXPLAIN).space h1).cast ?_ rfl, fun n hn rest hr => ?_⟩
  · simp [show ascii "EXPLAIN " = ascii "EXPLAIN" ++ ascii " " from rfl]
  · have hg := grammar_ok env n
    simp only [List.length_append, List.length_cons, List.length_nil] at hn
    simp only [List.cons_append, List.nil_append]
    rw [stmt_hit (by decide)]
    refine map_ok (a := Stmt.explain (parensQuery q) false) ?_
    obtain ⟨rs, f, c, g, hv, o, rfl⟩ := hq
    rw [parensQuery] at h2 ⊢
    generalize parensResults rs = rs at *
    generalize parensOptFrom f = f at *
    generalize parensOpt c = c at *
    generalize parensAll g = g at *
    generalize parensOpt hv = hv at *
    cases h2 with
    | select s1 s2 s3 s4 s5 s6 =>
      simp only [List.length_cons, List.length_append] at hn
      simp only [List.cons_append, List.append_assoc]
      unfold Parsers.explain
      rw [bind_ok (optionalReserved_miss (f := fun t => t == .reserved Kw.SELECT) (.cons (by simp))
        ⟨rfl, rfl⟩ (by decide)), bind_ok (expectReserved_hit (by simp)),
        bind_ok (select_run hg.1 hg.2.2 s1 s2 s3 s4 s5 s6 (by omega) hr)]
      rfl
    | table h => simp [queryWord] at h3
    | shows h => simp [queryWord] at h3

/-- A state, the tokens of a list with commas, and the state after them. -/
inductive Chain {σ : Type} (R : σ → List Token → σ → Prop) : σ → List Token → σ → Prop
  | one {s s' : σ} {ts : List Token} : R s ts s' → Chain R s ts s'
  | cons {s s' s'' : σ} {ts us : List Token} : R s ts s' → Chain R s' us s'' →
    Chain R s (ts ++ Tok.comma :: us) s''

omit hw in
theorem Chain.append {σ : Type} {R : σ → List Token → σ → Prop} {s s' s'' : σ} {ts us : List Token} :
    Chain R s ts s' → Chain R s' us s'' → Chain R s (ts ++ Tok.comma :: us) s''
  | .one h, h2 => .cons h h2
  | .cons h h1, h2 => by
    have := Chain.cons h (h1.append h2)
    simpa using this

/-- After an element of a list in parentheses. -/
def closeEnd (t : Token) : Bool := t == Tok.comma || t == Tok.rparen

omit hw in
theorem fair_closeEnd : IsFair closeEnd := ⟨rfl, rfl⟩

omit hw in
theorem closed_loop {σ : Type} {R : σ → List Token → σ → Prop} {step : σ → P σ} {n : Nat}
    (h : ∀ s ts s', R s ts s' → ts.length < n → ∀ rest, Ends closeEnd rest →
      step s (ts ++ rest) = .ok s' rest) {rest : List Token} :
    ∀ {s s' : σ} {ts : List Token}, Chain R s ts s' → ts.length < n → ∀ k, ts.length < k →
      loopFuel (fun s => do
        let s ← step s
        let t ← expectTokens [Tok.comma, Tok.rparen]
        pure (s, t == Tok.comma)) k s (ts ++ Tok.rparen :: rest) = .ok s' rest
  | s, s', _, .one (ts := ts) h1, hn, k, hk => by
    obtain ⟨j, rfl⟩ : ∃ j, k = j + 1 := ⟨k - 1, by omega⟩
    unfold loopFuel
    have hs : (do
        let s ← step s
        let t ← expectTokens [Tok.comma, Tok.rparen]
        pure (s, t == Tok.comma) : P (σ × Bool)) (ts ++ Tok.rparen :: rest) = .ok (s', false) rest := by
      rw [bind_ok (h s ts s' h1 hn _ (.cons rfl)), bind_ok (expectTokens_hit (by simp) (by simp))]
      rfl
    rw [bind_ok hs]
    rfl
  | s, s'', _, .cons (s' := s') (ts := ts) (us := us) h1 h2, hn, k, hk => by
    obtain ⟨j, rfl⟩ : ∃ j, k = j + 1 := ⟨k - 1, by omega⟩
    simp only [List.length_append, List.length_cons] at hn hk
    unfold loopFuel
    have hs : (do
        let s ← step s
        let t ← expectTokens [Tok.comma, Tok.rparen]
        pure (s, t == Tok.comma) : P (σ × Bool)) (ts ++ Tok.comma :: (us ++ Tok.rparen :: rest)) =
          .ok (s', true) (us ++ Tok.rparen :: rest) := by
      rw [bind_ok (h s ts s' h1 (by omega) _ (.cons rfl)),
        bind_ok (expectTokens_hit (by simp) (by simp))]
      rfl
    rw [List.append_assoc, List.cons_append, bind_ok hs]
    exact closed_loop h h2 (by omega) j (by omega)

omit hw in
theorem closed_run {σ : Type} {R : σ → List Token → σ → Prop} {step : σ → P σ} {n : Nat}
    (h : ∀ s ts s', R s ts s' → ts.length < n → ∀ rest, Ends closeEnd rest →
      step s (ts ++ rest) = .ok s' rest) {rest : List Token} {s s' : σ} {ts : List Token}
    (hc : Chain R s ts s') (hn : ts.length < n) :
    closed step s (ts ++ Tok.rparen :: rest) = .ok s' rest :=
  closed_loop h hc hn _ (by simp; omega)

omit hw in
theorem key_chain {unique : Bool} : ∀ {l : List (Identifier × Bool)} {ts : List Token},
    Separated OrderText l ts → ∀ (cols : List Identifier) (rev : List Bool),
      (cols ++ l.map (·.1)).Nodup →
      Chain (fun (k : IndexKey) us (k' : IndexKey) => ∃ o, OrderText o us ∧ o.1 ∉ k.columns ∧
        k' = ⟨k.unique, k.columns ++ [o.1], k.reverse ++ [o.2]⟩)
        ⟨unique, cols, rev⟩ ts ⟨unique, cols ++ l.map (·.1), rev ++ l.map (·.2)⟩
  | _, _, .one (a := o) h, cols, rev, hd => .one ⟨o, h, by
      simp [List.nodup_append] at hd
      intro hc
      exact hd.2 _ hc rfl, rfl⟩
  | _, _, .cons (a := o) (l := l) h h2, cols, rev, hd => by
      have := key_chain (unique := unique) h2 (cols ++ [o.1]) (rev ++ [o.2]) (by simpa using hd)
      refine .cons ⟨o, h, ?_, rfl⟩ (by simpa using this)
      simp [List.nodup_append] at hd
      intro hc
      exact hd.2.2 _ hc |>.1 rfl

omit hw in
theorem zip_split {α β : Type} : ∀ {l : List α} {m : List β}, m.length = l.length →
    (l.zip m).map (·.1) = l ∧ (l.zip m).map (·.2) = m
  | [], [], _ => ⟨rfl, rfl⟩
  | a :: l, b :: m, h => by
    have := zip_split (l := l) (m := m) (by simpa using h)
    simp [this.1, this.2]

/-- The parser reads the tokens as the key. -/
def KeyRun (k : IndexKey) (ts : List Token) : Prop :=
  (∃ us, ts = Tok.lparen :: us) ∧ ∀ rest, parseKey k.unique (ts ++ rest) = .ok k rest

theorem key_ok {k : IndexKey} (h : PlainKey env k) :
    ∃ ts, Lex env.toScanEnv (k.print env) ts ∧ KeyRun k ts := by
  obtain ⟨unique, cols, rev⟩ := k
  obtain ⟨h0, hd, hp, hl⟩ := h
  simp only at h0 hd hp hl
  have hz := zip_split hl
  have hne : cols.zip rev ≠ [] := by
    intro he
    rw [he] at hz
    exact h0 hz.1.symm
  obtain ⟨ts, h1, h2⟩ := separated_orders hw hne (fun o ho => hp _ (by
    rw [← hz.1]
    exact List.mem_map_of_mem ho))
  refine ⟨_, h1.parens.cast (by simp [IndexKey.print, hl]) rfl, ⟨_, rfl⟩, fun rest => ?_⟩
  have h3 := key_chain (unique := unique) h2 [] [] (by rw [List.nil_append, hz.1]; exact hd)
  rw [List.nil_append, List.nil_append, hz.1, hz.2] at h3
  unfold parseKey inParens
  simp only [List.cons_append, List.append_assoc, List.nil_append]
  rw [bind_ok (expectTokens_hit (by simp) (by simp))]
  refine closed_run (n := ts.length + 1) ?_ h3 (by omega)
  rintro k us k' ⟨o, ho, hc, rfl⟩ _ rest hr
  cases ho with
  | _ => 
    simp only [List.cons_append, List.nil_append]
    rw [bind_ok expectIdentifier_hit, if_neg hc]
    first
      | rw [bind_ok (optionalReserved_hit (by simp)), if_pos rfl]
        rfl
      | rw [bind_ok (optionalReserved_miss (f := fun t => t == .reserved Kw.DESC) (.cons (by simp)) ⟨rfl, rfl⟩ (by decide)),
          if_neg (by simp), bind_ok (optionalReserved_hit (by simp))]
        rfl
      | rw [bind_ok (optionalReserved_miss hr fair_closeEnd (fun _ _ => rfl)),
          if_neg (by simp), bind_ok (optionalReserved_miss hr fair_closeEnd (fun _ _ => rfl))]
        rfl

theorem createIndex_ok {index : Identifier} {tn : TableName} {k : IndexKey} {e : Bool}
    (hi : Plain env index) (ht : PlainTable env tn) (hk : PlainKey env k) :
    StmtOk env (.createIndex index tn k e) := by
  obtain ⟨ts, h1, h2⟩ := printTable_ok ht
  obtain ⟨us, h3, ⟨ks, hks⟩, h4⟩ := key_ok hw hk
  have h5 : Lex env.toScanEnv (ascii "CREATE" ++ ((if k.unique then ascii " UNIQUE" else []) ++
      ascii " INDEX")) (.reserved Kw.CREATE :: ((if k.unique then [.reserved Kw.UNIQUE] else []) ++
        [.reserved Kw.INDEX])) := by
    have c := Lex.word hw "CREATE" Kw.CREATE
    have i := Lex.word hw "INDEX" Kw.INDEX
    cases k.unique with
    | true => exact (c.space ((Lex.word hw "UNIQUE" Kw.UNIQUE).space i)).cast rfl rfl
    | false => exact (c.space i).cast rfl rfl
  have h6 := h5.ifNotExists hw e ((Lex.name hi).space ((Lex.word hw "ON" Kw.ON).space (h1.space h3)))
  refine ⟨_, _, rfl, h6.cast ?_ rfl, fun n hn rest hr => ?_⟩
  · simp [show ascii " ON " = ascii " " ++ (ascii "ON" ++ ascii " ") from rfl]
  · have h7 : parseCreateIndex k.unique (ifNotExistsTokens e ++ (.identifier index ::
        .reserved Kw.ON :: (ts ++ (us ++ rest)))) = .ok (.createIndex index tn k e) rest := by
      unfold parseCreateIndex
      have hp : Ends (fun t => t == Tok.lparen) (us ++ rest) := by
        subst hks
        exact .cons (by simp)
      rw [bind_ok (ifNotExists_run (.cons rfl)), bind_ok expectIdentifier_hit,
        bind_ok (expectReserved_hit (by simp)), bind_ok (tableName_run h2 hp ⟨rfl, rfl⟩ rfl),
        bind_ok (clause_miss hp ⟨rfl, rfl⟩ rfl), if_neg (by simp), bind_ok (h4 rest)]
      rfl
    simp only [List.cons_append, List.nil_append, List.append_assoc]
    rw [stmt_hit (by decide)]
    refine map_ok (a := Stmt.createIndex index tn k e) ?_
    unfold Parsers.create
    cases hu : k.unique with
    | true =>
      rw [hu] at h7
      simp only [if_true, List.cons_append, List.nil_append]
      rw [bind_ok (expectReserved_hit (by decide)), if_neg (by decide), if_neg (by decide),
        if_neg (by decide), if_neg (by decide), bind_ok (expectReserved_hit (by decide))]
      exact h7
    | false =>
      rw [hu] at h7
      simp only [Bool.false_eq_true, if_false, List.nil_append]
      rw [bind_ok (expectReserved_hit (by decide)), if_neg (by decide), if_pos (by decide)]
      exact h7

omit hw in
theorem Lex.equals {b : Bytes} {us : List Token} (h : Lex env.toScanEnv b us) :
    Lex env.toScanEnv (ascii "=" ++ (ascii " " ++ b)) (Tok.equal :: us) := by
  obtain ⟨k, e, ⟨d, n, rfl, hd⟩, n1, t⟩ := h
  refine ⟨[61] ++ ([32] ++ d :: n), .append (encodes_ascii (by simp) rfl)
    (.append (encodes_ascii (by simp) rfl) e), ⟨61, _, rfl, by decide⟩, by simp [n1], fun rest hrest => ?_⟩
  have := Lexes.op1 env.toScanEnv (r := 61) (by simp) (d :: n ++ rest)
  rw [List.append_assoc, List.append_assoc]
  show tokenize env.toScanEnv (61 :: 32 :: (d :: n ++ rest)) = _
  rw [this, t rest hrest]
  rfl

/-- A keyword that is not reserved. -/
theorem Lex.known (s : String) {id : Identifier} (h : (s, id) ∈ keywordTable) (hid : 0 ≤ id)
    (hs : (ascii s).all (fun c => 65 ≤ c.toNat ∧ c.toNat ≤ 90) = true) (hne : ascii s ≠ []) :
    Lex env.toScanEnv (ascii s) [.identifier id] := by
  have := Lexes.keyword hw.keywords h hs hne
  rw [if_neg (by omega)] at this
  have hs' : ∀ c ∈ ascii s, 65 ≤ c.toNat ∧ c.toNat ≤ 90 := by simpa using hs
  refine .of_lexes (encodes_source fun c hc => by have := hs' c hc; omega) ?_ this
    fun rest hr => hr.notIdent _
  cases e : ascii s with
  | nil => exact absurd e hne
  | cons c m =>
    refine ⟨c.toNat, source m, rfl, ?_⟩
    have := hs' c (by simp [e])
    simp [isSpace]
    omega

omit hw in
theorem columns_in_parens {l : List Identifier} {ts rest : List Token} (h : Separated Name l ts)
    (hd : l.Nodup) : parseColumns (inParens ts ++ rest) = .ok l rest := by
  unfold parseColumns inParens
  simp only [List.cons_append, List.append_assoc, List.nil_append]
  rw [bind_ok (maybeToken_hit (by simp)), if_pos rfl]
  exact distinctColumns_run h hd

theorem copy_ok {tn : TableName} {cols : List Identifier} {d : Nat} (ht : PlainTable env tn)
    (h0 : cols ≠ []) (hd : cols.Nodup) (hc : ∀ c ∈ cols, Plain env c) (hd1 : d < 128)
    (hd2 : d ≠ 39) : StmtOk env (.copy tn cols [] d) := by
  obtain ⟨ts, h1, h2⟩ := printTable_ok ht
  obtain ⟨cs, h3, h4⟩ := separated_names h0 hc
  have h5 := (Lex.word hw "COPY" Kw.COPY).space (h1.space (h3.parens.space
    ((Lex.word hw "FROM" Kw.FROM).space
      (Lex.known hw "STDIN" (id := Kw.STDIN) (by decide) (by decide) (by decide) (by decide)))))
  have h6 : Lex env.toScanEnv (ascii "COPY " ++ tn.print env ++ ascii " (" ++
      commas (cols.map env.string) ++ ascii ") FROM STDIN" ++
      (if d = 9 then [] else ascii " DELIMITER '" ++ runeBytes d ++ ascii "'"))
      (.reserved Kw.COPY :: (ts ++ (inParens cs ++ (.reserved Kw.FROM :: .identifier Kw.STDIN ::
        (if d = 9 then [] else [.reserved Kw.DELIMITER, .string [BitVec.ofNat 8 d]]))))) := by
    have t1 : ascii "COPY " = ascii "COPY" ++ ascii " " := rfl
    have t2 : ascii " (" = ascii " " ++ ascii "(" := rfl
    have t3 : ascii ") FROM STDIN" = ascii ")" ++ (ascii " " ++ (ascii "FROM" ++ (ascii " " ++ ascii "STDIN"))) := rfl
    have t4 : ascii " DELIMITER '" = ascii " " ++ (ascii "DELIMITER" ++ (ascii " " ++ ascii "'")) := rfl
    by_cases h9 : d = 9
    · exact h5.cast (by simp [h9, t1, t2, t3]) (by simp [h9])
    · have hr : runeBytes d = [BitVec.ofNat 8 d] := by
        rw [runeBytes_eq, runeText_ascii hd1]
      have h7 := Lex.string env.toScanEnv (l := [d]) (s := runeBytes d)
        (encodes_ascii (by simpa using hd1) (by
          rw [runeBytes_eq]
          exact List.append_nil _)) (by simpa using Ne.symm hd2)
      exact (h5.space ((Lex.word hw "DELIMITER" Kw.DELIMITER).space h7)).cast
        (by simp [h9, t1, t2, t3, t4]) (by simp [h9, hr])
  refine ⟨_, _, rfl, h6, fun n _ rest hr => ?_⟩
  simp only [List.cons_append, List.append_assoc]
  rw [stmt_hit (by decide)]
  refine map_ok (a := Stmt.copy tn cols [] d) ?_
  unfold parseCopy
  have hp : ∀ l, Ends (fun t => t == Tok.lparen) (inParens cs ++ l) := fun l => .cons rfl
  rw [bind_ok (tableName_run h2 (hp _) ⟨rfl, rfl⟩ rfl), bind_ok (columns_in_parens h4 hd), bind_ok (expectReserved_hit (by simp)),
    bind_ok expectIdentifier_hit, if_neg (by simp)]
  by_cases h9 : d = 9
  · rw [if_pos h9, List.nil_append, bind_ok (clause_miss hr fair_queryEnd rfl), h9]
    rfl
  · rw [if_neg h9]
    simp only [List.cons_append, List.nil_append]
    rw [bind_ok (clause_hit (a := d) (rest := rest) (by
      rw [bind_ok (next_hit (by simp))]
      show PRes.ok (BitVec.ofNat 8 d).toNat rest = _
      rw [BitVec.toNat_ofNat, Nat.mod_eq_of_lt (by omega)]))]
    rfl

/-- An expression that is there. -/
def SomeText (words : Words) (o : Option Expr) (ts : List Token) : Prop :=
  ∃ e, o = some e ∧ Written words e ts

omit hw in
theorem exprOrDefault_run {n : Nat} {o : Option Expr} {ts : List Token}
    (h : SomeText env.words o ts) (hn : ts.length < n) {rest : List Token} (hr : Ends exprEnd rest) :
    (parsers env n).exprOrDefault (ts ++ rest) = .ok o rest := by
  obtain ⟨e, rfl, h⟩ := h
  unfold Parsers.exprOrDefault
  rw [bind_ok (optionalReserved_miss (written_ends h) fair_exprStart (by decide)), if_neg (by simp),
    bind_ok ((grammar_ok env n).1.expr h hn hr)]
  rfl

theorem someExpr_ok {o : Option Expr} (hs : o.isSome = true) (h : PrintableOpt env o) :
    ∃ e ts, o = some e ∧ ExprOk env env.words e ts := by
  cases o with
  | none => simp at hs
  | some e =>
    obtain ⟨ts, h1⟩ := expr_ok hw env.words e (by simpa [PrintableOpt] using h)
    exact ⟨e, ts, rfl, h1⟩

/-- A row of `INSERT`. -/
def InsertRow (words : Words) (row : List (Option Expr)) (ts : List Token) : Prop :=
  ∃ us, ts = inParens us ∧ Separated (SomeText words) row us

theorem insertExprs_ok : ∀ {row : List (Option Expr)}, row ≠ [] →
    (∀ o ∈ row, o.isSome = true ∧ PrintableOpt env o) →
    ∃ bs ts, printEach (printPresent env) row = .ok bs ∧ Lex env.toScanEnv (commas bs) ts ∧ bs ≠ [] ∧
      Separated (SomeText env.words) (row.map (·.map parens)) ts
  | [], h0, _ => absurd rfl h0
  | o :: row, _, h => by
    obtain ⟨e, ts, rfl, h1⟩ := someExpr_ok hw (h o (by simp)).1 (h o (by simp)).2
    have h2 : SomeText env.words (some (parens e)) ts := ⟨_, rfl, h1.written⟩
    cases row with
    | nil =>
      exact ⟨_, ts, rfl, h1.lex.cast (by simp [commas]) rfl, by simp, .one h2⟩
    | cons o2 row =>
      obtain ⟨bs, us, h3, h4, h5, h6⟩ := insertExprs_ok (row := o2 :: row) (by simp)
        fun o ho => h o (by simp [ho])
      refine ⟨e.print env :: bs, _, ?_, (h1.lex.comma h4).cast ?_ rfl, by simp, .cons h2 h6⟩
      · rw [printEach, h3]
        rfl
      · cases bs with
        | nil => exact absurd rfl h5
        | cons b bs => exact commas_cons _ _ _

theorem insertedRows_ok : ∀ {rows : List (List (Option Expr))}, rows ≠ [] →
    (∀ row ∈ rows, row ≠ [] ∧ ∀ o ∈ row, o.isSome = true ∧ PrintableOpt env o) →
    ∃ bs ts, printEach (printRow env) rows = .ok bs ∧ Lex env.toScanEnv (commas bs) ts ∧ bs ≠ [] ∧
      Separated (InsertRow env.words) (rows.map fun row => row.map (·.map parens)) ts
  | [], h0, _ => absurd rfl h0
  | row :: rows, _, h => by
    obtain ⟨es, ts, h1, h2, h3, h4⟩ := insertExprs_ok hw (h row (by simp)).1 (h row (by simp)).2
    have h5 : InsertRow env.words (row.map (·.map parens)) (inParens ts) := ⟨_, rfl, h4⟩
    have h6 : printRow env row = .ok (ascii "(" ++ commas es ++ ascii ")") := by
      unfold printRow
      rw [h1]
      rfl
    have h7 := h2.parens
    rw [← List.append_assoc] at h7
    cases rows with
    | nil =>
      refine ⟨[ascii "(" ++ commas es ++ ascii ")"], inParens ts, ?_, h7.cast (by simp [commas]) rfl, by simp, .one h5⟩
      rw [printEach, h6]
      rfl
    | cons o2 row =>
      obtain ⟨bs, us, k3, k4, k5, k6⟩ := insertedRows_ok (rows := o2 :: row) (by simp)
        fun o ho => h o (by simp [ho])
      refine ⟨(ascii "(" ++ commas es ++ ascii ")") :: bs, _, ?_, (h7.comma k4).cast ?_ rfl, by simp,
        .cons h5 k6⟩
      · rw [printEach, h6, k3]
        rfl
      · cases bs with
        | nil => exact absurd rfl k5
        | cons b bs => exact commas_cons _ _ _

omit hw in
theorem insertRow_run {n : Nat} {row : List (Option Expr)} {ts : List Token}
    (h : InsertRow env.words row ts) (hn : ts.length < n) {rest : List Token} :
    (do let _ ← expectTokens [Tok.lparen]; closedList (parsers env n).exprOrDefault :
      P (List (Option Expr))) (ts ++ rest) = .ok row rest := by
  obtain ⟨us, rfl, h⟩ := h
  simp only [inParens, List.length_cons, List.length_append, List.length_nil] at hn
  unfold inParens
  simp only [List.cons_append, List.append_assoc, List.nil_append]
  rw [bind_ok (expectTokens_hit (by simp) (by simp))]
  obtain ⟨as, h1, h2⟩ := closedList_run (S := Eq) (n := n) (f := exprEnd) (rest := rest)
    (item := (parsers env n).exprOrDefault) rfl rfl
    (fun b us hb hn rest hr => ⟨b, exprOrDefault_run hb hn hr, rfl⟩) h (by omega)
  obtain rfl := Pairwise2.eq h1
  exact h2

theorem insert_ok {tn : TableName} {cols : List Identifier} {rows : List (List (Option Expr))}
    (ht : PlainTable env tn) (hd : cols.Nodup) (hc : ∀ c ∈ cols, Plain env c) (h0 : rows ≠ [])
    (h : ∀ row ∈ rows, row ≠ [] ∧ ∀ o ∈ row, o.isSome = true ∧ PrintableOpt env o) :
    StmtOk env (.insert tn cols rows) := by
  obtain ⟨ts, h1, h2⟩ := printTable_ok ht
  obtain ⟨bs, us, h3, h4, h5, h6⟩ := insertedRows_ok hw h0 h
  have h7 : ∃ cs, Lex env.toScanEnv (ascii "INSERT INTO " ++ tn.print env ++ ascii " " ++
      (if cols = [] then [] else ascii "(" ++ commas (cols.map env.string) ++ ascii ") ") ++
      ascii "VALUES" ++ (if bs = [] then [] else ascii " " ++ commas bs))
      (.reserved Kw.INSERT :: .reserved Kw.INTO :: (ts ++ (cs ++ (.reserved Kw.VALUES :: us)))) ∧
      OptColumns cols cs := by
    have i := (Lex.word hw "INSERT" Kw.INSERT).space ((Lex.word hw "INTO" Kw.INTO).space h1)
    have v := (Lex.word hw "VALUES" Kw.VALUES).space h4
    have t1 : ascii "INSERT INTO " = ascii "INSERT" ++ (ascii " " ++ (ascii "INTO" ++ ascii " ")) := rfl
    by_cases hcols : cols = []
    · subst hcols
      exact ⟨[], (i.space v).cast (by simp [t1, h5]) (by simp), .none⟩
    · obtain ⟨cs, k1, k2⟩ := separated_names hcols hc
      exact ⟨_, (i.space (k1.parens.space v)).cast (by simp [t1, h5, hcols, show ascii ") " = ascii ")" ++ ascii " " from rfl])
        (by simp), .some k2⟩
  obtain ⟨cs, h8, h9⟩ := h7
  refine ⟨_, _, by rw [Stmt.print, h3]; rfl, h8, fun n hn rest hr => ?_⟩
  simp only [List.length_append, List.length_cons] at hn
  simp only [List.cons_append, List.append_assoc]
  rw [stmt_hit (by decide)]
  show (expectReserved [Kw.INTO] >>= fun _ => some <$> (parsers env n).insert) _ = _
  rw [bind_ok (expectReserved_hit (by decide))]
  refine map_ok (a := Stmt.insert tn cols (rows.map fun row => row.map (·.map parens))) ?_
  unfold Parsers.insert
  have h10 : parseColumns (cs ++ .reserved Kw.VALUES :: (us ++ rest)) =
      .ok cols (.reserved Kw.VALUES :: (us ++ rest)) := by
    cases h9 with
    | none =>
      unfold parseColumns
      rw [List.nil_append, bind_ok (maybeToken_miss (f := isWord) (.cons rfl) fair_isWord rfl (by simp))]
      rfl
    | some h => exact columns_in_parens h hd
  have h11 : Ends (fun t => t == Tok.lparen || isWord t) (cs ++ .reserved Kw.VALUES :: (us ++ rest)) := by
    cases h9 with
    | none => exact .cons rfl
    | some h => exact .cons rfl
  rw [bind_ok (tableName_run h2 h11 ⟨rfl, rfl⟩ rfl), bind_ok h10,
    bind_ok (expectReserved_hit (by simp))]
  obtain ⟨as, k1, k2⟩ := separatedList_run (S := Eq) (n := n) (rest := rest)
    (item := (do let _ ← expectTokens [Tok.lparen]; closedList (parsers env n).exprOrDefault))
    (f := fun t => t == Tok.comma || queryEnd t) (g := queryEnd) rfl (fun t ht => by simp [ht])
    fair_queryEnd rfl hr (fun b us hb hn rest hr => ⟨b, insertRow_run hb hn, rfl⟩) h6 (by omega)
  obtain rfl := Pairwise2.eq k1
  rw [bind_ok k2]
  rfl

/-- An assignment of `UPDATE`. -/
def UpdateText (words : Words) (u : Identifier × Option Expr) (ts : List Token) : Prop :=
  ∃ us, ts = .identifier u.1 :: Tok.equal :: us ∧ SomeText words u.2 us

theorem updates_ok : ∀ {l : List (Identifier × Option Expr)}, l ≠ [] →
    (∀ u ∈ l, Plain env u.1 ∧ u.2.isSome = true ∧ PrintableOpt env u.2) →
    ∃ ts, Lex env.toScanEnv (commas (l.map fun u =>
      env.string u.1 ++ ascii " = " ++ Expr.printOpt env u.2)) ts ∧
      Separated (UpdateText env.words) (l.map fun u => (u.1, u.2.map parens)) ts
  | [], h0, _ => absurd rfl h0
  | (i, o) :: l, _, h => by
    obtain ⟨e, ts, rfl, h1⟩ := someExpr_ok hw (h (i, o) (by simp)).2.1 (h (i, o) (by simp)).2.2
    have h2 : UpdateText env.words (i, some (parens e)) (.identifier i :: Tok.equal :: ts) :=
      ⟨_, rfl, _, rfl, h1.written⟩
    have h3 : Lex env.toScanEnv (env.string i ++ ascii " = " ++ Expr.printOpt env (some e))
        (.identifier i :: Tok.equal :: ts) :=
      ((Lex.name (h (i, some e) (by simp)).1).space h1.lex.equals).cast (by
        simp [Expr.printOpt, show ascii " = " = ascii " " ++ (ascii "=" ++ ascii " ") from rfl]) rfl
    cases l with
    | nil => exact ⟨_, h3, .one h2⟩
    | cons u l =>
      obtain ⟨us, h4, h5⟩ := updates_ok (l := u :: l) (by simp) fun o ho => h o (by simp [ho])
      exact ⟨_, (h3.comma h4).cast (commas_cons _ _ _) rfl, .cons h2 h5⟩

theorem update_ok {tn : TableName} {l : List (Identifier × Option Expr)} {cond : Option Expr}
    (ht : PlainTable env tn) (h0 : l ≠ [])
    (h : ∀ u ∈ l, Plain env u.1 ∧ u.2.isSome = true ∧ PrintableOpt env u.2)
    (hc : PrintableOpt env cond) : StmtOk env (.update tn l cond) := by
  obtain ⟨ts, h1, h2⟩ := printTable_ok ht
  obtain ⟨us, h3, h4⟩ := updates_ok hw h0 h
  obtain ⟨vs, h5, h6⟩ := clause_ok hw env.words "WHERE" Kw.WHERE (by decide)
    (opt_ok hw env.words cond hc)
    ((Lex.word hw "UPDATE" Kw.UPDATE).space (h1.space ((Lex.word hw "SET" Kw.SET).space h3)))
  refine ⟨_, _, rfl, h5.cast ?_ rfl, fun n hn rest hr => ?_⟩
  · simp [show ascii "UPDATE " = ascii "UPDATE" ++ ascii " " from rfl,
      show ascii " SET " = ascii " " ++ (ascii "SET" ++ ascii " ") from rfl,
      show ascii " WHERE " = ascii " " ++ (ascii "WHERE" ++ ascii " ") from rfl]
  · simp only [List.length_append, List.length_cons, List.length_nil] at hn
    simp only [List.cons_append, List.nil_append, List.append_assoc]
    rw [stmt_hit (by decide)]
    have h7 : Ends (tailEnd []) rest := hr.mono fun t => tailEnd_queryEnd
    have h8 := optExpr_ends h6 h7
    rw [show parensStmt (.update tn l cond) =
        .update tn (l.map fun u => (u.1, u.2.map parens)) (parensOpt cond) by
      simp [parensStmt, changeStmt, parensOpt_map]]
    refine map_ok ?_
    unfold Parsers.update
    rw [bind_ok (tableName_run (f := isWord) h2 (.cons rfl) fair_isWord rfl),
      bind_ok (expectReserved_hit (by simp))]
    obtain ⟨as, k1, k2⟩ := separatedList_run (S := Eq) (n := n) (rest := vs ++ rest)
      (item := (do
        let column ← expectIdentifier
        let _ ← expectTokens [Tok.equal]
        let e ← (parsers env n).exprOrDefault
        pure (column, e)))
      (f := exprEnd) (g := tailEnd [Kw.WHERE]) rfl
      (fun t ht => exprEnd_tailEnd (by decide) ht) (fair_tailEnd _) rfl h8
      (fun b us hb hn rest hr => by
        obtain ⟨i, o⟩ := b
        obtain ⟨us, rfl, hb⟩ := hb
        simp only [List.length_cons] at hn
        refine ⟨(i, o), ?_, rfl⟩
        simp only [List.cons_append]
        rw [bind_ok expectIdentifier_hit, bind_ok (expectTokens_hit (by simp) (by simp)),
          bind_ok (exprOrDefault_run hb (by omega) hr)]
        rfl) h4 (by omega)
    obtain rfl := Pairwise2.eq k1
    rw [bind_ok k2, bind_ok (optExpr_run (grammar_ok env n).1 h6 (by omega) (by simp) (by simp) h7)]
    rfl

end

end Maho
