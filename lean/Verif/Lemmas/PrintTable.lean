import Verif.Lemmas.PrintStmt
import Verif.Lemmas.ParseInput
/-
Helper lemmas for C63: printed definitions are read back.
-/
namespace Maho
open P Maho.Spec

section
set_option linter.unusedSectionVars false
variable {env : ParseEnv} (hw : KnowsWords env.toScanEnv)
include hw

/-- What can follow an element of a list of definitions. -/
def defEnd (t : Token) : Bool := t == Tok.comma || queryEnd t

omit hw in
theorem fair_defEnd : IsFair defEnd := ⟨rfl, rfl⟩

omit hw in
theorem constraintName_hit {id : Identifier} {rest : List Token} :
    parseConstraintName (.reserved Kw.CONSTRAINT :: .identifier id :: rest) = .ok id rest := by
  unfold parseConstraintName
  rw [bind_ok (clause_hit expectIdentifier_hit)]
  rfl

omit hw in
theorem constraintName_miss {f : Token → Bool} {rest : List Token} (h : Ends f rest) (hf : IsFair f)
    (hc : f (.reserved Kw.CONSTRAINT) = false) : parseConstraintName rest = .ok 0 rest := by
  unfold parseConstraintName
  rw [bind_ok (clause_miss h hf hc)]
  rfl

omit hw in
theorem onActions_none {rest : List Token} (hr : Ends defEnd rest) :
    parseOnActions rest = .ok (none, none) rest := by
  unfold parseOnActions loop loopFuel
  rw [bind_ok (a := ((none, none), false)) (rest := rest)]
  · rfl
  · rw [bind_ok (optionalReserved_miss hr fair_defEnd (by decide))]
    rfl

/-- The tokens of a foreign key. -/
def ForeignKeyRun (fk : ForeignKey) (ts : List Token) : Prop :=
  ∃ us, ts = .reserved Kw.CONSTRAINT :: .identifier fk.name :: .reserved Kw.FOREIGN ::
    .reserved Kw.KEY :: us ∧ ∀ rest, Ends defEnd rest →
      parseForeignKey fk.name (us ++ rest) = .ok fk rest

theorem foreignKey_ok {fk : ForeignKey} (h : PlainForeignKey env fk) :
    ∃ ts, Lex env.toScanEnv (fk.print env) ts ∧ ForeignKeyRun fk ts := by
  obtain ⟨name, cols, tn, refs, od, ou⟩ := fk
  obtain ⟨hn, hp, h0, hc, ht, hrefs, hd, hu⟩ := h
  simp only at hn hp h0 hc ht hrefs hd hu
  subst hd hu
  obtain ⟨cs, h1, h2⟩ := separated_names h0 hc
  obtain ⟨ts, h3, h4⟩ := printTable_ok ht
  have h5 : ∃ rs, Lex env.toScanEnv (tn.print env ++
      (if refs = [] then [] else ascii " (" ++ commas (refs.map env.string) ++ ascii ")"))
      (ts ++ rs) ∧ OptColumns refs rs := by
    by_cases h0 : refs = []
    · exact ⟨[], h3.cast (by simp [h0]) (by simp), h0 ▸ .none⟩
    · obtain ⟨rs, k1, k2⟩ := separated_names h0 hrefs
      exact ⟨_, (h3.space k1.parens).cast (by
        simp [h0, show ascii " (" = ascii " " ++ ascii "(" from rfl]) rfl, .some k2⟩
  obtain ⟨rs, h6, h7⟩ := h5
  refine ⟨.reserved Kw.CONSTRAINT :: .identifier name :: .reserved Kw.FOREIGN :: .reserved Kw.KEY ::
      (inParens cs ++ (.reserved Kw.REFERENCES :: (ts ++ rs))),
    ((Lex.word hw "CONSTRAINT" Kw.CONSTRAINT).space ((Lex.name hp).space
    ((Lex.word hw "FOREIGN" Kw.FOREIGN).space ((Lex.word hw "KEY" Kw.KEY).space (h1.parens.space
      ((Lex.word hw "REFERENCES" Kw.REFERENCES).space h6)))))).cast ?_ rfl, _, rfl, fun rest hr => ?_⟩
  · simp [ForeignKey.print, hn, show ascii "CONSTRAINT " = ascii "CONSTRAINT" ++ ascii " " from rfl,
      show ascii "FOREIGN KEY (" = ascii "FOREIGN" ++ (ascii " " ++ (ascii "KEY" ++ (ascii " " ++ ascii "("))) from rfl,
      show ascii ") REFERENCES " = ascii ")" ++ (ascii " " ++ (ascii "REFERENCES" ++ ascii " ")) from rfl]
  · have e1 : Ends (fun t => t == Tok.lparen || defEnd t) (rs ++ rest) := by
      cases h7 with
      | none => exact hr.mono fun t ht => by simp [ht]
      | some _ => exact .cons rfl
    unfold parseForeignKey inParens
    simp only [List.cons_append, List.append_assoc, List.nil_append]
    rw [bind_ok (expectTokens_hit (by simp) (by simp)), bind_ok (names_run h2),
      bind_ok (expectReserved_hit (by simp)), bind_ok (tableName_run h4 e1 ⟨rfl, rfl⟩ rfl)]
    have e3 : ∀ {β : Type} (k : List Identifier → P β) (r : PRes β), k refs rest = r → (do
        let paren ← maybeToken Tok.lparen
        let refCols ← if paren then closedList expectIdentifier else pure []
        k refCols : P β) (rs ++ rest) = r := by
      intro β k r hk
      cases h7 with
      | none =>
        rw [List.nil_append, bind_ok (maybeToken_miss hr fair_defEnd rfl (by simp)), if_neg (by simp)]
        exact (bind_ok (m := (pure [] : P (List Identifier))) rfl).trans hk
      | some h =>
        unfold inParens
        simp only [List.cons_append, List.append_assoc, List.nil_append]
        rw [bind_ok (maybeToken_hit (by simp)), if_pos rfl]
        exact (bind_ok (names_run h)).trans hk
    refine e3 _ _ ?_
    rw [bind_ok (onActions_none hr)]
    rfl

/-- The tokens of an action. -/
def ActionRun (a : AlterAction) (ts : List Token) : Prop :=
  (∃ id us, ts = .reserved id :: us) ∧
    ∀ rest, Ends defEnd rest → parseAlterAction (ts ++ rest) = .ok a rest

theorem action_ok {a : AlterAction} (h : PlainAction env a) :
    ∃ ts, Lex env.toScanEnv (a.print env) ts ∧ ActionRun a ts := by
  cases a with
  | addForeignKey fk =>
    obtain ⟨ts, h1, us, rfl, h2⟩ := foreignKey_ok hw h
    refine ⟨_, ((Lex.word hw "ADD" Kw.ADD).space h1).cast ?_ rfl, ⟨_, _, rfl⟩, fun rest hr => ?_⟩
    · simp [AlterAction.print, show ascii "ADD " = ascii "ADD" ++ ascii " " from rfl]
    · simp only [List.cons_append, List.nil_append]
      unfold parseAlterAction
      rw [bind_ok (expectReserved_hit (by decide)), if_pos rfl, bind_ok constraintName_hit,
        bind_ok (expectReserved_hit (by decide)), bind_ok (expectReserved_hit (by decide)),
        bind_ok (h2 rest hr)]
      rfl
  | dropConstraint name ie col type =>
    rcases h with ⟨h0, hp, rfl, rfl⟩ | ⟨rfl, rfl, hp, ht⟩
    · refine ⟨_, (((Lex.word hw "DROP" Kw.DROP).space (Lex.word hw "CONSTRAINT" Kw.CONSTRAINT)).ifExists
        hw ie (Lex.name hp)).cast ?_ rfl, ⟨_, _, rfl⟩, fun rest hr => ?_⟩
      · simp [AlterAction.print, h0, show ascii "DROP CONSTRAINT " =
          ascii "DROP" ++ (ascii " " ++ (ascii "CONSTRAINT" ++ ascii " ")) from rfl]
      · simp only [List.cons_append, List.nil_append, List.append_assoc]
        unfold parseAlterAction
        rw [bind_ok (expectReserved_hit (by decide)), if_neg (by decide), if_pos rfl,
          bind_ok (expectReserved_hit (by decide)), bind_ok (ifExists_run (.cons rfl)),
          bind_ok expectIdentifier_hit]
        rfl
    · have h1 := (Lex.word hw "ALTER" Kw.ALTER).space ((Lex.word hw "COLUMN" Kw.COLUMN).space
        ((Lex.name hp).space (Lex.word hw "DROP" Kw.DROP)))
      have t1 : ascii "ALTER COLUMN " = ascii "ALTER" ++ (ascii " " ++ (ascii "COLUMN" ++ ascii " ")) := rfl
      have t2 : ascii " DROP " = ascii " " ++ (ascii "DROP" ++ ascii " ") := rfl
      rcases ht with rfl | rfl
      · refine ⟨_, (h1.space (Lex.word hw "DEFAULT" Kw.DEFAULT)).cast
          (by simp [AlterAction.print, ConstraintType.print, t1, t2]) rfl, ⟨_, _, rfl⟩, fun rest hr => ?_⟩
        simp only [List.cons_append, List.nil_append]
        unfold parseAlterAction
        rw [bind_ok (expectReserved_hit (by decide)), if_neg (by decide), if_neg (by decide),
          bind_ok (optionalReserved_hit (by decide)), bind_ok expectIdentifier_hit,
          bind_ok (expectReserved_hit (by decide)), bind_ok (expectReserved_hit (by decide)), if_pos rfl]
        rfl
      · refine ⟨_, (h1.space ((Lex.word hw "NOT" Kw.NOT).space (Lex.word hw "NULL" Kw.NULL))).cast
          (by simp [AlterAction.print, ConstraintType.print, t1, t2,
            show ascii "NOT NULL" = ascii "NOT" ++ (ascii " " ++ ascii "NULL") from rfl]) rfl,
          ⟨_, _, rfl⟩, fun rest hr => ?_⟩
        simp only [List.cons_append, List.nil_append]
        unfold parseAlterAction
        rw [bind_ok (expectReserved_hit (by decide)), if_neg (by decide), if_neg (by decide),
          bind_ok (optionalReserved_hit (by decide)), bind_ok expectIdentifier_hit,
          bind_ok (expectReserved_hit (by decide)), bind_ok (expectReserved_hit (by decide)),
          if_neg (by decide), bind_ok (expectReserved_hit (by decide))]
        rfl

theorem actions_ok : ∀ {l : List AlterAction}, l ≠ [] → (∀ a ∈ l, PlainAction env a) →
    ∃ ts, Lex env.toScanEnv (commas (l.map (AlterAction.print env))) ts ∧ Separated ActionRun l ts
  | [], h, _ => absurd rfl h
  | a :: l, _, h => by
    obtain ⟨ts, h1, h2⟩ := action_ok hw (h a (by simp))
    cases l with
    | nil => exact ⟨ts, h1, .one h2⟩
    | cons t l =>
      obtain ⟨us, h3, h4⟩ := actions_ok (l := t :: l) (by simp) fun k hk => h k (by simp [hk])
      exact ⟨_, (h1.comma h3).cast (commas_cons _ _ _) rfl, .cons h2 h4⟩

omit hw in
theorem actions_ends {l : List AlterAction} {ts rest : List Token} (h : Separated ActionRun l ts) :
    Ends isWord (ts ++ rest) := by
  cases h with
  | one h => obtain ⟨⟨id, us, rfl⟩, _⟩ := h; exact .cons rfl
  | cons h _ => obtain ⟨⟨id, us, rfl⟩, _⟩ := h; exact .cons rfl

theorem alterTable_ok {tn : TableName} {l : List AlterAction} (ht : PlainTable env tn) (h0 : l ≠ [])
    (h : ∀ a ∈ l, PlainAction env a) : StmtOk env (.alterTable tn l) := by
  obtain ⟨ts, h1, h2⟩ := printTable_ok ht
  obtain ⟨us, h3, h4⟩ := actions_ok hw h0 h
  refine ⟨_, _, rfl, ((Lex.word hw "ALTER" Kw.ALTER).space ((Lex.word hw "TABLE" Kw.TABLE).space
    (h1.space h3))).cast ?_ rfl, fun n _ rest hr => ?_⟩
  · simp [show ascii "ALTER TABLE " = ascii "ALTER" ++ (ascii " " ++ (ascii "TABLE" ++ ascii " ")) from rfl]
  · simp only [List.cons_append, List.nil_append, List.append_assoc]
    rw [stmt_hit (by decide)]
    show (expectReserved [Kw.TABLE] >>= fun _ => some <$> parseAlterTable) _ = _
    rw [bind_ok (expectReserved_hit (by decide))]
    refine map_ok (a := Stmt.alterTable tn l) ?_
    unfold parseAlterTable
    rw [bind_ok (tableName_run h2 (actions_ends h4) fair_isWord rfl)]
    obtain ⟨as, k1, k2⟩ := separatedList_run (S := Eq) (n := us.length + 1) (rest := rest)
      (item := parseAlterAction) (f := defEnd) (g := queryEnd) rfl (fun t ht => by simp [defEnd, ht])
      fair_queryEnd rfl hr (fun b us hb _ rest hr => ⟨b, hb.2 rest hr, rfl⟩) h4 (by omega)
    obtain rfl := Pairwise2.eq k1
    rw [bind_ok k2]
    rfl

omit hw in
theorem loop_more {σ : Type} {step : σ → P (σ × Bool)} {s s' : σ} {ts rest : List Token} {k : Nat}
    (h : step s ts = .ok (s', true) rest) :
    loopFuel step (k + 1) s ts = loopFuel step k s' rest := by
  rw [loopFuel, bind_ok h]
  rfl

omit hw in
theorem loop_stop {σ : Type} {step : σ → P (σ × Bool)} {s s' : σ} {ts rest : List Token} {k : Nat}
    (h : step s ts = .ok (s', false) rest) :
    loopFuel step (k + 1) s ts = .ok s' rest := by
  rw [loopFuel, bind_ok h]
  rfl

/-- The tokens of the options of a database. -/
inductive OptionsText (env : ParseEnv) : List (Identifier × Bytes) → List Token → Prop
  | nil : OptionsText env [] []
  | name (o id : Identifier) {l : List (Identifier × Bytes)} {ts : List Token} : OptionsText env l ts →
    OptionsText env ((o, env.string id) :: l) (.identifier o :: Tok.equal :: .identifier id :: ts)
  | integer (o : Identifier) (i : BitVec 64) {l : List (Identifier × Bytes)} {ts : List Token} :
    OptionsText env l ts →
    OptionsText env ((o, formatInt i.toInt) :: l) (.identifier o :: Tok.equal :: .integer i :: ts)

theorem options_ok : ∀ {l : List (Identifier × Bytes)}, (∀ o ∈ l, PlainOption env o) →
    ∀ {b : Bytes} {ts : List Token}, Lex env.toScanEnv b ts →
    ∃ us, Lex env.toScanEnv (b ++ l.flatMap (fun o => ascii " " ++ env.string o.1 ++ ascii " = " ++ o.2))
      (ts ++ us) ∧ OptionsText env l us
  | [], _, b, ts, hb => ⟨[], hb.cast (by simp) (by simp), .nil⟩
  | (o, v) :: l, h, b, ts, hb => by
    obtain ⟨ho, hv⟩ := h (o, v) (by simp)
    have t1 : ascii " = " = ascii " " ++ (ascii "=" ++ ascii " ") := rfl
    rcases hv with ⟨id, hid, hv⟩ | ⟨i, hi, hv⟩
    · simp only at hv
      subst hv
      obtain ⟨us, h1, h2⟩ := options_ok (l := l) (fun o ho => h o (by simp [ho]))
        (hb.space ((Lex.name ho).space (Lex.name hid).equals))
      exact ⟨_, h1.cast (by simp [t1]) (by simp), .name o id h2⟩
    · simp only at hv
      subst hv
      obtain ⟨us, h1, h2⟩ := options_ok (l := l) (fun o ho => h o (by simp [ho]))
        (hb.space ((Lex.name ho).space (Lex.integer env.toScanEnv hi).equals))
      exact ⟨_, h1.cast (by simp [t1]) (by simp), .integer o i h2⟩

omit hw in
theorem setOption_new {l : List (Identifier × Bytes)} {o : Identifier} {v : Bytes}
    (h : o ∉ l.map (·.1)) : setOption l o v = l ++ [(o, v)] := by
  unfold setOption
  rw [List.filter_eq_self.2]
  intro p hp
  have : p.1 ∈ l.map (·.1) := List.mem_map_of_mem hp
  simp only [decide_eq_true_eq]
  intro he
  exact h (he ▸ this)

/-- One turn of the loop in `parseOptions`. -/
def optionStep (env : ParseEnv) (options : List (Identifier × Bytes)) :
    P (List (Identifier × Bytes) × Bool) := do
  let t ← next
  match t with
  | .identifier opt => do
    let _ ← maybeToken Tok.equal
    let t ← next
    match t with
    | .identifier id => pure (setOption options opt (env.string id), true)
    | .string s => pure (setOption options opt s, true)
    | .bytes b => pure (setOption options opt b, true)
    | .integer i => pure (setOption options opt (formatInt i.toInt), true)
    | .float f => pure (setOption options opt (env.formatFloatG f), true)
    | _ => errorAt t
  | _ => do
    unscan t
    pure (options, false)

omit hw in
theorem options_loop {rest : List Token} (hr : Ends queryEnd rest) :
    ∀ {l : List (Identifier × Bytes)} {ts : List Token}, OptionsText env l ts →
    ∀ acc : List (Identifier × Bytes), ((acc ++ l).map (·.1)).Nodup → ∀ k, ts.length < k →
      loopFuel (optionStep env) k acc (ts ++ rest) = .ok (acc ++ l) rest
  | _, _, .nil, acc, _, k, hk => by
    obtain ⟨j, rfl⟩ : ∃ j, k = j + 1 := ⟨k - 1, by simp at hk; omega⟩
    rw [List.append_nil]
    refine loop_stop ?_
    unfold optionStep
    refine peek_miss hr fair_queryEnd ?_ ?_
    · rintro rfl
      rfl
    · rintro t m rfl ht hne
      cases t with
      | rune r => rfl
      | endOfStatement => rfl
      | _ => cases ht
  | _, _, .name o id (l := l) (ts := ts) h, acc, hd, k, hk => by
    obtain ⟨j, rfl⟩ : ∃ j, k = j + 1 := ⟨k - 1, by simp at hk; omega⟩
    have hn : o ∉ acc.map (·.1) := by
      simp [List.nodup_append] at hd
      intro hc
      obtain ⟨p, hp, he⟩ := List.mem_map.1 hc
      exact absurd he (hd.2.2 _ _ hp).1
    have := options_loop hr h (acc ++ [(o, env.string id)]) (by simpa using hd) j
      (by simp only [List.length_cons] at hk; omega)
    rw [List.append_assoc] at this
    rw [← setOption_new hn] at this
    simp only [List.cons_append]
    rw [loop_more (s' := setOption acc o (env.string id)) (rest := ts ++ rest)]
    · exact this
    · unfold optionStep
      rw [bind_ok (next_hit (by simp))]
      show (maybeToken Tok.equal >>= _) _ = _
      rw [bind_ok (maybeToken_hit (by simp)), bind_ok (next_hit (by simp))]
      rfl
  | _, _, .integer o i (l := l) (ts := ts) h, acc, hd, k, hk => by
    obtain ⟨j, rfl⟩ : ∃ j, k = j + 1 := ⟨k - 1, by simp at hk; omega⟩
    have hn : o ∉ acc.map (·.1) := by
      simp [List.nodup_append] at hd
      intro hc
      obtain ⟨p, hp, he⟩ := List.mem_map.1 hc
      exact absurd he (hd.2.2 _ _ hp).1
    have := options_loop hr h (acc ++ [(o, formatInt i.toInt)]) (by simpa using hd) j
      (by simp only [List.length_cons] at hk; omega)
    rw [List.append_assoc] at this
    rw [← setOption_new hn] at this
    simp only [List.cons_append]
    rw [loop_more (s' := setOption acc o (formatInt i.toInt)) (rest := ts ++ rest)]
    · exact this
    · unfold optionStep
      rw [bind_ok (next_hit (by simp))]
      show (maybeToken Tok.equal >>= _) _ = _
      rw [bind_ok (maybeToken_hit (by simp)), bind_ok (next_hit (by simp))]
      rfl

theorem createDatabase_ok {d : Identifier} {l : List (Identifier × Bytes)} (hd : Plain env d)
    (h : ∀ o ∈ l, PlainOption env o) (hn : (l.map (·.1)).Nodup) :
    StmtOk env (.createDatabase d l) := by
  have t1 : ascii "CREATE DATABASE " = ascii "CREATE" ++ (ascii " " ++ (ascii "DATABASE" ++ ascii " ")) := rfl
  have h1 := (Lex.word hw "CREATE" Kw.CREATE).space ((Lex.word hw "DATABASE" Kw.DATABASE).space
    (Lex.name hd))
  by_cases h0 : l = []
  · subst h0
    refine ⟨_, _, rfl, h1.cast (by simp [t1]) rfl, fun n _ rest hr => ?_⟩
    simp only [List.cons_append, List.nil_append]
    rw [stmt_hit (by decide)]
    refine map_ok (a := Stmt.createDatabase d []) ?_
    unfold Parsers.create
    rw [bind_ok (expectReserved_hit (by decide)), if_pos rfl]
    unfold parseCreateDatabase
    rw [bind_ok expectIdentifier_hit, bind_ok (clause_miss hr fair_queryEnd rfl)]
    rfl
  · obtain ⟨us, h2, h3⟩ := options_ok hw h (h1.space (Lex.word hw "WITH" Kw.WITH))
    refine ⟨_, _, rfl, h2.cast (by
      simp [t1, h0, show ascii " WITH" = ascii " " ++ ascii "WITH" from rfl]) rfl, fun n _ rest hr => ?_⟩
    simp only [List.cons_append, List.nil_append]
    rw [stmt_hit (by decide)]
    refine map_ok (a := Stmt.createDatabase d l) ?_
    unfold Parsers.create
    rw [bind_ok (expectReserved_hit (by decide)), if_pos rfl]
    unfold parseCreateDatabase
    have h4 : parseOptions env (us ++ rest) = .ok l rest := by
      have := options_loop hr h3 [] (by simpa using hn) ((us ++ rest).length + 1)
        (by rw [List.length_append]; omega)
      rw [List.nil_append] at this
      exact (bind_ok (k := fun options => if options = [] then error else pure options)
        (m := loop (optionStep env) []) this).trans (by rw [if_neg h0]; rfl)
    rw [bind_ok expectIdentifier_hit, bind_ok (clause_hit h4)]
    rfl

omit hw in
theorem defEnd_closeEnd {t : Token} (h : closeEnd t = true) : defEnd t = true := by
  unfold closeEnd at h
  rcases Bool.or_eq_true_iff.1 h with h | h <;> obtain rfl := beq_iff_eq.1 h <;> rfl

omit hw in
theorem exprEnd_closeEnd {t : Token} (h : closeEnd t = true) : exprEnd t = true := by
  unfold closeEnd at h
  rcases Bool.or_eq_true_iff.1 h with h | h <;> obtain rfl := beq_iff_eq.1 h <;> rfl

/-- The tokens of an element of `CREATE TABLE`, with the definition before and after them. -/
def DetailRun (env : ParseEnv) (s : CreateTable) (ts : List Token) (s' : CreateTable) : Prop :=
  ∀ n, ts.length < n → ∀ rest, Ends closeEnd rest →
    (parsers env n).createDetail env s (ts ++ rest) = .ok s' rest

/-- The tokens of the name of a type. -/
theorem type_ok {ct : ColumnType} (h : PlainType ct) :
    ∃ id, Lex env.toScanEnv ct.type.print [.identifier id] ∧
      columnTypes.lookup id = some { ct with notNull := false } := by
  obtain ⟨t, sz, fx, nn⟩ := ct
  obtain ⟨hf, h⟩ := h
  simp only at hf h
  subst hf
  rcases h with ⟨rfl, rfl⟩ | ⟨rfl, rfl⟩ | ⟨rfl, rfl⟩ | ⟨rfl, rfl⟩
  · exact ⟨Kw.BOOL, Lex.known hw "BOOL" (by decide) (by decide) (by decide) (by decide), by rfl⟩
  · exact ⟨Kw.BYTES, Lex.known hw "BYTES" (by decide) (by decide) (by decide) (by decide), by rfl⟩
  · exact ⟨Kw.DOUBLE, Lex.known hw "DOUBLE" (by decide) (by decide) (by decide) (by decide), by rfl⟩
  · exact ⟨Kw.INT, Lex.known hw "INT" (by decide) (by decide) (by decide) (by decide), by rfl⟩

/-- The tokens of `NOT NULL`. -/
def notNullTokens (b : Bool) : List Token :=
  if b then [.reserved Kw.NOT, .reserved Kw.NULL] else []

omit hw in
theorem columnConstraint_stop {p : Parsers} {nam : Identifier} {st : ColumnState} {rest : List Token}
    (hr : Ends closeEnd rest) : p.columnConstraint env nam st rest = .ok (st, false) rest := by
  unfold Parsers.columnConstraint
  rw [bind_ok (constraintName_miss hr fair_closeEnd rfl)]
  show (optionalReservedId _ >>= _) rest = _
  rw [bind_ok (optionalReservedId_miss hr fair_closeEnd (fun _ _ => rfl))]
  rfl

omit hw in
theorem columnConstraint_notNull {p : Parsers} {nam : Identifier} {st : ColumnState}
    {rest : List Token} (h : st.ct.notNull = false) :
    p.columnConstraint env nam st (.reserved Kw.NOT :: .reserved Kw.NULL :: rest) =
      .ok ({ st with ct := { st.ct with notNull := true } }, true) rest := by
  unfold Parsers.columnConstraint
  rw [bind_ok (constraintName_miss (f := fun t => t == .reserved Kw.NOT) (.cons (by simp)) ⟨rfl, rfl⟩ rfl)]
  show (optionalReservedId _ >>= _) _ = _
  rw [bind_ok (optionalReservedId_hit (by decide))]
  show (if Kw.NOT = Kw.DEFAULT then _ else _ : P _) _ = _
  rw [if_neg (by decide), if_pos rfl, bind_ok (expectReserved_hit (by decide)), h]
  rfl

omit hw in
theorem columnConstraint_default {n : Nat} {nam : Identifier} {st : ColumnState} {e : Expr}
    {ts rest : List Token} (h : st.dflt = none) (he : Written env.words e ts) (hn : ts.length < n)
    (hr : Ends closeEnd rest) :
    (parsers env n).columnConstraint env nam st (.reserved Kw.DEFAULT :: (ts ++ rest)) =
      .ok ({ st with dflt := some e }, true) rest := by
  unfold Parsers.columnConstraint
  rw [bind_ok (constraintName_miss (f := fun t => t == .reserved Kw.DEFAULT) (.cons (by simp)) ⟨rfl, rfl⟩ rfl)]
  show (optionalReservedId _ >>= _) _ = _
  rw [bind_ok (optionalReservedId_hit (by decide))]
  show (if Kw.DEFAULT = Kw.DEFAULT then _ else _ : P _) _ = _
  rw [if_pos rfl, h, if_neg (by simp), if_neg (by simp)]
  refine (bind_ok (m := (pure st.s : P CreateTable)) rfl).trans ?_
  exact (bind_ok ((grammar_ok env n).1.expr he hn (hr.mono fun _ => exprEnd_closeEnd))).trans rfl

omit hw in
theorem column_loop {n : Nat} {nam : Identifier} {s : CreateTable} {ct : ColumnType}
    {o : Option Expr} {ts rest : List Token} (h : OptExpr env.words Kw.DEFAULT o ts)
    (hn : ts.length < n) (hr : Ends closeEnd rest) :
    loop ((parsers env n).columnConstraint env nam) ⟨s, { ct with notNull := false }, none⟩
      (notNullTokens ct.notNull ++ (ts ++ rest)) = .ok ⟨s, ct, o⟩ rest := by
  have h1 : ∀ k, ts.length < k → loopFuel ((parsers env n).columnConstraint env nam) k
      ⟨s, ct, none⟩ (ts ++ rest) = .ok ⟨s, ct, o⟩ rest := by
    intro k hk
    obtain ⟨j, rfl⟩ : ∃ j, k = j + 1 := ⟨k - 1, by omega⟩
    cases h with
    | none => exact loop_stop (columnConstraint_stop hr)
    | some _ he =>
      simp only [List.length_cons] at hn hk
      obtain ⟨i, rfl⟩ : ∃ i, j = i + 1 := ⟨j - 1, by omega⟩
      rw [List.cons_append, loop_more (columnConstraint_default rfl he (by omega) hr)]
      exact loop_stop (columnConstraint_stop hr)
  unfold loop
  obtain ⟨t, sz, fx, nn⟩ := ct
  cases nn with
  | false => exact h1 _ (by simp [notNullTokens]; omega)
  | true =>
    show loopFuel _ _ _ (.reserved Kw.NOT :: .reserved Kw.NULL :: (ts ++ rest)) = _
    rw [loop_more (columnConstraint_notNull rfl)]
    exact h1 _ (by simp [notNullTokens]; omega)

/-- The definition with one more column. -/
def addColumn (s : CreateTable) (col : Identifier × ColumnType × Option Expr) : CreateTable :=
  { s with
    columns := s.columns ++ [col.1]
    columnTypes := s.columnTypes ++ [col.2.1]
    columnDefaults := s.columnDefaults ++ [col.2.2] }

theorem column_ok {col : Identifier × ColumnType × Option Expr} (h : PrintableColumn env col) :
    ∃ ts, Lex env.toScanEnv (printColumn env col) ts ∧ ∀ s : CreateTable, col.1 ∉ s.columns →
      DetailRun env s ts (addColumn s (col.1, col.2.1, col.2.2.map parens)) := by
  obtain ⟨c, ct, o⟩ := col
  obtain ⟨hc, ht, ho⟩ := h
  simp only at hc ht ho
  obtain ⟨id, h1, h2⟩ := type_ok hw ht
  have h3 : Lex env.toScanEnv (env.string c ++ (ascii " " ++ (ct.type.print ++
      (if ct.notNull then ascii " NOT NULL" else []))))
      (.identifier c :: .identifier id :: notNullTokens ct.notNull) := by
    have h := (Lex.name hc).space h1
    cases ct.notNull with
    | false => exact h.cast (by simp) rfl
    | true =>
      exact (h.space ((Lex.word hw "NOT" Kw.NOT).space (Lex.word hw "NULL" Kw.NULL))).cast (by
        simp [show ascii " NOT NULL" = ascii " " ++ (ascii "NOT" ++ (ascii " " ++ ascii "NULL")) from rfl])
        rfl
  obtain ⟨us, h4, h5⟩ := clause_ok hw env.words "DEFAULT" Kw.DEFAULT (by decide)
    (opt_ok hw env.words o ho) h3
  refine ⟨_, h4.cast ?_ rfl, fun s hs n hn rest hr => ?_⟩
  · simp [printColumn, show ascii " DEFAULT " = ascii " " ++ (ascii "DEFAULT" ++ ascii " ") from rfl]
  · simp only [List.length_append, List.length_cons] at hn
    simp only [List.cons_append, List.append_assoc]
    unfold Parsers.createDetail
    rw [bind_ok (constraintName_miss (f := isName) (.cons rfl) fair_isName rfl),
      bind_ok (optionalReservedId_miss (f := isName) (.cons rfl) fair_isName (fun _ _ => rfl))]
    show Parsers.column env (parsers env n) s _ = _
    unfold Parsers.column
    have h6 : Ends (fun t => closeEnd t || isWord t) (notNullTokens ct.notNull ++ (us ++ rest)) := by
      cases ct.notNull with
      | true => exact .cons rfl
      | false =>
        generalize parensOpt o = o' at h5
        cases h5 with
        | none => exact hr.mono fun t ht => by simp [ht]
        | some _ _ => exact .cons rfl
    have h7 : ∀ t, (notNullTokens ct.notNull ++ (us ++ rest)).head? = some t →
        t ≠ .rune 40 ∧ t ≠ .identifier 34 ∧ t ≠ .error false ∧ t ≠ .eof := by
      intro t ht
      have := h6 t ht
      refine ⟨?_, ?_, ?_, ?_⟩ <;> rintro rfl <;> cases this
    rw [bind_ok expectIdentifier_hit, if_neg hs]
    show (parseColumnType >>= _) _ = _
    rw [bind_ok (parseColumnType_plain h2 h7), bind_ok (column_loop h5 (by omega) hr),
      ← parensOpt_map]
    rfl

omit hw in
theorem addColumn_columns (s : CreateTable) (l : List (Identifier × ColumnType × Option Expr)) :
    l.foldl addColumn s = { s with
      columns := s.columns ++ l.map (·.1)
      columnTypes := s.columnTypes ++ l.map (·.2.1)
      columnDefaults := s.columnDefaults ++ l.map (·.2.2) } := by
  induction l generalizing s with
  | nil => simp
  | cons c l ih => simp [ih, addColumn]

theorem columns_ok : ∀ {l : List (Identifier × ColumnType × Option Expr)}, l ≠ [] →
    (∀ c ∈ l, PrintableColumn env c) → ∃ ts, Lex env.toScanEnv (commas (l.map (printColumn env))) ts ∧
      ∀ s : CreateTable, (s.columns ++ l.map (·.1)).Nodup → Chain (DetailRun env) s ts
        ((l.map fun col => (col.1, col.2.1, col.2.2.map parens)).foldl addColumn s)
  | [], h, _ => absurd rfl h
  | c :: l, _, h => by
    obtain ⟨ts, h1, h2⟩ := column_ok hw (h c (by simp))
    have h3 : ∀ s : CreateTable, (s.columns ++ (c :: l).map (·.1)).Nodup → c.1 ∉ s.columns := by
      intro s hd hc
      rw [List.nodup_append] at hd
      exact hd.2.2 _ hc _ (by simp) rfl
    cases l with
    | nil => exact ⟨ts, h1, fun s hd => .one (h2 s (h3 s hd))⟩
    | cons d l =>
      obtain ⟨us, h4, h5⟩ := columns_ok (l := d :: l) (by simp) fun k hk => h k (by simp [hk])
      exact ⟨_, (h1.comma h4).cast (commas_cons _ _ _) rfl, fun s hd => .cons (h2 s (h3 s hd))
        (h5 _ (by simpa [addColumn] using hd))⟩

omit hw in
theorem equal_go : ∀ {cs cs2 : List Identifier} {r r2 : List Bool}, r.length = cs.length →
    r2.length = cs2.length → cs2.length = cs.length →
    IndexKey.equal.go cs r cs2 r2 = .ok (decide (cs = cs2 ∧ r = r2))
  | [], [], [], [], _, _, _ => rfl
  | c :: cs, c2 :: cs2, d :: r, d2 :: r2, h1, h2, h3 => by
    rw [IndexKey.equal.go]
    by_cases hc : c = c2
    · rw [if_neg (by simpa using hc)]
      by_cases hd : d = d2
      · simp only [hd, ne_eq, not_true_eq_false, if_false]
        rw [equal_go (by simpa using h1) (by simpa using h2) (by simpa using h3)]
        simp [hc]
      · simp [hd]
    · simp [hc]

omit hw in
theorem equal_ok {k k2 : IndexKey} (h : k.reverse.length = k.columns.length)
    (h2 : k2.reverse.length = k2.columns.length) :
    k.equal k2 = .ok (decide (k.columns = k2.columns ∧ k.reverse = k2.reverse)) := by
  unfold IndexKey.equal
  by_cases hl : k.columns.length = k2.columns.length
  · rw [if_neg (by simpa using hl), equal_go h h2 hl.symm]
  · rw [if_pos hl]
    have : k.columns ≠ k2.columns := fun he => hl (by rw [he])
    simp [this]

omit hw in
theorem anyEqualKey_none {k : IndexKey} (h : k.reverse.length = k.columns.length) :
    ∀ {l : List Constraint}, (∀ c ∈ l, c.key.reverse.length = c.key.columns.length) →
      (∀ c ∈ l, ¬ (c.key.columns = k.columns ∧ c.key.reverse = k.reverse)) →
      anyEqualKey k l = .ok false
  | [], _, _ => rfl
  | c :: l, h1, h2 => by
    have h3 : ¬ (k.columns = c.key.columns ∧ k.reverse = c.key.reverse) := fun he =>
      h2 c (by simp) ⟨he.1.symm, he.2.symm⟩
    rw [anyEqualKey, equal_ok h (h1 c (by simp)), decide_eq_false h3]
    exact anyEqualKey_none h (fun c hc => h1 c (by simp [hc])) fun c hc => h2 c (by simp [hc])

omit hw in
theorem addKey_run {s : CreateTable} {c : Constraint} {ts : List Token}
    (hl : ∀ d ∈ s.constraints, d.key.reverse.length = d.key.columns.length)
    (hk : c.key.reverse.length = c.key.columns.length) (hc : ∀ d ∈ s.constraints, Compatible d c)
    (ht : c.type ≠ .check) (hcol : c.colNum = -1) (hch : c.check = none) :
    addKeyConstraint s c.type c.name c.key ts =
      .ok { s with constraints := s.constraints ++ [c] } ts := by
  obtain ⟨t, nm, cn, key, ch⟩ := c
  simp only at hk ht hcol hch
  subst hcol hch
  unfold addKeyConstraint
  rw [if_neg, anyEqualKey_none hk hl fun d hd => (hc d hd ht).2.2]
  · rfl
  · intro ha
    obtain ⟨d, hd, h⟩ := List.any_eq_true.1 ha
    have := hc d hd ht
    simp only [Bool.or_eq_true, Bool.and_eq_true, beq_iff_eq] at h
    rcases h with h | h
    · exact this.1 h
    · exact this.2.1 h

/-- The constraint, with other parentheses. -/
def parensConstraint (c : Constraint) : Constraint := { c with check := c.check.map parens }

theorem constraint_ok {c : Constraint} (h : PrintableConstraint env c) :
    ∃ b ts, c.print env = .ok (ascii ", " ++ b) ∧ Lex env.toScanEnv b ts ∧
      ∀ s : CreateTable, (∀ d ∈ s.constraints, d.key.reverse.length = d.key.columns.length) →
        (∀ d ∈ s.constraints, Compatible d c) →
        DetailRun env s ts { s with constraints := s.constraints ++ [parensConstraint c] } := by
  obtain ⟨t, nm, cn, key, ch⟩ := c
  obtain ⟨h0, hp, hcol, h⟩ := h
  simp only at h0 hp hcol h
  subst hcol
  have t0 : ascii ", CONSTRAINT " = ascii ", " ++ (ascii "CONSTRAINT" ++ ascii " ") := rfl
  have hcn := (Lex.word hw "CONSTRAINT" Kw.CONSTRAINT).space (Lex.name hp)
  cases t with
  | none => exact h.elim
  | default => exact h.elim
  | notNull => exact h.elim
  | primary =>
    obtain ⟨hk, hu, hch⟩ := h
    obtain rfl : ch = none := by simpa using hch
    obtain ⟨ts, h1, ⟨us, hus⟩, h2⟩ := key_ok hw hk
    rw [hu] at h2
    refine ⟨_, _, ?_, hcn.space ((Lex.word hw "PRIMARY" Kw.PRIMARY).space
      ((Lex.word hw "KEY" Kw.KEY).space h1)), fun s hl hc n hn rest hr => ?_⟩
    · simp [Constraint.print, t0, show ascii " PRIMARY KEY " =
        ascii " " ++ (ascii "PRIMARY" ++ (ascii " " ++ (ascii "KEY" ++ ascii " "))) from rfl]
    · simp only [List.cons_append, List.nil_append]
      unfold Parsers.createDetail
      rw [bind_ok constraintName_hit, bind_ok (optionalReservedId_hit (by decide))]
      show (if Kw.PRIMARY = Kw.PRIMARY then _ else _ : P _) _ = _
      rw [if_pos rfl, bind_ok (expectReserved_hit (by decide)), bind_ok (h2 _)]
      unfold makeKeyConstraintName
      rw [if_pos h0]
      exact addKey_run (c := ⟨.primary, nm, -1, key, none⟩) hl hk.2.2.2 hc (by simp) rfl rfl
  | unique =>
    obtain ⟨hk, hu, hch⟩ := h
    obtain rfl : ch = none := by simpa using hch
    obtain ⟨ts, h1, ⟨us, hus⟩, h2⟩ := key_ok hw hk
    rw [hu] at h2
    refine ⟨_, _, ?_, hcn.space ((Lex.word hw "UNIQUE" Kw.UNIQUE).space h1),
      fun s hl hc n hn rest hr => ?_⟩
    · simp [Constraint.print, t0, show ascii " UNIQUE " = ascii " " ++ (ascii "UNIQUE" ++ ascii " ") from rfl]
    · simp only [List.cons_append, List.nil_append]
      unfold Parsers.createDetail
      rw [bind_ok constraintName_hit, bind_ok (optionalReservedId_hit (by decide))]
      show (if Kw.UNIQUE = Kw.PRIMARY then _ else _ : P _) _ = _
      rw [if_neg (by decide), if_pos rfl, bind_ok (h2 _)]
      unfold makeKeyConstraintName
      rw [if_pos h0]
      exact addKey_run (c := ⟨.unique, nm, -1, key, none⟩) hl hk.2.2.2 hc (by simp) rfl rfl
  | check =>
    obtain ⟨rfl, hs, he⟩ := h
    obtain ⟨e, ts, rfl, h1⟩ := someExpr_ok hw hs he
    refine ⟨_, _, ?_, hcn.space ((Lex.word hw "CHECK" Kw.CHECK).space h1.lex.parens),
      fun s hl hc n hn rest hr => ?_⟩
    · simp [Constraint.print, t0, Expr.printOpt, show ascii " CHECK (" =
        ascii " " ++ (ascii "CHECK" ++ (ascii " " ++ ascii "(")) from rfl]
    · unfold inParens at hn ⊢
      simp only [List.length_append, List.length_cons, List.length_nil] at hn
      simp only [List.cons_append, List.nil_append, List.append_assoc]
      unfold Parsers.createDetail
      rw [bind_ok constraintName_hit, bind_ok (optionalReservedId_hit (by decide))]
      show (if Kw.CHECK = Kw.PRIMARY then _ else _ : P _) _ = _
      rw [if_neg (by decide), if_neg (by decide), if_pos rfl,
        bind_ok (expectTokens_hit (by simp) (by simp)),
        bind_ok ((grammar_ok env n).1.expr h1.written (by omega) (.cons rfl)),
        bind_ok (expectTokens_hit (by simp) (by simp))]
      rfl

omit hw in
theorem constraint_lengths {c : Constraint} (h : PrintableConstraint env c) :
    c.key.reverse.length = c.key.columns.length := by
  obtain ⟨t, nm, cn, key, ch⟩ := c
  obtain ⟨_, _, _, h⟩ := h
  cases t with
  | primary => exact h.1.2.2.2
  | unique => exact h.1.2.2.2
  | check => obtain ⟨rfl, _⟩ := h; rfl
  | _ => exact h.elim

theorem constraints_ok : ∀ {l : List Constraint}, (∀ c ∈ l, PrintableConstraint env c) →
    ∀ {b : Bytes} {ts : List Token} {s0 s : CreateTable}, Lex env.toScanEnv b ts →
    Chain (DetailRun env) s0 ts s →
    (∀ d ∈ s.constraints, d.key.reverse.length = d.key.columns.length) →
    (s.constraints ++ l).Pairwise Compatible →
    ∃ bs us, printEach (Constraint.print env) l = .ok bs ∧ Lex env.toScanEnv (b ++ bs.flatten) us ∧
      Chain (DetailRun env) s0 us { s with constraints := s.constraints ++ l.map parensConstraint }
  | [], _, b, ts, s0, s, h1, h2, _, _ =>
    ⟨[], ts, rfl, h1.cast (by simp) rfl, by simpa using h2⟩
  | c :: l, h, b, ts, s0, s, h1, h2, h3, h4 => by
    obtain ⟨b1, ts1, k1, k2, k3⟩ := constraint_ok hw (h c (by simp))
    rw [List.pairwise_append] at h4
    have hs := k3 s h3 fun d hd => h4.2.2 d hd c (by simp)
    have hpc : ∀ d, Compatible (parensConstraint c) d ↔ Compatible c d := fun _ => Iff.rfl
    obtain ⟨bs, us, m1, m2, m3⟩ := constraints_ok (l := l) (fun c hc => h c (by simp [hc]))
      (h1.comma k2) (h2.append (.one hs))
      (by
        intro d hd
        rcases List.mem_append.1 hd with hd | hd
        · exact h3 d hd
        · obtain rfl := List.mem_singleton.1 hd
          have := constraint_lengths (h c (by simp))
          exact this)
      (by
        have h5 := List.pairwise_cons.1 h4.2.1
        rw [List.append_assoc, List.pairwise_append]
        refine ⟨h4.1, ?_, ?_⟩
        · exact List.pairwise_cons.2 ⟨fun d hd => h5.1 d hd, h5.2⟩
        · intro d hd e he
          rcases List.mem_append.1 he with he | he
          · rw [List.mem_singleton.1 he]
            exact h4.2.2 d hd c (by simp)
          · exact h4.2.2 d hd e (by simp [he]))
    refine ⟨(ascii ", " ++ b1) :: bs, us, ?_, m2.cast (by simp) rfl, by simpa using m3⟩
    rw [printEach, k1, m1]
    rfl

theorem foreignKeys_ok : ∀ {l : List ForeignKey}, (∀ fk ∈ l, PlainForeignKey env fk) →
    ∀ {b : Bytes} {ts : List Token} {s0 s : CreateTable}, Lex env.toScanEnv b ts →
    Chain (DetailRun env) s0 ts s →
    ∃ us, Lex env.toScanEnv (b ++ l.flatMap (fun fk => ascii ", " ++ fk.print env)) us ∧
      Chain (DetailRun env) s0 us { s with foreignKeys := s.foreignKeys ++ l }
  | [], _, b, ts, s0, s, h1, h2 => ⟨ts, h1.cast (by simp) rfl, by simpa using h2⟩
  | fk :: l, h, b, ts, s0, s, h1, h2 => by
    obtain ⟨ts1, k1, us1, rfl, k2⟩ := foreignKey_ok hw (h fk (by simp))
    have hs : DetailRun env s (.reserved Kw.CONSTRAINT :: .identifier fk.name ::
        .reserved Kw.FOREIGN :: .reserved Kw.KEY :: us1)
        { s with foreignKeys := s.foreignKeys ++ [fk] } := by
      intro n hn rest hr
      simp only [List.cons_append]
      unfold Parsers.createDetail
      rw [bind_ok constraintName_hit, bind_ok (optionalReservedId_hit (by decide))]
      show (if Kw.FOREIGN = Kw.PRIMARY then _ else _ : P _) _ = _
      rw [if_neg (by decide), if_neg (by decide), if_neg (by decide),
        bind_ok (expectReserved_hit (by decide)), bind_ok (k2 rest (hr.mono fun _ => defEnd_closeEnd))]
      rfl
    obtain ⟨us, m1, m2⟩ := foreignKeys_ok (l := l) (fun c hc => h c (by simp [hc]))
      (h1.comma k1) (h2.append (.one hs))
    exact ⟨us, m1.cast (by simp) rfl, by simpa using m2⟩

theorem createTableText_ok {s : CreateTable} (h : PrintableTable env s) : StmtOk env (.createTable s) := by
  obtain ⟨tn, cols, types, dflts, ine, cons, fks⟩ := s
  obtain ⟨ht, h0, hd, hct, hcd, hc, hcs, hcomp, hfk⟩ := h
  simp only at ht h0 hd hct hcd hc hcs hcomp hfk
  have z1 := zip_split (l := types) (m := dflts) (by omega)
  have z2 := zip_split (l := cols) (m := types.zip dflts) (by simp; omega)
  have z3 : (cols.zip (types.zip dflts)).map (·.2.1) = types := by
    have := congrArg (List.map (·.1)) z2.2
    rwa [List.map_map, z1.1] at this
  have z4 : (cols.zip (types.zip dflts)).map (·.2.2) = dflts := by
    have := congrArg (List.map (·.2)) z2.2
    rwa [List.map_map, z1.2] at this
  obtain ⟨ts, h1, h2⟩ := printTable_ok ht
  obtain ⟨us, h3, h4⟩ := columns_ok hw (l := cols.zip (types.zip dflts))
    (fun he => h0 (by rw [← z2.1, he]; rfl)) hc
  have h5 := h4 ⟨tn, [], [], [], ine, [], []⟩ (by simpa [z2.1] using hd)
  rw [addColumn_columns] at h5
  obtain ⟨bs, vs, h6, h7, h8⟩ := constraints_ok hw hcs h3 h5 (by simp) (by simpa using hcomp)
  obtain ⟨ws, h9, h10⟩ := foreignKeys_ok hw hfk h7 h8
  have h11 := ((Lex.word hw "CREATE" Kw.CREATE).space (Lex.word hw "TABLE" Kw.TABLE)).ifNotExists hw ine
    (h1.space h9.parens)
  refine ⟨_, _, ?_, h11, fun n hn rest hr => ?_⟩
  · show CreateTable.print env _ = _
    unfold CreateTable.print
    rw [if_neg (by simp only; omega)]
    simp only
    rw [h6]
    show Res.ok _ = _
    simp [show ascii "CREATE TABLE" = ascii "CREATE" ++ (ascii " " ++ ascii "TABLE") from rfl,
      show ascii " (" = ascii " " ++ ascii "(" from rfl]
  · unfold inParens at hn ⊢
    simp only [List.length_append, List.length_cons, List.length_nil] at hn
    simp only [List.cons_append, List.nil_append, List.append_assoc]
    rw [stmt_hit (by decide)]
    refine map_ok ?_
    unfold Parsers.create
    rw [bind_ok (expectReserved_hit (by decide)), if_neg (by decide), if_neg (by decide),
      if_neg (by decide), if_pos rfl]
    refine (bind_ok (rest := rest) ?_).trans rfl
    unfold Parsers.createTable
    rw [bind_ok (ifNotExists_run (table_ends h2)),
      bind_ok (tableName_run (f := fun t => t == Tok.lparen) h2 (.cons (by simp)) ⟨rfl, rfl⟩ rfl),
      bind_ok (expectTokens_hit (by simp) (by simp)),
      closed_run (R := DetailRun env) (n := n) (fun s ts s' hs hn rest hr => hs n hn rest hr) h10 (by omega)]
    have z5 : (cols.zip (types.zip dflts)).map (fun x => x.2.2.map parens) = dflts.map (·.map parens) := by
      have := congrArg (List.map (·.map parens)) z4
      rwa [List.map_map] at this
    simp only [List.nil_append, List.map_map, Function.comp_def, z2.1, z3, z5]
    rfl

theorem printable_ok : ∀ {s : Stmt}, PrintableStmt env s → StmtOk env s
  | .begin, _ => begin_ok hw
  | .commit, _ => commit_ok hw
  | .rollback, _ => rollback_ok hw
  | .set _ _, h => set_ok hw h.1 h.2.1 h.2.2
  | .explain q v, h => by
    obtain ⟨h1, h2, rfl⟩ := h
    exact explain_ok hw h1 h2
  | .query _, h => queryStmt_ok hw h
  | .createTable _, h => createTableText_ok hw h
  | .createIndex _ _ _ _, h => createIndex_ok hw h.1 h.2.1 h.2.2
  | .createDatabase _ _, h => createDatabase_ok hw h.1 h.2.1 h.2.2
  | .createSchema _, h => createSchema_ok hw h
  | .alterTable _ _, h => alterTable_ok hw h.1 h.2.1 h.2.2
  | .dropTable _ _ _, h => dropTableText_ok hw h.1 h.2
  | .dropIndex _ _ _, h => dropIndex_ok hw h.1 h.2
  | .dropDatabase _ _, h => dropDatabase_ok hw h
  | .dropSchema _ _, h => dropSchema_ok hw h
  | .copy _ _ input _, h => by
    obtain ⟨h1, h2, h3, h4, rfl, h5, h6⟩ := h
    exact copy_ok hw h1 h2 h3 h4 h5 h6
  | .delete _ _, h => delete_ok hw h.1 h.2
  | .insert _ _ _, h => insert_ok hw h.1 h.2.1 h.2.2.1 h.2.2.2.1 h.2.2.2.2
  | .update _ _ _, h => update_ok hw h.1 h.2.1 h.2.2.1 h.2.2.2

omit hw in
/-- A statement that is not nil starts with a keyword. -/
theorem stmt_starts {p : Parsers} {s : Stmt} {ts rest : List Token} (he : .eof ∉ ts)
    (h : p.stmt env ts = .ok (some s) rest) : ∃ id us, ts = .reserved id :: us := by
  cases ts with
  | nil => exact absurd h (by simp [Parsers.stmt, maybeToken, Bind.bind, P.bind, next, unscan, Pure.pure,
      expectReserved, errorGot, errorAt])
  | cons t us =>
    cases t with
    | reserved id => exact ⟨_, _, rfl⟩
    | eof => simp at he
    | error b => cases b <;> exact absurd h (by simp [Parsers.stmt, maybeToken, Bind.bind, P.bind, next,
        unscan, Pure.pure, expectReserved, errorGot, crash])
    | _ => exact absurd h (by simp [Parsers.stmt, maybeToken, Bind.bind, P.bind, next, unscan, Pure.pure,
      expectReserved, errorGot, errorAt])

omit hw in
theorem parse_run {s : Stmt} {ts : List Token} (he : .eof ∉ ts) (h : StmtRun env s ts) :
    parse env false ts = (.stmt (some s), false, []) ∧
      ∀ rest, parse env false (ts ++ .endOfStatement :: rest) = (.stmt (some s), false, rest) := by
  obtain ⟨id, us, rfl⟩ : ∃ id us, ts = .reserved id :: us := by
    have := h _ (Nat.lt_succ_self _) [] .nil
    rw [List.append_nil] at this
    exact stmt_starts he this
  constructor
  · have h1 := h _ (Nat.lt_succ_self _) [] .nil
    rw [List.append_nil] at h1
    show parseRecover env _ = _
    have : parseStmtEnd env (.reserved id :: us) = .ok (some s) [] := by
      unfold parseStmtEnd Parsers.stmtEnd
      rw [bind_ok h1]
      rfl
    unfold parseRecover
    rw [this]
  · intro rest
    have h1 := h ((.reserved id :: us ++ .endOfStatement :: rest : List Token).length + 1)
      (by simp; omega) (.endOfStatement :: rest) (.cons rfl)
    show parseRecover env _ = _
    have : parseStmtEnd env (.reserved id :: us ++ .endOfStatement :: rest) = .ok (some s) rest := by
      unfold parseStmtEnd Parsers.stmtEnd
      rw [bind_ok h1]
      rfl
    unfold parseRecover
    rw [this]

theorem parse_printed {s : Stmt} (h : PrintableStmt env s) : ∃ b l, s.print env = .ok b ∧ Encodes l b ∧
    parse env false (tokenize env.toScanEnv l) = (.stmt (some (parensStmt s)), false, []) ∧
    ∀ rest, parse env false (tokenize env.toScanEnv (l ++ 59 :: rest)) =
      (.stmt (some (parensStmt s)), false, tokenize env.toScanEnv rest) := by
  obtain ⟨b, ts, h1, ⟨l, h2, _, _, h3⟩, h4⟩ := printable_ok hw h
  have h5 := h3 [] closes_nil
  rw [List.append_nil, tokenize_nil, List.append_nil] at h5
  obtain ⟨h6, h7⟩ := parse_run (fun he => (tokenize_mem (env := env.toScanEnv) (l := l) (h5 ▸ he)).1 rfl) h4
  refine ⟨b, l, h1, h2, by rw [h5]; exact h6, fun rest => ?_⟩
  rw [h3 _ (closes_mark (by simp))]
  have h8 : tokenize env.toScanEnv (59 :: rest) = .endOfStatement :: tokenize env.toScanEnv rest := by
    have : scan env.toScanEnv false (59 :: rest) = ⟨.endOfStatement, [], rest⟩ := by
      unfold scan
      rw [skip_start (starts_of _ (by decide) (by omega) (by omega))]
      rfl
    rw [tokenize_scan _ (by rw [this]; simp), this]
  rw [h8]
  exact h7 _

end

theorem bareStmt_parens (s : Stmt) : bareStmt (parensStmt s) = bareStmt s := by
  unfold bareStmt parensStmt
  cases s <;> simp [changeStmt, bareQuery_parens, Function.comp_def, bare_parens]

theorem printOpt_map (env : ParseEnv) (o : Option Expr) :
    Expr.printOpt env (o.map parens) = Expr.printOpt env o := by
  rw [parensOpt_map, printOpt_parens]

theorem printClause_map (env : ParseEnv) (w : Bytes) (o : Option Expr) :
    Expr.printClause env w (o.map parens) = Expr.printClause env w o := by
  rw [parensOpt_map, printClause_parens]

theorem printEach_map {α β : Type} {f : β → Res Bytes} {g : α → Res Bytes} {k : α → β}
    (h : ∀ a, f (k a) = g a) : ∀ l : List α, printEach f (l.map k) = printEach g l
  | [] => rfl
  | a :: l => by rw [List.map_cons, printEach, h, printEach_map h l]; rfl

theorem printPresent_map (env : ParseEnv) (o : Option Expr) :
    printPresent env (o.map parens) = printPresent env o := by
  cases o <;> simp [printPresent, print_parens]

theorem constraint_parens (env : ParseEnv) (c : Constraint) :
    Constraint.print env { c with check := c.check.map parens } = c.print env := by
  unfold Constraint.print
  simp only [printOpt_map]

theorem printStmt_parens (env : ParseEnv) (s : Stmt) : (parensStmt s).print env = s.print env := by
  unfold parensStmt
  cases s with
  | createTable s =>
    obtain ⟨tn, cols, types, dflts, ine, cons, fks⟩ := s
    simp only [changeStmt, Stmt.print, CreateTable.print, List.length_map]
    rw [printEach_map (constraint_parens env)]
    have h : (cols.zip (types.zip (dflts.map (·.map parens)))).map (printColumn env) =
        (cols.zip (types.zip dflts)).map (printColumn env) := by
      rw [List.zip_map_right, List.zip_map_right, List.map_map]
      refine List.map_congr_left fun col _ => ?_
      obtain ⟨c, ct, o⟩ := col
      simp [printColumn, printClause_map, Prod.map]
    rw [h]
  | insert tn cols rows =>
    simp only [changeStmt, Stmt.print]
    rw [printEach_map (g := printRow env)]
    intro row
    unfold printRow
    rw [printEach_map (printPresent_map env)]
  | _ => simp [changeStmt, Stmt.print, printQuery_parens, printClause_map, printOpt_map, Function.comp_def]

end Maho
