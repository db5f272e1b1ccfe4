import Verif.Lemmas.RingParse
/-
Helper lemmas for C64: the methods of the parser with the ring of tokens.
-/
namespace Maho

variable {ts : List Token} {α β : Type}

/-- The methods that call each other do the same; expressions also after three tokens have been put
back. -/
structure SimParsers (ts : List Token) (p : Parsers) (q : RP.Parsers) : Prop where
  subExpr : Sim ts (fun _ _ => True) p.subExpr q.subExpr (fun _ => Std ts)
  query : Sim2 ts p.query q.query
  fromItem : Sim2 ts p.fromItem q.fromItem

theorem SimParsers.sub {p : Parsers} {q : RP.Parsers} (h : SimParsers ts p q) :
    Sim2 ts p.subExpr q.subExpr :=
  h.subExpr.mono (fun _ _ _ _ => trivial) (fun _ _ _ _ h => h)

theorem sim_adjust (e : Expr) {Pre : Nat → Nat → Prop} :
    Sim ts Pre (adjust e) (RP.adjust e) (fun _ => Pre) := by
  intro r p ha hp
  unfold adjust RP.adjust
  cases adjustPrecedence (3 * e.nodes + 1) e with
  | none => trivial
  | some e => exact ⟨rfl, p, ha, rfl, hp⟩

theorem SimParsers.expr3 {p : Parsers} {q : RP.Parsers} (h : SimParsers ts p q) :
    Sim ts (fun _ _ => True) p.expr q.expr (fun _ => Std ts) :=
  Sim.bind h.subExpr fun e => sim_adjust e

theorem SimParsers.expr {p : Parsers} {q : RP.Parsers} (h : SimParsers ts p q) :
    Sim2 ts p.expr q.expr :=
  Sim2.bind h.sub fun e => sim_adjust e

theorem sim_addKeyConstraint (s : CreateTable) (ct : ConstraintType) (cn : Identifier)
    (key : IndexKey) : Sim2 ts (addKeyConstraint s ct cn key) (RP.addKeyConstraint s ct cn key) := by
  unfold addKeyConstraint RP.addKeyConstraint
  refine Sim2.ite Sim2.error ?_
  cases anyEqualKey key s.constraints with
  | ok b => cases b; exact Sim2.pure; exact Sim2.error
  | err => exact Sim2.crash
  | panic => exact Sim2.crash

theorem sim_addColumnConstraint (s : CreateTable) (ct : ConstraintType) (cn : Identifier)
    (n : Nat) : Sim2 ts (addColumnConstraint s ct cn n) (RP.addColumnConstraint s ct cn n) :=
  Sim2.ite Sim2.error Sim2.pure

/-- Methods that are put together from others. -/
macro "sim" h:term : tactic => `(tactic|
  repeat' first
    | exact Sim2.pure
    | exact Sim2.error
    | exact Sim2.crash
    | exact sim_expectIdentifier
    | exact sim_expectReserved _
    | exact sim_optionalReserved $h _
    | exact sim_optionalReservedId $h _
    | exact sim_expectTokens _ (by decide)
    | exact sim_maybeToken $h _ (by decide)
    | exact sim_maybeIdentifier $h _
    | exact sim_expectInteger _ _
    | exact sim_distinctColumns
    | exact sim_firstReserved $h _ (by simp)
    | exact sim_addKeyConstraint _ _ _ _
    | exact sim_addColumnConstraint _ _ _ _
    | assumption
    | refine Sim2.ite ?_ ?_
    | refine Sim2.bind ?_ (fun _ => ?_)
    | refine Sim2.map ?_
    | refine sim_closedList ?_
    | refine sim_separatedList $h ?_
    | refine sim_untilParen $h ?_)

variable (hts : Token.eof ∉ ts)
include hts

theorem sim_optionalBinaryOp : Sim2 ts optionalBinaryOp RP.optionalBinaryOp := by
  refine Sim2.next fun t => ?_
  cases h : binaryOps.lookup t with
  | some op =>
    refine Sim.got ?_ Sim2.pure
    rintro rfl
    rw [show binaryOps.lookup .endOfStatement = none from rfl] at h
    cases h
  | none =>
    refine Sim.ite (fun h => Sim.got (by rw [h]; simp) Sim2.pure) fun _ => ?_
    exact Sim.ite (fun h => Sim.got (by rw [h]; simp) Sim2.pure) fun _ => Sim.back hts Sim2.pure

theorem sim_schemaName : Sim2 ts parseSchemaName RP.parseSchemaName := by
  unfold parseSchemaName RP.parseSchemaName
  sim hts

theorem sim_tableName : Sim2 ts parseTableName RP.parseTableName := by
  unfold parseTableName RP.parseTableName
  sim hts

theorem sim_alias (required : Bool) : Sim2 ts (parseAlias required) (RP.parseAlias required) := by
  refine Sim2.bind (sim_optionalReserved hts _) fun _ => Sim2.ite sim_expectIdentifier ?_
  refine Sim2.next fun t => ?_
  cases t <;> first
    | exact Sim.got (by simp) Sim2.pure
    | exact Sim.ite (fun _ => Sim.gotErrorAt) fun _ => Sim.back hts Sim2.pure

theorem sim_tableAlias : Sim2 ts parseTableAlias RP.parseTableAlias := by
  have h1 := sim_tableName hts
  have h2 := sim_alias hts false
  unfold parseTableAlias RP.parseTableAlias
  sim hts

theorem sim_columnAliases : Sim2 ts parseColumnAliases RP.parseColumnAliases := by
  unfold parseColumnAliases RP.parseColumnAliases
  sim hts

theorem sim_clause (id : Identifier) {m : P α} {g : RP α} (h : Sim2 ts m g) :
    Sim2 ts (P.clause id m) (RP.clause id g) := by
  unfold P.clause RP.clause
  sim hts

section
variable {p : Parsers} {q : RP.Parsers} (h : SimParsers ts p q)
include h

omit hts in
theorem sim_subquery : Sim2 ts p.subquery q.subquery := by
  refine Sim2.bind (sim_expectTokens _ (by decide)) fun _ => Sim2.bind h.query fun o => ?_
  cases o with
  | none => exact Sim2.error
  | some _ => exact Sim2.bind (sim_expectTokens _ (by decide)) fun _ => Sim2.pure

theorem sim_call (id : Identifier) : Sim ts (fun p u => 0 < p ∧ before ts p = .identifier id ∧ u ≤ 2)
    (p.call id) (q.call id) (fun _ => Std ts) := by
  refine Sim.bind ((sim_peekToken hts (Q := fun p => 0 < p ∧ before ts p = .identifier id) (k := 2)
    (by omega) Tok.lparen).mono (fun p u _ h => ⟨⟨h.1, h.2.1⟩, h.2.2⟩) (fun _ _ _ _ h => h))
    fun paren => ?_
  have hs := h.sub
  refine Sim.ite (fun hp => ?_) fun hp => ?_
  · have e : Sim2 ts (do
        let empty ← P.maybeToken Tok.rparen
        if empty then pure (.call id [])
        else do
          let star ← if id = Kw.COUNT then P.maybeToken Tok.star else pure false
          if star then do
            let _ ← P.expectTokens [Tok.rparen]
            pure (.call Kw.COUNT_ALL [])
          else do
            let args ← P.closedList p.subExpr
            pure (.call id args)) (do
        let empty ← RP.maybeToken Tok.rparen
        if empty then pure (.call id [])
        else do
          let star ← if id = Kw.COUNT then RP.maybeToken Tok.star else pure false
          if star then do
            let _ ← RP.expectTokens [Tok.rparen]
            pure (.call Kw.COUNT_ALL [])
          else do
            let args ← RP.untilParen q.subExpr
            pure (Expr.call id args)) := by
      sim hts
    refine Sim.mono e ?_ fun _ _ _ _ h => h
    rintro p u _ (⟨rfl, _⟩ | ⟨_, h1, _, h2, _, h3⟩)
    · exact absurd hp (by simp)
    · exact ⟨h1, by rw [h2]; decide, by omega⟩
  · refine Sim.currentId (id := id) ?_ ?_
    · rintro p u _ (⟨_, h1, h2⟩ | ⟨rfl, _⟩)
      · exact ⟨h1.1, Or.inl h1.2, by omega⟩
      · exact absurd rfl hp
    · have e : Sim2 ts (do
          let ids ← P.loop (fun ids => do
            let dot ← P.maybeToken Tok.dot
            if dot then do
              let id ← P.expectIdentifier
              pure (ids ++ [id], true)
            else pure (ids, false)) []
          pure (.ref id ids)) (do
          let ids ← RP.loop (fun ids => do
            let dot ← RP.maybeToken Tok.dot
            if dot then do
              let id ← RP.expectIdentifier
              pure (ids ++ [id], true)
            else pure (ids, false)) []
          pure (Expr.ref id ids)) := by
        refine Sim2.bind (sim_loop (fun ids => ?_) []) fun _ => Sim2.pure
        sim hts
      refine Sim.mono e ?_ fun _ _ _ _ h => h
      rintro p u _ (⟨_, h1, h2⟩ | ⟨rfl, _⟩)
      · exact ⟨h1.1, by rw [h1.2]; simp, by omega⟩
      · exact absurd rfl hp

theorem sim_operand : Sim ts (fun _ _ => True) p.operand q.operand (fun _ => Std ts) := by
  refine Sim.bind (Sim.next (Pre := fun _ _ => True)) fun t => ?_
  have got : ∀ {m : P Expr} {g : RP Expr} {t : Token}, t ≠ .endOfStatement → Sim2 ts m g →
      Sim ts (fun p u => 0 < p ∧ before ts p = t ∧ t ≠ .error false ∧ ∃ u0 ≤ 3, True ∧ u = u0 - 1)
        m g (fun _ => Std ts) := by
    intro m g t ht hs
    refine Sim.mono hs ?_ fun _ _ _ _ h => h
    rintro p u _ ⟨h1, h2, _, u0, h3, _, rfl⟩
    exact ⟨h1, by rw [h2]; exact ht, by omega⟩
  have hs := h.sub
  have hq := sim_subquery h
  cases t
  case reserved id =>
    refine got (by simp) ?_
    dsimp only
    sim hts
  case identifier id =>
    refine (sim_call hts h id).mono ?_ fun _ _ _ _ h => h
    rintro p u _ ⟨h1, h2, _, u0, h3, _, rfl⟩
    exact ⟨h1, h2, by omega⟩
  all_goals first
    | exact got (by simp) Sim2.pure
    | refine Sim.ite (fun e => ?_) fun _ => Sim.ite (fun e => ?_) fun _ => Sim.errorGot ?_
      · exact got (fun e2 => absurd (e.symm.trans e2) (by decide)) (by sim hts)
      · refine got (fun e2 => absurd (e.symm.trans e2) (by decide)) (Sim2.bind h.query fun o => ?_)
        cases o <;> sim hts
      · rintro p u _ ⟨h1, h2, _, u0, h3, _, rfl⟩
        exact ⟨h1, h2, by omega⟩

theorem sim_operator (env : ParseEnv) (e : Expr) :
    Sim2 ts (p.operator env e) (q.operator env e) := by
  have hs := h.sub
  have hq := sim_subquery h
  refine Sim2.bind (sim_optionalBinaryOp hts) fun o => ?_
  cases o with
  | some ob =>
    obtain ⟨op, b⟩ := ob
    refine Sim2.bind (sim_optionalReservedId hts _) fun o => ?_
    cases o <;> dsimp only <;> sim hts
  | none =>
    dsimp only
    refine Sim.bind ((sim_peek hts (Q := fun p => 0 < p ∧ before ts p ≠ .endOfStatement) (k := 2)
      (by omega) [Kw.IN, Kw.NOT, Kw.IS]).mono (fun p u _ h => ⟨⟨h.1, h.2.1⟩, h.2.2⟩)
      (fun _ _ _ _ h => h)) fun o => ?_
    cases o with
    | none =>
      refine Sim.pure ?_
      rintro p u (⟨_, h, h2⟩ | ⟨id, _, h, _⟩)
      · exact ⟨h.1, h.2, by omega⟩
      · cases h
    | some id =>
      dsimp only
      have std : ∀ {m : P Expr} {g : RP Expr}, Sim2 ts m g → Sim ts (fun p u =>
          (some id = none ∧ (0 < p ∧ before ts p ≠ .endOfStatement) ∧ u ≤ max 2 1) ∨
          ∃ id2 ∈ [Kw.IN, Kw.NOT, Kw.IS], some id = some id2 ∧ 0 < p ∧
            (0 < p - 1 ∧ before ts (p - 1) ≠ .endOfStatement) ∧ before ts p = .reserved id2 ∧
            u ≤ 2 - 1) m g (fun _ => Std ts) := by
        intro m g hs
        refine Sim.mono hs ?_ fun _ _ _ _ h => h
        rintro p u _ (⟨h, _⟩ | ⟨id2, _, _, h1, _, h2, h3⟩)
        · cases h
        · exact ⟨h1, by rw [h2]; simp, by omega⟩
      refine Sim.ite (fun _ => std (by sim hts)) fun _ => Sim.ite (fun hn => ?_) fun _ => std (by sim hts)
      subst hn
      refine Sim.bind ((sim_peekOptional hts (Q := fun p => 0 < p ∧ (0 < p - 1 ∧
        before ts (p - 1) ≠ .endOfStatement) ∧ before ts p = .reserved Kw.NOT) (k := 1) (by omega)
        [Kw.IN]).mono ?_ fun _ _ _ _ h => h) fun b => Sim.ite (fun hb => ?_) fun hb => ?_
      · rintro p u _ (⟨h, _⟩ | ⟨id2, _, he, h1, h2, h3, h4⟩)
        · cases h
        · cases he
          exact ⟨⟨h1, h2, h3⟩, h4⟩
      · have e : Sim2 ts (do
            let q ← p.subquery
            pure (Expr.subquery .all .notEqual (some e) q)) (do
            let q ← q.subquery
            pure (Expr.subquery .all .notEqual (some e) q)) := by sim hts
        refine Sim.mono e ?_ fun _ _ _ _ h => h
        rintro p u _ (⟨rfl, _⟩ | ⟨_, id, _, h1, _, h2, h3⟩)
        · cases hb
        · exact ⟨h1, by rw [h2]; simp, by omega⟩
      · refine Sim.bind (Mid := fun _ => Std ts) (Sim.unscan hts ?_) fun _ => Sim2.pure
        rintro p u _ (⟨_, ⟨h1, h2, h3⟩, h4⟩ | ⟨rfl, _⟩)
        · exact ⟨h1, h3, by simp, by omega, h2.1, h2.2, by omega⟩
        · exact absurd rfl hb

theorem sim_stepSubExpr (env : ParseEnv) :
    Sim ts (fun _ _ => True) (p.stepSubExpr env) (q.stepSubExpr env) (fun _ => Std ts) :=
  Sim.bind (sim_operand hts h) fun e => sim_operator hts h env e

theorem sim_values : Sim2 ts p.values q.values := by
  refine Sim2.bind (sim_separated hts (fun rows => ?_) []) fun _ => Sim2.pure
  have he := h.expr
  refine Sim2.bind (sim_expectTokens _ (by decide)) fun _ => Sim2.bind (sim_closedList he) fun row => ?_
  cases rows
  · exact Sim2.pure
  · exact Sim2.ite Sim2.error Sim2.pure

theorem sim_fromList : Sim2 ts p.fromList q.fromList := by
  have hf := h.fromItem
  refine Sim2.bind hf fun fi => sim_loop (fun fi => ?_) fi
  sim hts

theorem sim_result : Sim2 ts p.result q.result := by
  have tail : Sim ts (fun _ _ => True)
      (do let e ← p.expr; let alias ← parseAlias false; pure (SelectResult.expr e alias))
      (do let e ← q.expr; let alias ← RP.parseAlias false; pure (SelectResult.expr e alias))
      (fun _ => Std ts) :=
    Sim.bind h.expr3 fun _ => Sim2.bind (sim_alias hts false) fun _ => Sim2.pure
  have tail2 := tail.mono (Pre' := Std ts) (fun _ _ _ _ => trivial) (fun _ _ _ _ h => h)
  refine Sim2.next fun t => ?_
  cases t <;> try exact Sim.back hts tail2
  rename_i id
  refine Sim.bind ((sim_peekToken hts (Q := fun p => Got ts (.identifier id) p 0) (k := 1)
    (by omega) Tok.dot).mono (fun p u _ h => ⟨⟨h.1, h.2.1, h.2.2.1, by omega, h.2.2.2.2⟩, h.2.2.2.1⟩)
    (fun _ _ _ _ h => h)) fun dot => Sim.ite (fun hd => ?_) fun hd => ?_
  · refine Sim.bind ((sim_peekToken hts (Q := fun p => 0 < p ∧ Got ts (.identifier id) (p - 1) 0 ∧
      before ts p = Tok.dot) (k := 0) (by omega) Tok.star).mono ?_ (fun _ _ _ _ h => h))
      fun star => Sim.ite (fun hs => Sim.pure ?_) fun hs => ?_
    · rintro p u _ (⟨rfl, _⟩ | ⟨_, h1, h2, h3, _, h4⟩)
      · cases hd
      · exact ⟨⟨h1, h2, h3⟩, by omega⟩
    · rintro p u (⟨rfl, _⟩ | ⟨_, h1, _, h2, _, h3⟩)
      · cases hs
      · exact ⟨h1, by rw [h2]; decide, by omega⟩
    · refine Sim.bind (Mid := fun _ p u => Got ts (.identifier id) p 0 ∧ u ≤ 2) (Sim.unscan hts ?_)
        fun _ => Sim.bind (Mid := fun _ _ _ => True) (Sim.unscan hts ?_) fun _ => tail
      · rintro p u _ (⟨_, ⟨h1, h2, h3⟩, h4⟩ | ⟨rfl, _⟩)
        · exact ⟨h1, h3, by decide, by omega, h2, by omega⟩
        · exact absurd rfl hs
      · rintro p u _ ⟨h1, h2⟩
        exact ⟨h1.1, h1.2.1, h1.2.2.1, h2, trivial⟩
  · refine Sim.bind (Mid := fun _ _ _ => True) (Sim.unscan hts ?_) fun _ => tail
    rintro p u _ (⟨_, h1, h2⟩ | ⟨rfl, _⟩)
    · exact ⟨h1.1, h1.2.1, h1.2.2.1, by omega, trivial⟩
    · exact absurd rfl hd

omit h in
theorem sim_orderBy : Sim2 ts parseOrderBy RP.parseOrderBy := by
  unfold parseOrderBy RP.parseOrderBy
  sim hts

theorem sim_select : Sim2 ts p.select q.select := by
  have he := h.expr
  have h1 := sim_result hts h
  have h2 := sim_fromList hts h
  have h3 := sim_orderBy hts
  have h4 : Sim2 ts (P.expectReserved [Kw.BY] >>= fun _ => P.separatedList p.expr)
      (RP.expectReserved [Kw.BY] >>= fun _ => RP.separatedList q.expr) := by sim hts
  have h5 : Sim2 ts (P.expectReserved [Kw.BY] >>= fun _ => P.separatedList parseOrderBy)
      (RP.expectReserved [Kw.BY] >>= fun _ => RP.separatedList RP.parseOrderBy) := by sim hts
  have h6 := sim_clause hts Kw.FROM h2
  have h7 := sim_clause hts Kw.WHERE he
  have h8 := sim_clause hts Kw.GROUP h4
  have h9 := sim_clause hts Kw.HAVING he
  have h10 := sim_clause hts Kw.ORDER h5
  unfold Parsers.select RP.Parsers.select
  sim hts

omit h in
theorem sim_showFromTable (env : ParseEnv) (table : Identifier) :
    Sim2 ts (showFromTable env table) (RP.showFromTable env table) := by
  have h1 := sim_tableName hts
  unfold showFromTable RP.showFromTable
  sim hts

omit h in
theorem sim_showVariable (env : ParseEnv) (id : Identifier) :
    Sim2 ts (showVariable env id) (RP.showVariable env id) := by
  have h1 := sim_showFromTable hts env
  have h2 := sim_clause hts Kw.FROM sim_expectIdentifier
  have h3 := sim_clause hts Kw.FROM (sim_schemaName hts)
  have h4 := h1 Kw.COLUMNS
  have h5 := h1 Kw.CONSTRAINTS
  unfold showVariable RP.showVariable
  sim hts
  split <;> exact Sim2.pure

omit h in
theorem sim_show (env : ParseEnv) : Sim2 ts (parseShow env) (RP.parseShow env) := by
  refine Sim2.next fun t => ?_
  cases t <;> first
    | exact Sim.got (by simp) (sim_showVariable hts env _)
    | exact Sim.gotErrorAt

theorem sim_stepQuery (env : ParseEnv) : Sim2 ts (p.stepQuery env) (q.stepQuery env) := by
  have h1 := sim_select hts h
  have h2 := sim_values hts h
  have h3 := sim_show hts env
  have h4 := sim_tableName hts
  unfold Parsers.stepQuery RP.Parsers.stepQuery
  sim hts

omit h in
theorem sim_fromStmt (q : Query) : Sim2 ts (parseFromStmt q) (RP.parseFromStmt q) := by
  have h1 := sim_alias hts true
  have h2 := sim_columnAliases hts
  unfold parseFromStmt RP.parseFromStmt
  sim hts

omit h in
theorem sim_joinType : Sim2 ts parseJoinType RP.parseJoinType := by
  refine Sim2.bind (sim_firstReserved hts _ (by simp)) fun o => ?_
  cases o <;> dsimp only <;> sim hts

theorem sim_joinCondition : Sim2 ts p.joinCondition q.joinCondition := by
  refine Sim2.bind (sim_clause hts _ h.expr) fun o => ?_
  have h1 : Sim2 ts (P.expectTokens [Tok.lparen] >>= fun _ => P.distinctColumns)
      (RP.expectTokens [Tok.lparen] >>= fun _ => RP.distinctColumns) := by sim hts
  have h2 := sim_clause hts Kw.USING h1
  cases o <;> dsimp only <;> sim hts

theorem sim_stepFromItem : Sim2 ts p.stepFromItem q.stepFromItem := by
  have hq := h.query
  have hf := h.fromItem
  have h1 := sim_tableAlias hts
  have h2 := sim_fromList hts h
  have h3 := sim_joinType hts
  have h4 := sim_joinCondition hts h
  refine Sim2.bind (sim_maybeToken hts _ (by decide)) fun b => ?_
  refine Sim2.ite (Sim2.bind (Sim2.bind hq fun o => ?_) fun fi => ?_) (Sim2.bind h1 fun fi => ?_)
  · cases o <;> dsimp only
    · sim hts
    · exact sim_fromStmt hts _
  all_goals
    refine Sim2.bind h3 fun o => ?_
    cases o <;> dsimp only <;> sim hts

end

theorem sim_parsers (env : ParseEnv) : ∀ n, SimParsers ts (parsers env n) (RP.parsers env n)
  | 0 => ⟨Sim.stuck, Sim2.stuck, Sim2.stuck⟩
  | n + 1 =>
    have h := sim_parsers env n
    ⟨sim_stepSubExpr hts h env, sim_stepQuery hts h env, sim_stepFromItem hts h⟩

theorem sim_key (unique : Bool) : Sim2 ts (parseKey unique) (RP.parseKey unique) := by
  refine Sim2.bind (sim_expectTokens _ (by decide)) fun _ => sim_closed (fun key => ?_) _
  sim hts

omit hts in
theorem sim_refAction : Sim2 ts parseRefAction RP.parseRefAction := by
  unfold parseRefAction RP.parseRefAction
  repeat' first
    | exact Sim2.pure
    | exact sim_expectReserved _
    | refine Sim2.ite ?_ ?_
    | refine Sim2.bind ?_ (fun _ => ?_)

theorem sim_onActions : Sim2 ts parseOnActions RP.parseOnActions := by
  have h := @sim_refAction ts
  refine sim_loop (fun s => ?_) _
  sim hts

theorem sim_foreignKey (cn : Identifier) :
    Sim2 ts (parseForeignKey cn) (RP.parseForeignKey cn) := by
  have h1 := sim_tableName hts
  have h2 := sim_onActions hts
  unfold parseForeignKey RP.parseForeignKey
  sim hts

theorem sim_columnType : Sim2 ts parseColumnType RP.parseColumnType := by
  refine Sim2.bind sim_expectIdentifier fun typ => ?_
  cases columnTypes.lookup typ <;> dsimp only <;> sim hts

theorem sim_constraintName : Sim2 ts parseConstraintName RP.parseConstraintName :=
  Sim2.bind (sim_clause hts _ sim_expectIdentifier) fun _ => Sim2.pure

section
variable {p : Parsers} {q : RP.Parsers} (h : SimParsers ts p q)
include h

theorem sim_columnConstraint (env : ParseEnv) (nam : Identifier) (st : ColumnState) :
    Sim2 ts (p.columnConstraint env nam st) (q.columnConstraint env nam st) := by
  have he := h.expr
  have h1 := sim_tableName hts
  have h2 := sim_onActions hts
  refine Sim2.bind (sim_constraintName hts) fun cn => ?_
  refine Sim2.bind (sim_firstReserved hts _ (by simp)) fun o => ?_
  cases o <;> dsimp only
  · sim hts
  · sim hts

theorem sim_column (env : ParseEnv) (s : CreateTable) :
    Sim2 ts (p.column env s) (q.column env s) := by
  have h1 := sim_columnType hts
  refine Sim2.bind sim_expectIdentifier fun nam => Sim2.ite Sim2.error ?_
  refine Sim2.bind h1 fun ct => Sim2.bind (sim_loop (sim_columnConstraint hts h env nam) _)
    fun st => Sim2.pure

theorem sim_createDetail (env : ParseEnv) (s : CreateTable) :
    Sim2 ts (p.createDetail env s) (q.createDetail env s) := by
  have he := h.expr
  have h1 := sim_key hts true
  have h4 := sim_column hts h env s
  refine Sim2.bind (sim_constraintName hts) fun cn => ?_
  refine Sim2.bind (sim_firstReserved hts _ (by simp)) fun o => ?_
  have h3 := sim_foreignKey hts cn
  cases o <;> dsimp only
  · sim hts
  · sim hts

omit h

theorem sim_ifNotExists : Sim2 ts parseIfNotExists RP.parseIfNotExists := by
  refine Sim2.bind (sim_clause hts _ ?_) fun _ => Sim2.pure
  sim hts

theorem sim_ifExists : Sim2 ts parseIfExists RP.parseIfExists := by
  refine Sim2.bind (sim_clause hts _ ?_) fun _ => Sim2.pure
  sim hts

include h in
theorem sim_createTable (env : ParseEnv) : Sim2 ts (p.createTable env) (q.createTable env) := by
  refine Sim2.bind (sim_ifNotExists hts) fun _ => Sim2.bind (sim_tableName hts) fun _ => ?_
  exact Sim2.bind (sim_expectTokens _ (by decide)) fun _ => sim_closed (sim_createDetail hts h env) _

theorem sim_alterAction : Sim2 ts parseAlterAction RP.parseAlterAction := by
  have h1 := sim_constraintName hts
  have h2 := sim_onActions hts
  have h4 := sim_tableName hts
  have h3 := sim_ifExists hts
  unfold parseAlterAction RP.parseAlterAction
  sim hts

theorem sim_alterTable : Sim2 ts parseAlterTable RP.parseAlterTable := by
  have h1 := sim_tableName hts
  have h2 := sim_alterAction hts
  unfold parseAlterTable RP.parseAlterTable
  sim hts

theorem sim_createIndex (unique : Bool) :
    Sim2 ts (parseCreateIndex unique) (RP.parseCreateIndex unique) := by
  have h1 := sim_tableName hts
  have h2 := sim_ifNotExists hts
  have h3 := sim_clause hts Kw.USING sim_expectIdentifier
  have h4 := sim_key hts unique
  unfold parseCreateIndex RP.parseCreateIndex
  sim hts

include h in
theorem sim_delete : Sim2 ts p.delete q.delete := by
  have h1 := sim_tableName hts
  have h2 := sim_clause hts Kw.WHERE h.expr
  unfold Parsers.delete RP.Parsers.delete
  sim hts

theorem sim_dropTable : Sim2 ts parseDropTable RP.parseDropTable := by
  have h1 := sim_tableName hts
  have h2 := sim_ifExists hts
  unfold parseDropTable RP.parseDropTable
  sim hts

theorem sim_dropIndex : Sim2 ts parseDropIndex RP.parseDropIndex := by
  have h1 := sim_tableName hts
  have h2 := sim_ifExists hts
  unfold parseDropIndex RP.parseDropIndex
  sim hts

include h in
theorem sim_exprOrDefault : Sim2 ts p.exprOrDefault q.exprOrDefault := by
  have h1 := h.expr
  unfold Parsers.exprOrDefault RP.Parsers.exprOrDefault
  sim hts

theorem sim_columns : Sim2 ts parseColumns RP.parseColumns := by
  unfold parseColumns RP.parseColumns
  sim hts

include h in
theorem sim_insert : Sim2 ts p.insert q.insert := by
  have h1 := sim_tableName hts
  have h2 := sim_columns hts
  have h3 := sim_exprOrDefault hts h
  unfold Parsers.insert RP.Parsers.insert
  sim hts

theorem sim_copy : Sim2 ts parseCopy RP.parseCopy := by
  have h1 := sim_tableName hts
  have h2 := sim_columns hts
  refine Sim2.bind h1 fun _ => Sim2.bind h2 fun _ => Sim2.bind (sim_expectReserved _) fun _ => ?_
  refine Sim2.bind sim_expectIdentifier fun id => Sim2.ite Sim2.error ?_
  refine Sim2.bind (sim_clause hts _ (Sim2.next fun t => ?_)) fun _ => Sim2.pure
  cases t <;> try exact Sim.gotErrorAt
  rename_i s
  rcases s with _ | ⟨b, _ | ⟨c, l⟩⟩
  · exact Sim.gotErrorAt
  · exact Sim.got (by simp) Sim2.pure
  · exact Sim.gotErrorAt

include h in
theorem sim_update : Sim2 ts p.update q.update := by
  have h1 := sim_tableName hts
  have h2 := sim_exprOrDefault hts h
  have h3 := sim_clause hts Kw.WHERE h.expr
  unfold Parsers.update RP.Parsers.update
  sim hts

omit hts in
include h in
theorem sim_settingValue (env : ParseEnv) : Sim2 ts (p.settingValue env) (q.settingValue env) := by
  refine Sim2.bind h.expr fun e => ?_
  cases e <;> try exact Sim2.error
  rename_i v
  rcases v with _ | v
  · exact Sim2.crash
  · cases v <;> exact Sim2.pure

include h in
theorem sim_set (env : ParseEnv) : Sim2 ts (p.set env) (q.set env) := by
  have h1 := sim_settingValue h env
  refine Sim2.bind (sim_firstReserved hts _ (by simp)) fun o => ?_
  cases o <;> dsimp only <;> sim hts

omit hts in
include h in
theorem sim_use (env : ParseEnv) : Sim2 ts (p.use env) (q.use env) :=
  Sim2.bind (sim_settingValue h env) fun _ => Sim2.pure

theorem sim_options (env : ParseEnv) : Sim2 ts (parseOptions env) (RP.parseOptions env) := by
  refine Sim2.bind (sim_loop (fun options => Sim2.next fun t => ?_) _) fun o =>
    Sim2.ite Sim2.error Sim2.pure
  cases t <;> try exact Sim.back hts Sim2.pure
  rename_i opt
  refine Sim.got (by simp) (Sim2.bind (sim_maybeToken hts _ (by decide)) fun _ => Sim2.next fun t => ?_)
  cases t <;> first
    | exact Sim.gotErrorAt
    | exact Sim.got (by simp) Sim2.pure

theorem sim_createDatabase (env : ParseEnv) :
    Sim2 ts (parseCreateDatabase env) (RP.parseCreateDatabase env) := by
  have h1 := sim_clause hts Kw.WITH (sim_options hts env)
  unfold parseCreateDatabase RP.parseCreateDatabase
  sim hts

theorem sim_dropDatabase : Sim2 ts parseDropDatabase RP.parseDropDatabase := by
  have h1 := sim_ifExists hts
  unfold parseDropDatabase RP.parseDropDatabase
  sim hts

theorem sim_dropSchema : Sim2 ts parseDropSchema RP.parseDropSchema := by
  have h1 := sim_ifExists hts
  have h2 := sim_schemaName hts
  unfold parseDropSchema RP.parseDropSchema
  sim hts

include h in
theorem sim_explain : Sim2 ts p.explain q.explain := by
  have h1 := sim_select hts h
  unfold Parsers.explain RP.Parsers.explain
  sim hts

include h in
theorem sim_create (env : ParseEnv) : Sim2 ts (p.create env) (q.create env) := by
  have h1 := sim_createDatabase hts env
  have h2 := sim_createIndex hts false
  have h3 := sim_createIndex hts true
  have h4 := sim_schemaName hts
  have h5 := sim_createTable hts h env
  unfold Parsers.create RP.Parsers.create
  sim hts

theorem sim_drop : Sim2 ts parseDrop RP.parseDrop := by
  have h1 := sim_dropDatabase hts
  have h2 := sim_dropIndex hts
  have h3 := sim_dropSchema hts
  have h4 := sim_dropTable hts
  unfold parseDrop RP.parseDrop
  sim hts

include h in
theorem sim_afterKeyword (env : ParseEnv) (id : Identifier) :
    Sim2 ts (p.afterKeyword env id) (q.afterKeyword env id) := by
  have h1 := sim_alterTable hts
  have h2 := sim_copy hts
  have h3 := sim_create hts h env
  have h4 := sim_delete hts h
  have h5 := sim_drop hts
  have h6 := sim_explain hts h
  have h7 := sim_insert hts h
  have h8 := sim_select hts h
  have h9 := sim_set hts h env
  have h10 := sim_show hts env
  have h11 := sim_update hts h
  have h12 := sim_use h env
  have h13 := sim_values hts h
  unfold Parsers.afterKeyword RP.Parsers.afterKeyword
  sim hts

include h in
theorem sim_stmt (env : ParseEnv) :
    Sim ts (fun _ _ => True) (p.stmt env) (q.stmt env) (fun _ _ _ => True) := by
  refine Sim.bind ((sim_peekToken hts (Q := fun _ => True) (k := 3) (by omega)
    .endOfStatement).mono (fun p u h _ => ⟨trivial, h⟩) fun _ _ _ _ h => h) fun b => ?_
  refine Sim.ite (fun _ => Sim.pure fun _ _ _ => trivial) fun _ => ?_
  refine Sim.bind (Mid := fun _ => Std ts) ?_ fun id =>
    (sim_afterKeyword hts h env id).mono (fun _ _ _ h => h) (fun _ _ _ _ _ => trivial)
  refine Sim.mono (Pre := fun _ _ => True) ?_ (fun _ _ _ _ => trivial) (fun _ _ _ _ h => h)
  refine Sim.bind (Sim.next (Pre := fun _ _ => True)) fun t => ?_
  have err : Sim ts (fun p u => 0 < p ∧ before ts p = t ∧
      t ≠ .error false ∧ ∃ u0 ≤ 3, True ∧ u = u0 - 1) (P.errorGot t : P Identifier)
      RP.errorGot (fun _ => Std ts) := by
    refine Sim.errorGot ?_
    rintro p u _ ⟨h1, h2, _, u0, h3, _, rfl⟩
    exact ⟨h1, h2, by omega⟩
  cases t <;> try exact err
  refine Sim.ite (fun _ => Sim.pure ?_) fun _ => err
  rintro p u ⟨h1, h2, _, u0, h3, _, rfl⟩
  exact ⟨h1, by rw [h2]; simp, by omega⟩

omit hts in
theorem sim_expectEndOfStatement : Sim ts (fun _ _ => True) P.expectEndOfStatement
    RP.expectEndOfStatement (fun _ _ _ => True) := by
  refine Sim.bind (Sim.next (Pre := fun _ _ => True)) fun t =>
    Sim.ite (fun _ => Sim.pure fun _ _ _ => trivial) fun _ => Sim.errorGot ?_
  rintro p u _ ⟨h1, h2, _, u0, h3, _, rfl⟩
  exact ⟨h1, h2, by omega⟩

include h in
theorem sim_stmtEnd (env : ParseEnv) :
    Sim ts (fun _ _ => True) (p.stmtEnd env) (q.stmtEnd env) (fun _ _ _ => True) :=
  Sim.bind (sim_stmt hts h env) fun _ => Sim.bind sim_expectEndOfStatement fun _ =>
    Sim.pure fun _ _ _ => trivial

end

theorem sim_parseStmtEnd (env : ParseEnv) :
    Sim ts (fun _ _ => True) (parseStmtEnd env) (RP.parseStmtEnd env) (fun _ _ _ => True) := by
  intro r p ha hp
  unfold parseStmtEnd RP.parseStmtEnd
  rw [left_eq ha]
  exact sim_stmtEnd hts (sim_parsers hts env _) env r p ha hp

/-! ### Calls of Parse -/

/-- Whether a call returns. -/
def Parsed.returns : Parsed → Prop
  | .panic => False
  | .stuck => False
  | _ => True

/-- Two results of `Parse` are the same, and if the calls return, so are the states after them. -/
def Same (ts : List Token) (a : Parsed × Bool × List Token) (b : Parsed × Bool × Ring) : Prop :=
  a.1 = b.1 ∧ (a.1.returns → a.2.1 = b.2.1 ∧ ∃ p, At ts b.2.2 p ∧ a.2.2 = ts.drop p)

omit hts in
theorem scanRune_at {r : Ring} {p : Nat} (ha : At ts r p) :
    ∃ r2, At ts r2 (p + 1) ∧ (r2.unscanned ≤ 2) ∧
      ((p < ts.length ∧ ts.drop p = .error false :: ts.drop (p + 1) ∧
          RP.scanRune ts r = (none, r2)) ∨
        (p < ts.length ∧ ∃ t, t ≠ .error false ∧ RP.stream ts p = t ∧
          ts.drop p = t :: ts.drop (p + 1) ∧ RP.scanRune ts r = (some t, r2)) ∨
        (ts.drop p = [] ∧ ts.drop (p + 1) = [] ∧ RP.scanRune ts r = (some .eof, r2))) := by
  obtain ⟨e1, e2, e3⟩ := ha.holds.scan
  have hb := ha.holds.behind
  have hu : (r.scan (RP.stream ts)).2.unscanned = r.unscanned - 1 := by
    unfold Ring.scan
    split
    · rfl
    · simp only; omega
  refine ⟨(r.scan (RP.stream ts)).2, ⟨e2, fun i h1 h2 => ha.clean i (by omega) (by omega)⟩,
    by omega, ?_⟩
  unfold RP.scanRune
  simp only [e1]
  rcases drop_stream (ts := ts) p with ⟨hl, hd⟩ | ⟨hl, hd, he⟩
  · by_cases hc : r.unscanned = 0 ∧ RP.stream ts p = .error false
    · exact .inl ⟨hl, by rw [hd, hc.2], by rw [if_pos hc]⟩
    · refine .inr (.inl ⟨hl, RP.stream ts p, ?_, rfl, hd, by rw [if_neg hc]⟩)
      intro e
      by_cases h0 : r.unscanned = 0
      · exact hc ⟨h0, e⟩
      · exact ha.clean p (Nat.le_refl _) (by have := ha.holds.place; omega) e
  · refine .inr (.inr ⟨hd, List.drop_eq_nil_of_le (by omega), ?_⟩)
    rw [he, if_neg (by simp)]

theorem same_recover (env : ParseEnv) {r : Ring} {p : Nat} (ha : At ts r p) :
    Same ts (parseRecover env (ts.drop p)) (RP.parseRecover env ts r) := by
  have h := sim_parseStmtEnd hts env r p ha trivial
  unfold parseRecover RP.parseRecover
  revert h
  cases parseStmtEnd env (ts.drop p) <;> cases RP.parseStmtEnd env ts r <;> intro h <;>
    try exact h.elim
  · obtain ⟨rfl, p, h1, h2, _⟩ := h
    exact ⟨rfl, fun _ => ⟨rfl, p, h1, h2⟩⟩
  · obtain ⟨rfl, p, h1, h2⟩ := h
    exact ⟨rfl, fun _ => ⟨rfl, p, h1, h2⟩⟩
  · exact ⟨rfl, fun h => h.elim⟩
  · exact ⟨rfl, fun h => h.elim⟩

omit hts in
/-- A token that is neither an error nor the end of a statement is skipped. -/
theorem skipStatement_cons {t : Token} {l : List Token} (h1 : t ≠ .eof) (h2 : t ≠ .error false)
    (h3 : t ≠ .endOfStatement) : skipStatement (t :: l) = skipStatement l := by
  conv => lhs; unfold skipStatement
  split
  · rename_i h; cases h
  · rename_i h; cases h; exact absurd rfl h1
  · rename_i h; cases h; exact absurd rfl h2
  · rename_i h; cases h; exact absurd rfl h3
  · rename_i h; cases h; rfl

theorem same_skip : ∀ (n : Nat) {r : Ring} {p : Nat}, At ts r p → (ts.drop p).length < n →
    ∃ p2, At ts (RP.skipStatement ts n r).2 p2 ∧ (skipStatement (ts.drop p)).2 = ts.drop p2 ∧
      (RP.skipStatement ts n r).1 = (match (skipStatement (ts.drop p)).1 with
        | some true => some .error
        | some false => some .eof
        | none => none)
  | 0, _, _, _, h => absurd h (by omega)
  | n + 1, r, p, ha, h => by
    obtain ⟨r2, ha2, _, hc⟩ := scanRune_at ha
    unfold RP.skipStatement
    rcases hc with ⟨hl, e1, e2⟩ | ⟨hl, t, hn, hs, e1, e2⟩ | ⟨e0, e1, e2⟩
    · rw [e1, e2]
      exact ⟨p + 1, ha2, rfl, rfl⟩
    · have ht : t ≠ .eof := by
        intro e
        have := (stream_eof hts p).mp (hs.trans e)
        omega
      rw [e1, e2]
      by_cases h3 : t = .endOfStatement
      · subst h3
        exact ⟨p + 1, ha2, rfl, rfl⟩
      · have ih := same_skip n ha2 (by rw [e1] at h; simp only [List.length_cons] at h; omega)
        rw [skipStatement_cons ht hn h3]
        cases t <;> first | exact absurd rfl ht | exact absurd rfl h3 | exact ih
    · rw [e0, e2]
      exact ⟨p + 1, ha2, e1.symm, rfl⟩

omit hts in
theorem unscan_at {r : Ring} {p : Nat} (ha : At ts r (p + 1)) (hu : r.unscanned ≤ 2)
    (hn : RP.stream ts p ≠ .error false) : ∃ r2, r.unscan = .ok r2 ∧ At ts r2 p := by
  obtain ⟨r2, e1, e2, e3⟩ := ha.holds.unscan (by omega) (by have := ha.holds.place; omega)
  refine ⟨r2, e1, e2, ?_⟩
  intro i h1 h2
  by_cases e : i = p
  · rw [e]; exact hn
  · exact ha.clean i (by omega) (by omega)

theorem same_parse (env : ParseEnv) (failed : Bool) {r : Ring} {p : Nat} (ha : At ts r p) :
    Same ts (parse env failed (ts.drop p)) (RP.parse env ts failed r) := by
  obtain ⟨r2, ha2, hu, hc⟩ := scanRune_at ha
  rcases hc with ⟨hl, e1, e2⟩ | ⟨hl, t, hn, hs, e1, e2⟩ | ⟨e0, e1, e2⟩
  · unfold RP.parse
    rw [e1, e2]
    exact ⟨rfl, fun _ => ⟨rfl, p + 1, ha2, rfl⟩⟩
  · have ht : t ≠ .eof := by
      intro e
      have := (stream_eof hts p).mp (hs.trans e)
      omega
    obtain ⟨r3, e3, ha3⟩ := unscan_at ha2 hu (by rw [hs]; exact hn)
    have key : ∀ {x : Parsed × Bool × Ring},
        Same ts (if failed then
            match skipStatement (ts.drop p) with
            | (some true, rest) => (.error, true, rest)
            | (some false, rest) => (.eof, true, rest)
            | (none, rest) => parseRecover env rest
          else parseRecover env (ts.drop p)) x → Same ts (parse env failed (ts.drop p)) x := by
      intro x hx
      unfold parse
      split
      · rename_i h; rw [e1] at h; cases h
      · rename_i h; rw [e1] at h; cases h; exact absurd rfl ht
      · rename_i h; rw [e1] at h; cases h; exact absurd rfl hn
      · exact hx
    apply key
    have key2 : RP.parse env ts failed r =
        (if failed then
              match RP.skipStatement ts (RP.left ts r3 + 1) r3 with
              | (some p, r) => (p, true, r)
              | (none, r) => RP.parseRecover env ts r
            else RP.parseRecover env ts r3) := by
      unfold RP.parse
      rw [e2]
      cases t <;> first | exact absurd rfl ht | (simp only [e3]; rfl)
    rw [key2]
    cases failed with
    | false => exact same_recover hts env ha3
    | true =>
      obtain ⟨p2, h1, h2, h3⟩ := same_skip hts (RP.left ts r3 + 1) ha3
        (by rw [left_eq ha3]; omega)
      simp only [if_true]
      revert h1 h2 h3
      generalize RP.skipStatement ts (RP.left ts r3 + 1) r3 = a
      generalize skipStatement (ts.drop p) = b
      obtain ⟨a1, a2⟩ := a
      obtain ⟨b1, b2⟩ := b
      intro h1 h2 h3
      dsimp only at h1 h2 h3
      subst h2 h3
      rcases b1 with _ | _ | _
      · exact same_recover hts env h1
      · exact ⟨rfl, fun _ => ⟨rfl, p2, h1, rfl⟩⟩
      · exact ⟨rfl, fun _ => ⟨rfl, p2, h1, rfl⟩⟩
  · unfold RP.parse
    rw [e0, e2]
    exact ⟨rfl, fun _ => ⟨rfl, p + 1, ha2, e1.symm⟩⟩

omit hts in
theorem At.new : At ts Ring.new 0 := ⟨Holds.new _, fun i _ h => absurd h (by simp [Ring.new])⟩

theorem same_calls (env : ParseEnv) : ∀ k, (∀ j < k, (parsedAt env ts j).returns) →
    (afterCalls env ts k).1 = (RP.afterCalls env ts k).1 ∧
      ∃ p, At ts (RP.afterCalls env ts k).2 p ∧ (afterCalls env ts k).2 = ts.drop p
  | 0, _ => ⟨rfl, 0, At.new, rfl⟩
  | k + 1, h => by
    obtain ⟨h1, p, h2, h3⟩ := same_calls env k fun j hj => h j (by omega)
    have hs := same_parse hts env (afterCalls env ts k).1 h2
    have hr := h k (by omega)
    unfold parsedAt at hr
    rw [← h3, h1] at hs
    rw [h1] at hr
    simp only [afterCalls, RP.afterCalls]
    rw [h1]
    exact hs.2 hr

theorem same_parsedAt (env : ParseEnv) (k : Nat) (h : ∀ j < k, (parsedAt env ts j).returns) :
    RP.parsedAt env ts k = parsedAt env ts k := by
  obtain ⟨h1, p, h2, h3⟩ := same_calls hts env k h
  have hs := same_parse hts env (afterCalls env ts k).1 h2
  unfold RP.parsedAt parsedAt
  rw [h3, ← h1]
  exact hs.1.symm

end Maho
