import Verif.Lemmas.LiteralsExpr
/-
The parser does not look into bytes tokens: statements.
-/
namespace Maho.Lit
open Maho Maho.Spec Maho.P

section
variable {f : Bytes → Bytes} {p : Parsers}

theorem same_parseKey (unique : Bool) : Same f Eq (parseKey unique) (parseKey unique) := by
  unfold parseKey
  refine same_bindEq (by plain) fun _ => same_closed rfl fun s' s hs => ?_
  cases hs
  refine same_bindEq (by plain) fun nam => same_ite (fun _ => same_error) fun _ => ?_
  refine same_bindEq (by plain) fun asc => ?_
  refine same_joinEq ?_ fun desc => same_pure rfl
  plain
macro_rules | `(tactic| plain) => `(tactic| with_reducible exact same_parseKey _)

theorem same_parseRefAction : Same f Eq parseRefAction parseRefAction := by
  unfold parseRefAction
  walk
macro_rules | `(tactic| plain) => `(tactic| with_reducible exact same_parseRefAction)

theorem same_parseOnActions : Same f Eq parseOnActions parseOnActions := by
  unfold parseOnActions
  refine same_loop rfl fun s' s hs => ?_
  cases hs
  refine same_bindEq (by plain) fun on => same_ite (fun _ => ?_)
    fun _ => same_pure ⟨rfl, rfl⟩
  refine same_bindEq (by plain) fun id => same_ite (fun _ => ?_) fun _ => ?_
  · exact same_ite (fun _ => same_error)
      fun _ => same_bindEq (by plain) fun _ => same_pure ⟨rfl, rfl⟩
  · exact same_ite (fun _ => same_error)
      fun _ => same_bindEq (by plain) fun _ => same_pure ⟨rfl, rfl⟩
macro_rules | `(tactic| plain) => `(tactic| with_reducible exact same_parseOnActions)

theorem same_parseForeignKey (cn : Identifier) :
    Same f Eq (parseForeignKey cn) (parseForeignKey cn) := by
  unfold parseForeignKey
  refine same_bindEq (by plain) fun _ => same_bindEq (by plain) fun _ => same_bindEq (by plain)
    fun _ => same_bindEq (by plain) fun _ => same_bindEq (by plain) fun paren => ?_
  refine same_joinEq ?_ fun refCols => same_bindEq (by plain) fun a => ?_
  · plain
  · obtain ⟨a, b⟩ := a
    exact same_pure rfl
macro_rules | `(tactic| plain) => `(tactic| with_reducible exact same_parseForeignKey _)

theorem anyEqualKey_with (key : IndexKey) : ∀ l : List Constraint,
    anyEqualKey key (l.map (constraintWith f)) = anyEqualKey key l
  | [] => rfl
  | c :: cs => by
    rw [List.map_cons, anyEqualKey, anyEqualKey, anyEqualKey_with key cs]
    rfl

theorem any_with (g : Constraint → Bool) (h : ∀ c, g (constraintWith f c) = g c)
    (l : List Constraint) : (l.map (constraintWith f)).any g = l.any g := by
  rw [List.any_map]
  congr 1
  funext c
  exact h c

theorem same_addKeyConstraint (s : CreateTable) (ct : ConstraintType) (cn : Identifier)
    (key : IndexKey) : Same f (By (createWith f)) (addKeyConstraint (createWith f s) ct cn key)
      (addKeyConstraint s ct cn key) := by
  have h1 := any_with (f := f)
    (fun c => c.name == cn || (c.type == .primary && ct == .primary)) (fun _ => rfl) s.constraints
  have h2 := anyEqualKey_with (f := f) key s.constraints
  unfold addKeyConstraint
  refine same_iteIff (by rw [← h1]; rfl) (fun _ => same_error) fun _ => ?_
  dsimp only [createWith]
  rw [h2]
  cases anyEqualKey key s.constraints with
  | ok b =>
    cases b
    · exact same_pure (by simp [By, createWith, constraintWith, condWith])
    · exact same_error
  | err e => exact same_crash
  | panic => exact same_crash

theorem same_addColumnConstraint (s : CreateTable) (ct : ConstraintType) (cn : Identifier)
    (colNum : Nat) : Same f (By (createWith f))
      (addColumnConstraint (createWith f s) ct cn colNum) (addColumnConstraint s ct cn colNum) := by
  have h1 := any_with (f := f)
    (fun c => c.name == cn || (c.colNum == (colNum : Int) && c.type == ct)) (fun _ => rfl)
    s.constraints
  unfold addColumnConstraint
  exact same_iteIff (by rw [← h1]; rfl) (fun _ => same_error) fun _ =>
    same_pure (by simp [By, createWith, constraintWith, condWith])

theorem same_parseColumnType : Same f Eq parseColumnType parseColumnType := by
  unfold parseColumnType
  refine same_bindEq (by plain) fun typ => ?_
  cases columnTypes.lookup typ with
  | none => exact same_error
  | some ct =>
    refine same_joinEq ?_ fun _ => ?_
    · plain
    · walk
macro_rules | `(tactic| plain) => `(tactic| with_reducible exact same_parseColumnType)

theorem same_parseConstraintName : Same f Eq parseConstraintName parseConstraintName := by
  unfold parseConstraintName
  walk
macro_rules | `(tactic| plain) => `(tactic| with_reducible exact same_parseConstraintName)

/-- The state of the loop in `parseColumn` with other bytes in its literals. -/
def columnWith (f : Bytes → Bytes) (st : ColumnState) : ColumnState :=
  ⟨createWith f st.s, st.ct, condWith f st.dflt⟩

theorem same_columnConstraint (env : ParseEnv) (h : Blind f p) (nam : Identifier)
    (st : ColumnState) :
    Same f (fun x' x => By (columnWith f) x'.1 x.1 ∧ x'.2 = x.2)
      (p.columnConstraint env nam (columnWith f st)) (p.columnConstraint env nam st) := by
  unfold Parsers.columnConstraint
  refine same_bindEq (by plain) fun cn => same_bindEq (by plain) fun id => ?_
  cases id with
  | none => exact same_ite (fun _ => same_error) fun _ => same_pure ⟨rfl, rfl⟩
  | some id =>
    dsimp only
    refine same_ite (fun _ => ?_) fun _ => same_ite (fun _ => ?_) fun _ => same_ite (fun _ => ?_)
      fun _ => same_ite (fun _ => ?_) fun _ => same_ite (fun _ => ?_) fun _ => ?_
    · have hd : (columnWith f st).dflt.isSome = st.dflt.isSome := by
        simp [columnWith, condWith_eq]
      rw [hd]
      refine same_ite (fun _ => same_error) fun _ => ?_
      refine same_joinBy (g := createWith f) ?_ fun s => ?_
      · exact same_ite (fun _ => same_addColumnConstraint _ _ _ _) fun _ => same_pure rfl
      · exact same_bindBy (same_expr h) fun e => same_pure ⟨rfl, rfl⟩
    · refine same_bindEq (by plain) fun _ => same_ite (fun _ => same_error) fun _ => ?_
      refine same_joinBy (g := createWith f) ?_ fun s => same_pure ⟨rfl, rfl⟩
      exact same_ite (fun _ => same_addColumnConstraint _ _ _ _) fun _ => same_pure rfl
    · exact same_bindEq (by plain) fun _ => same_bindBy (same_addKeyConstraint _ _ _ _) fun s =>
        same_pure ⟨rfl, rfl⟩
    · exact same_bindBy (same_addKeyConstraint _ _ _ _) fun s => same_pure ⟨rfl, rfl⟩
    · refine same_bindEq (by plain) fun _ => same_bindBy (same_expr h) fun e =>
        same_bindEq (by plain) fun _ => same_pure ⟨?_, rfl⟩
      simp [By, columnWith, createWith, constraintWith, condWith]
    · refine same_bindEq (by plain) fun _ => same_bindEq (by plain) fun paren => ?_
      refine same_joinEq ?_ fun refCols => same_bindEq (by plain) fun a => ?_
      · refine same_ite (fun _ => ?_) fun _ => by plain
        exact same_bindEq (by plain) fun col => same_bindEq (by plain) fun _ => same_pure rfl
      · obtain ⟨a, b⟩ := a
        exact same_pure ⟨rfl, rfl⟩

theorem same_column (env : ParseEnv) (h : Blind f p) (s : CreateTable) :
    Same f (By (createWith f)) (p.column env (createWith f s)) (p.column env s) := by
  unfold Parsers.column
  refine same_bindEq (by plain) fun nam => ?_
  refine same_ite (fun _ => same_error) fun _ => same_bindEq (by plain) fun ct => ?_
  refine same_bindBy (g := columnWith f) (same_loop rfl fun s' s hs => ?_) fun st => same_pure ?_
  · cases hs
    exact same_columnConstraint env h nam s
  · simp [By, columnWith, createWith]

theorem same_createDetail (env : ParseEnv) (h : Blind f p) (s : CreateTable) :
    Same f (By (createWith f)) (p.createDetail env (createWith f s)) (p.createDetail env s) := by
  unfold Parsers.createDetail
  refine same_bindEq (by plain) fun cn => same_bindEq (by plain) fun id => ?_
  cases id with
  | none => exact same_ite (fun _ => same_error) fun _ => same_column env h s
  | some id =>
    refine same_ite (fun _ => ?_) fun _ => same_ite (fun _ => ?_) fun _ => same_ite (fun _ => ?_)
      fun _ => ?_
    · exact same_bindEq (by plain) fun _ => same_bindEq (by plain) fun key =>
        same_addKeyConstraint _ _ _ _
    · exact same_bindEq (by plain) fun key => same_addKeyConstraint _ _ _ _
    · refine same_bindEq (by plain) fun _ => same_bindBy (same_expr h) fun e =>
        same_bindEq (by plain) fun _ => same_pure ?_
      simp [By, createWith, constraintWith, condWith]
    · exact same_bindEq (by plain) fun _ => same_bindEq (by plain) fun fk => same_pure rfl

theorem same_parseIfNotExists : Same f Eq parseIfNotExists parseIfNotExists := by
  unfold parseIfNotExists
  exact same_bindEq (same_clauseEq _ (same_bindEq (by plain) fun _ => by plain))
    fun _ => same_pure rfl
macro_rules | `(tactic| plain) => `(tactic| with_reducible exact same_parseIfNotExists)

theorem same_parseIfExists : Same f Eq parseIfExists parseIfExists := by
  unfold parseIfExists
  walk
macro_rules | `(tactic| plain) => `(tactic| with_reducible exact same_parseIfExists)

theorem same_createTable (env : ParseEnv) (h : Blind f p) :
    Same f (By (createWith f)) (p.createTable env) (p.createTable env) := by
  unfold Parsers.createTable
  refine same_bindEq (by plain) fun _ => same_bindEq (by plain) fun _ => same_bindEq (by plain)
    fun _ => same_closed rfl fun s' s hs => ?_
  cases hs
  exact same_createDetail env h s

theorem same_parseAlterAction : Same f Eq parseAlterAction parseAlterAction := by
  unfold parseAlterAction
  walk
macro_rules | `(tactic| plain) => `(tactic| with_reducible exact same_parseAlterAction)

theorem same_parseAlterTable : Same f (StmtWith f) parseAlterTable parseAlterTable := by
  unfold parseAlterTable
  exact same_bindEq (by plain) fun _ => same_bindEq (by plain) fun _ => same_pure rfl

theorem same_parseCreateIndex (unique : Bool) :
    Same f (StmtWith f) (parseCreateIndex unique) (parseCreateIndex unique) := by
  unfold parseCreateIndex
  refine same_bindEq (by plain) fun _ => same_bindEq (by plain) fun _ => same_bindEq (by plain)
    fun _ => same_bindEq (by plain) fun _ => same_bindEq (by plain) fun _ =>
    same_ite (fun _ => same_error) fun _ => same_bindEq (by plain) fun _ => same_pure rfl

theorem same_delete (h : Blind f p) : Same f (StmtWith f) p.delete p.delete := by
  unfold Parsers.delete
  refine same_bindEq (by plain) fun _ => same_bindBy (same_clause _ (same_expr h)) fun cond =>
    same_pure ?_
  cases cond <;> rfl

theorem same_parseDropTable : Same f (StmtWith f) parseDropTable parseDropTable := by
  unfold parseDropTable
  refine same_bindEq (by plain) fun _ => same_bindEq (by plain) fun _ => same_bindEq (by plain)
    fun cascade => same_joinEq ?_ fun _ => same_pure rfl
  plain

theorem same_parseDropIndex : Same f (StmtWith f) parseDropIndex parseDropIndex := by
  unfold parseDropIndex
  exact same_bindEq (by plain) fun _ => same_bindEq (by plain) fun _ => same_bindEq (by plain)
    fun _ => same_bindEq (by plain) fun _ => same_pure rfl

theorem same_exprOrDefault (h : Blind f p) :
    Same f (By (condWith f)) p.exprOrDefault p.exprOrDefault := by
  unfold Parsers.exprOrDefault
  exact same_bindEq (by plain) fun _ => same_ite (fun _ => same_pure rfl) fun _ =>
    same_bindBy (same_expr h) fun e => same_pure rfl

theorem same_parseColumns : Same f Eq parseColumns parseColumns := by
  unfold parseColumns
  walk
macro_rules | `(tactic| plain) => `(tactic| with_reducible exact same_parseColumns)

theorem same_insert (h : Blind f p) : Same f (StmtWith f) p.insert p.insert := by
  unfold Parsers.insert
  exact same_bindEq (by plain) fun _ => same_bindEq (by plain) fun _ => same_bindEq (by plain)
    fun _ => same_bindBy (same_separatedList (same_bindEq (by plain) fun _ =>
      same_closedList (same_exprOrDefault h))) fun rows => same_pure rfl

theorem same_parseCopy : Same f (StmtWith f) parseCopy parseCopy := by
  unfold parseCopy
  refine same_bindEq (by plain) fun _ => same_bindEq (by plain) fun _ => same_bindEq (by plain)
    fun _ => same_bindEq (by plain) fun _ => same_ite (fun _ => same_error) fun _ =>
    same_bindEq (same_clauseEq _ (same_bindBy same_next fun t => ?_)) fun _ => same_pure rfl
  cases t with
  | string s =>
    match s with
    | [] => exact same_errorAt (.string [])
    | [b] => exact same_pure rfl
    | b :: c :: s => exact same_errorAt (.string (b :: c :: s))
  | bytes b => exact same_errorAt (.bytes b)
  | _ => exact same_errorAt _

theorem same_update (h : Blind f p) : Same f (StmtWith f) p.update p.update := by
  unfold Parsers.update
  refine same_bindEq (by plain) fun _ => same_bindEq (by plain) fun _ =>
    same_bindBy (g := List.map fun u => (u.1, condWith f u.2)) (same_separatedList ?_)
      fun updates => same_bindBy (same_clause _ (same_expr h)) fun cond => same_pure ?_
  · exact same_bindEq (by plain) fun _ => same_bindEq (by plain) fun _ =>
      same_bindBy (same_exprOrDefault h) fun e => same_pure rfl
  · cases cond <;> rfl

theorem same_settingValue (env : ParseEnv) (h : Blind f p) :
    Same f (fun _ _ => True) (p.settingValue env) (p.settingValue env) := by
  unfold Parsers.settingValue
  refine same_bindBy (same_expr h) fun e => ?_
  cases e with
  | lit v =>
    cases v with
    | none => exact same_crash
    | some v => cases v <;> exact same_pure trivial
  | _ => exact same_error

theorem same_set (env : ParseEnv) (h : Blind f p) :
    Same f (StmtWith f) (p.set env) (p.set env) := by
  unfold Parsers.set
  refine same_bindEq (by plain) fun id => ?_
  have rest : ∀ var : Identifier, Same f (StmtWith f)
      (do
        let equal ← maybeToken Tok.equal
        let _ ← if equal then pure 0 else expectReserved [Kw.TO]
        let value ← p.settingValue env
        pure (Stmt.set var value))
      (do
        let equal ← maybeToken Tok.equal
        let _ ← if equal then pure 0 else expectReserved [Kw.TO]
        let value ← p.settingValue env
        pure (Stmt.set var value)) := by
    intro var
    refine same_bindEq (by plain) fun equal => ?_
    refine same_joinEq ?_ fun _ => same_bind (same_settingValue env h) fun _ _ _ => same_pure rfl
    plain
  cases id with
  | some id => exact same_bindEq (same_pure rfl) rest
  | none => exact same_bindEq (by plain) rest

theorem same_use (env : ParseEnv) (h : Blind f p) :
    Same f (StmtWith f) (p.use env) (p.use env) := by
  unfold Parsers.use
  exact same_bind (same_settingValue env h) fun _ _ _ => same_pure rfl

theorem setOption_names {o' o : List (Identifier × Bytes)} (h : o'.map (·.1) = o.map (·.1))
    (opt : Identifier) (v' v : Bytes) :
    (setOption o' opt v').map (·.1) = (setOption o opt v).map (·.1) := by
  have key : ∀ l : List (Identifier × Bytes), (setOption l opt v').map (·.1) =
      (l.map (·.1)).filter (fun i => i ≠ opt) ++ [opt] := by
    intro l
    rw [setOption, List.map_append, List.filter_map]; rfl
  have key' : ∀ l : List (Identifier × Bytes), (setOption l opt v).map (·.1) =
      (l.map (·.1)).filter (fun i => i ≠ opt) ++ [opt] := by
    intro l
    rw [setOption, List.map_append, List.filter_map]; rfl
  rw [key, key', h]

theorem same_parseOptions (env : ParseEnv) :
    Same f (fun o' o => o'.map (·.1) = o.map (·.1)) (parseOptions env) (parseOptions env) := by
  unfold parseOptions
  refine same_bind (R := fun o' o => o'.map (·.1) = o.map (·.1)) (same_loop rfl fun s' s hs => ?_)
    fun o' o ho => ?_
  · refine same_bindBy same_next fun t => ?_
    cases t with
    | identifier opt =>
      refine same_bindEq (by plain) fun _ => same_bindBy same_next fun t => ?_
      cases t with
      | identifier id => exact same_pure ⟨setOption_names hs _ _ _, rfl⟩
      | string id => exact same_pure ⟨setOption_names hs _ _ _, rfl⟩
      | bytes id => exact same_pure ⟨setOption_names hs _ _ _, rfl⟩
      | integer id => exact same_pure ⟨setOption_names hs _ _ _, rfl⟩
      | float id => exact same_pure ⟨setOption_names hs _ _ _, rfl⟩
      | _ => exact same_errorAt _
    | bytes b => exact same_bindEq (same_unscan (.bytes b)) fun _ => same_pure ⟨hs, rfl⟩
    | _ => exact same_bindEq (same_unscan _) fun _ => same_pure ⟨hs, rfl⟩
  · have : o' = [] ↔ o = [] := by
      rw [← List.map_eq_nil_iff (f := (·.1)), ho, List.map_eq_nil_iff]
    by_cases h : o = []
    · rw [if_pos h, if_pos (this.2 h)]; exact same_error
    · rw [if_neg h, if_neg (mt this.1 h)]; exact same_pure ho

theorem same_parseCreateDatabase (env : ParseEnv) :
    Same f (StmtWith f) (parseCreateDatabase env) (parseCreateDatabase env) := by
  unfold parseCreateDatabase
  refine same_bindEq (by plain) fun d => ?_
  refine same_bind (R := fun o' o => (o'.getD []).map (·.1) = (o.getD []).map (·.1))
    (same_bindEq (by plain) fun _ => same_ite (fun _ => ?_) fun _ => same_pure rfl)
    fun o' o ho => same_pure ⟨rfl, ho⟩
  exact same_bind (same_parseOptions env) fun _ _ h => same_pure h

theorem same_parseDropDatabase : Same f (StmtWith f) parseDropDatabase parseDropDatabase := by
  unfold parseDropDatabase
  exact same_bindEq (by plain) fun _ => same_bindEq (by plain) fun _ => same_pure rfl

theorem same_parseDropSchema : Same f (StmtWith f) parseDropSchema parseDropSchema := by
  unfold parseDropSchema
  exact same_bindEq (by plain) fun _ => same_bindEq (by plain) fun _ => same_pure rfl

theorem same_explain (h : Blind f p) : Same f (StmtWith f) p.explain p.explain := by
  unfold Parsers.explain
  exact same_bindEq (by plain) fun _ => same_bindEq (by plain) fun _ =>
    same_bindBy (same_select h) fun _ => same_pure rfl

theorem same_create (env : ParseEnv) (h : Blind f p) :
    Same f (StmtWith f) (p.create env) (p.create env) := by
  unfold Parsers.create
  refine same_bindEq (by plain) fun id => same_ite (fun _ => same_parseCreateDatabase env) fun _ =>
    same_ite (fun _ => same_parseCreateIndex _) fun _ => same_ite (fun _ => ?_) fun _ =>
    same_ite (fun _ => ?_) fun _ => ?_
  · exact same_bindEq (by plain) fun _ => same_pure rfl
  · exact same_bindBy (same_createTable env h) fun _ => same_pure rfl
  · exact same_bindEq (by plain) fun _ => same_parseCreateIndex _

theorem same_parseDrop : Same f (StmtWith f) parseDrop parseDrop := by
  unfold parseDrop
  exact same_bindEq (by plain) fun id => same_ite (fun _ => same_parseDropDatabase) fun _ =>
    same_ite (fun _ => same_parseDropIndex) fun _ => same_ite (fun _ => same_parseDropSchema)
    fun _ => same_parseDropTable

/-- `StmtWith` for a statement that may be nil. -/
def MaybeWith (f : Bytes → Bytes) : Option Stmt → Option Stmt → Prop
  | some s', some s => StmtWith f s' s
  | none, none => True
  | _, _ => False

theorem same_some {p' p : P Stmt} (h : Same f (StmtWith f) p' p) :
    Same f (MaybeWith f) (some <$> p') (some <$> p) :=
  same_bind h fun _ _ h => same_pure h

theorem same_query {p' p : P Query} (h : Same f (By (queryWith f)) p' p) :
    Same f (MaybeWith f) ((fun q => some (Stmt.query q)) <$> p')
      ((fun q => some (Stmt.query q)) <$> p) :=
  same_bindBy h fun _ => same_pure rfl

theorem same_afterKeyword (env : ParseEnv) (h : Blind f p) (id : Identifier) :
    Same f (MaybeWith f) (p.afterKeyword env id) (p.afterKeyword env id) := by
  unfold Parsers.afterKeyword
  refine same_ite (fun _ => same_bindEq (by plain) fun _ => same_some same_parseAlterTable) fun _ => ?_
  refine same_ite (fun _ => same_pure rfl) fun _ => same_ite (fun _ => same_pure rfl) fun _ => ?_
  refine same_ite (fun _ => same_some same_parseCopy) fun _ => ?_
  refine same_ite (fun _ => same_some (same_create env h)) fun _ => ?_
  refine same_ite (fun _ => same_bindEq (by plain) fun _ => same_some (same_delete h)) fun _ => ?_
  refine same_ite (fun _ => same_some same_parseDrop) fun _ => ?_
  refine same_ite (fun _ => same_some (same_explain h)) fun _ => ?_
  refine same_ite (fun _ => same_bindEq (by plain) fun _ => same_some (same_insert h)) fun _ => ?_
  refine same_ite (fun _ => same_pure rfl) fun _ => ?_
  refine same_ite (fun _ => same_query (same_select h)) fun _ => ?_
  refine same_ite (fun _ => same_some (same_set env h)) fun _ => ?_
  refine same_ite (fun _ => same_query (same_parseShow env)) fun _ => ?_
  refine same_ite (fun _ => same_bindEq (by plain) fun _ => same_pure rfl) fun _ => ?_
  refine same_ite (fun _ => same_some (same_update h)) fun _ => ?_
  refine same_ite (fun _ => same_some (same_use env h)) fun _ => ?_
  exact same_ite (fun _ => same_query (same_values h)) fun _ => same_pure trivial

theorem same_stmtEnd (env : ParseEnv) (h : Blind f p) :
    Same f (MaybeWith f) (p.stmtEnd env) (p.stmtEnd env) := by
  unfold Parsers.stmtEnd Parsers.stmt
  refine same_bind (R := MaybeWith f) (same_bindEq (by plain) fun _ => same_ite (fun _ => same_pure trivial)
    fun _ => same_bindEq (by plain) fun id => same_afterKeyword env h id) fun s' s hs => ?_
  exact same_bindEq same_expectEndOfStatement fun _ => same_pure hs

theorem same_parseStmtEnd (env : ParseEnv) :
    Same f (MaybeWith f) (parseStmtEnd env) (parseStmtEnd env) := by
  intro ts
  unfold parseStmtEnd
  rw [List.length_map]
  exact same_stmtEnd env (blind env _) ts

theorem skip_with : ∀ ts : List Token, skipStatement (ts.map (tokenWith f)) =
    ((skipStatement ts).1, (skipStatement ts).2.map (tokenWith f))
  | [] => rfl
  | .eof :: rest => rfl
  | .error false :: rest => rfl
  | .endOfStatement :: rest => rfl
  | .error true :: rest => skip_with rest
  | .identifier _ :: rest | .reserved _ :: rest | .string _ :: rest | .bytes _ :: rest
  | .integer _ :: rest | .float _ :: rest | .parameter _ :: rest | .barBar :: rest
  | .lessLess :: rest | .lessEqual :: rest | .lessGreater :: rest | .greaterGreater :: rest
  | .greaterEqual :: rest | .equalEqual :: rest | .bangEqual :: rest | .rune _ :: rest =>
    skip_with rest

theorem parseRecover_with (env : ParseEnv) (ts : List Token) :
    ParsedWith f (parseRecover env (ts.map (tokenWith f))).1 (parseRecover env ts).1 ∧
      (parseRecover env (ts.map (tokenWith f))).2.1 = (parseRecover env ts).2.1 ∧
      (parseRecover env (ts.map (tokenWith f))).2.2 =
        (parseRecover env ts).2.2.map (tokenWith f) := by
  have h := same_parseStmtEnd (f := f) env ts
  unfold parseRecover
  revert h
  cases parseStmtEnd env (ts.map (tokenWith f)) <;> cases parseStmtEnd env ts <;> intro h <;>
    try exact h.elim
  · obtain ⟨h1, h2⟩ := h
    rename_i s' r' s r
    refine ⟨?_, rfl, h2⟩
    cases s' <;> cases s <;> exact h1
  · obtain ⟨rfl, h2⟩ := h
    exact ⟨trivial, rfl, h2⟩
  · exact ⟨trivial, rfl, rfl⟩
  · exact ⟨trivial, rfl, rfl⟩

theorem parse_with (env : ParseEnv) (failed : Bool) (ts : List Token) :
    ParsedWith f (parse env failed (ts.map (tokenWith f))).1 (parse env failed ts).1 ∧
      (parse env failed (ts.map (tokenWith f))).2.1 = (parse env failed ts).2.1 ∧
      (parse env failed (ts.map (tokenWith f))).2.2 =
        (parse env failed ts).2.2.map (tokenWith f) := by
  have rest : ∀ ts : List Token,
      ParsedWith f
        (if failed then
          match skipStatement (ts.map (tokenWith f)) with
          | (some true, rest) => (.error, true, rest)
          | (some false, rest) => (.eof, true, rest)
          | (none, rest) => parseRecover env rest
        else parseRecover env (ts.map (tokenWith f)) : Parsed × Bool × List Token).1
        (if failed then
          match skipStatement ts with
          | (some true, rest) => (.error, true, rest)
          | (some false, rest) => (.eof, true, rest)
          | (none, rest) => parseRecover env rest
        else parseRecover env ts : Parsed × Bool × List Token).1 ∧
      (if failed then
          match skipStatement (ts.map (tokenWith f)) with
          | (some true, rest) => (.error, true, rest)
          | (some false, rest) => (.eof, true, rest)
          | (none, rest) => parseRecover env rest
        else parseRecover env (ts.map (tokenWith f)) : Parsed × Bool × List Token).2.1 =
        (if failed then
          match skipStatement ts with
          | (some true, rest) => (.error, true, rest)
          | (some false, rest) => (.eof, true, rest)
          | (none, rest) => parseRecover env rest
        else parseRecover env ts : Parsed × Bool × List Token).2.1 ∧
      (if failed then
          match skipStatement (ts.map (tokenWith f)) with
          | (some true, rest) => (.error, true, rest)
          | (some false, rest) => (.eof, true, rest)
          | (none, rest) => parseRecover env rest
        else parseRecover env (ts.map (tokenWith f)) : Parsed × Bool × List Token).2.2 =
        (if failed then
          match skipStatement ts with
          | (some true, rest) => (.error, true, rest)
          | (some false, rest) => (.eof, true, rest)
          | (none, rest) => parseRecover env rest
        else parseRecover env ts : Parsed × Bool × List Token).2.2.map (tokenWith f) := by
    intro ts
    by_cases hf : failed = true
    · simp only [if_pos hf]
      rw [skip_with]
      obtain ⟨a, r⟩ := skipStatement ts
      cases a with
      | none => exact parseRecover_with env r
      | some b => cases b <;> exact ⟨trivial, rfl, rfl⟩
    · simp only [if_neg hf]
      exact parseRecover_with env ts
  match ts with
  | [] => exact ⟨trivial, rfl, rfl⟩
  | .eof :: r => exact ⟨trivial, rfl, rfl⟩
  | .error false :: r => exact ⟨trivial, rfl, rfl⟩
  | .error true :: r => exact rest (.error true :: r)
  | .endOfStatement :: r => exact rest (.endOfStatement :: r)
  | .identifier i :: r => exact rest (.identifier i :: r)
  | .reserved i :: r => exact rest (.reserved i :: r)
  | .string i :: r => exact rest (.string i :: r)
  | .bytes i :: r => exact rest (.bytes i :: r)
  | .integer i :: r => exact rest (.integer i :: r)
  | .float i :: r => exact rest (.float i :: r)
  | .parameter i :: r => exact rest (.parameter i :: r)
  | .barBar :: r => exact rest (.barBar :: r)
  | .lessLess :: r => exact rest (.lessLess :: r)
  | .lessEqual :: r => exact rest (.lessEqual :: r)
  | .lessGreater :: r => exact rest (.lessGreater :: r)
  | .greaterGreater :: r => exact rest (.greaterGreater :: r)
  | .greaterEqual :: r => exact rest (.greaterEqual :: r)
  | .equalEqual :: r => exact rest (.equalEqual :: r)
  | .bangEqual :: r => exact rest (.bangEqual :: r)
  | .rune i :: r => exact rest (.rune i :: r)

end
end Maho.Lit
