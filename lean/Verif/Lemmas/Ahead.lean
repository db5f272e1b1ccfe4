import Verif.Model.Parse
/-
Helper lemmas for C92: the methods of the parser do not read beyond a semicolon.
-/
namespace Maho

variable {x y : List Token} {α β : Type}

/-- Tokens of one statement. -/
def OneStmt (u : List Token) : Prop := Token.endOfStatement ∉ u ∧ Token.eof ∉ u

/-- What is left of the statement, and `x` or `y` after its semicolon. -/
def LeftUpto (x y r s : List Token) : Prop :=
  ∃ u, OneStmt u ∧ r = u ++ .endOfStatement :: x ∧ s = u ++ .endOfStatement :: y

/-- The results for two inputs with the same statement and a semicolon, followed by `x` and by `y`:
they are the same, and so is what is left of the statement. After an error, the semicolon may have
been read. -/
def UptoRes (x y : List Token) : PRes α → PRes α → Prop
  | .stuck, _ => True
  | _, .stuck => True
  | .ok a r, .ok b s => a = b ∧ LeftUpto x y r s
  | .fail e r, .fail f s => e = f ∧ (e = false ∧ LeftUpto x y r s ∨ e = true ∧ r = x ∧ s = y)
  | .panic, .panic => True
  | _, _ => False

/-- Two methods, which differ in their fuel only, do the same for such inputs. -/
def Upto (x y : List Token) (m n : P α) : Prop :=
  ∀ u, OneStmt u → UptoRes x y (m (u ++ .endOfStatement :: x)) (n (u ++ .endOfStatement :: y))

/-- They are called after `t` has been read, which may have been the semicolon. -/
def Upto.After (x y : List Token) (t : Token) (m n : P α) : Prop :=
  (t ≠ .endOfStatement → Upto x y m n) ∧ (t = .endOfStatement → UptoRes x y (m x) (n y))

namespace Upto

theorem res_stuck {r : PRes α} : UptoRes x y r .stuck := by
  cases r <;> trivial

theorem bind {m n : P α} {f g : α → P β} (h1 : Upto x y m n) (h2 : ∀ a, Upto x y (f a) (g a)) :
    Upto x y (m >>= f) (n >>= g) := by
  intro u hu
  have h := h1 u hu
  show UptoRes x y (P.bind m f _) (P.bind n g _)
  unfold P.bind
  revert h
  cases m (u ++ .endOfStatement :: x) <;> cases n (u ++ .endOfStatement :: y) <;> intro h <;> first
    | exact h.elim
    | exact h
    | trivial
    | exact res_stuck
    | skip
  obtain ⟨rfl, u, hu, rfl, rfl⟩ := h
  exact h2 _ u hu

theorem pure {a : α} : Upto x y (Pure.pure a) (Pure.pure a) :=
  fun u hu => ⟨rfl, u, hu, rfl, rfl⟩

theorem map {m n : P α} {f : α → β} (h : Upto x y m n) : Upto x y (f <$> m) (f <$> n) :=
  bind h fun _ => pure

theorem ite {c : Prop} [Decidable c] {m n m' n' : P α} (h1 : Upto x y m n) (h2 : Upto x y m' n') :
    Upto x y (if c then m else m') (if c then n else n') := by
  split
  · exact h1
  · exact h2

theorem error : Upto x y (P.error : P α) P.error :=
  fun u hu => ⟨rfl, .inl ⟨rfl, u, hu, rfl, rfl⟩⟩

theorem crash : Upto x y (P.crash : P α) P.crash := fun _ _ => trivial

theorem unscan {t : Token} (ht : t ≠ .endOfStatement) : Upto x y (P.unscan t) (P.unscan t) := by
  intro u hu
  unfold P.unscan
  split
  · exact ⟨rfl, u, hu, rfl, rfl⟩
  · rename_i he
    refine ⟨rfl, t :: u, ⟨fun h => ?_, fun h => ?_⟩, rfl, rfl⟩
    · rcases List.mem_cons.1 h with h | h
      · exact ht h.symm
      · exact hu.1 h
    · rcases List.mem_cons.1 h with h | h
      · exact he h.symm
      · exact hu.2 h

theorem errorAt {t : Token} (ht : t ≠ .endOfStatement) :
    Upto x y (P.errorAt t : P α) (P.errorAt t) :=
  fun u hu => ⟨rfl, .inl ⟨by simpa using ht, u, hu, rfl, rfl⟩⟩

theorem errorGot {t : Token} (ht : t ≠ .endOfStatement) :
    Upto x y (P.errorGot t : P α) (P.errorGot t) := ite crash (errorAt ht)

theorem next_eq {t : Token} {l : List Token} (ht : t ≠ .error false) :
    P.next (t :: l) = .ok t l := by
  unfold P.next
  split
  · rename_i h; cases h
  · rename_i h; cases h; exact absurd rfl ht
  · rename_i h; cases h; rfl

theorem next {f g : Token → P β} (h : ∀ t, After x y t (f t) (g t)) :
    Upto x y (P.next >>= f) (P.next >>= g) := by
  intro u hu
  cases u with
  | nil => exact (h .endOfStatement).2 rfl
  | cons t u =>
    have hu2 : OneStmt u :=
      ⟨fun h => hu.1 (List.mem_cons_of_mem _ h), fun h => hu.2 (List.mem_cons_of_mem _ h)⟩
    by_cases ht : t = .error false
    · subst ht
      exact ⟨rfl, .inl ⟨rfl, u, hu2, rfl, rfl⟩⟩
    · show UptoRes x y (P.bind P.next f _) (P.bind P.next g _)
      unfold P.bind
      rw [List.cons_append, List.cons_append, next_eq ht, next_eq ht]
      exact (h t).1 (fun e => hu.1 (by simp [e])) u hu2

theorem After.got {t : Token} {m n : P α} (ht : t ≠ .endOfStatement) (h : Upto x y m n) :
    After x y t m n := ⟨fun _ => h, fun e => absurd e ht⟩

theorem After.back {t : Token} {m n : P α} (h : Upto x y m n) :
    After x y t (P.unscan t >>= fun _ => m) (P.unscan t >>= fun _ => n) :=
  ⟨fun ht => bind (unscan ht) fun _ => h,
    fun e => by subst e; exact h [] ⟨by simp, by simp⟩⟩

theorem After.errorAt {t : Token} : After x y t (P.errorAt t : P α) (P.errorAt t) :=
  ⟨Upto.errorAt, fun e => by subst e; exact ⟨rfl, .inr ⟨rfl, rfl, rfl⟩⟩⟩

theorem After.errorGot {t : Token} : After x y t (P.errorGot t : P α) (P.errorGot t) :=
  ⟨Upto.errorGot, fun e => by subst e; exact ⟨rfl, .inr ⟨rfl, rfl, rfl⟩⟩⟩

theorem After.ite {t : Token} {c : Prop} [Decidable c] {m n m' n' : P α}
    (h1 : c → After x y t m n) (h2 : ¬ c → After x y t m' n') :
    After x y t (if c then m else m') (if c then n else n') := by
  split
  · exact h1 ‹_›
  · exact h2 ‹_›

/-! ### The methods for one token -/

theorem expectReserved {ids : List Identifier} :
    Upto x y (P.expectReserved ids) (P.expectReserved ids) := by
  refine next fun t => ?_
  cases t <;> try exact After.errorGot
  exact After.ite (fun _ => After.got (by simp) pure) fun _ => After.errorGot

theorem optionalReservedId {ids : List Identifier} :
    Upto x y (P.optionalReservedId ids) (P.optionalReservedId ids) := by
  refine next fun t => ?_
  cases t <;> try exact After.back pure
  exact After.ite (fun _ => After.got (by simp) pure) fun _ => After.back pure

theorem optionalReserved {ids : List Identifier} :
    Upto x y (P.optionalReserved ids) (P.optionalReserved ids) :=
  bind optionalReservedId fun _ => pure

theorem expectIdentifier : Upto x y P.expectIdentifier P.expectIdentifier := by
  refine next fun t => ?_
  cases t <;> try exact After.errorGot
  exact After.got (by simp) pure

theorem maybeIdentifier {id : Identifier} :
    Upto x y (P.maybeIdentifier id) (P.maybeIdentifier id) :=
  next fun _ => After.ite (fun h => After.got (by rw [h]; simp) pure) fun _ => After.back pure

theorem expectTokens {l : List Token} (hl : Token.endOfStatement ∉ l) :
    Upto x y (P.expectTokens l) (P.expectTokens l) :=
  next fun _ => After.ite (fun h => After.got (by rintro rfl; exact hl h) pure)
    fun _ => After.errorGot

theorem maybeToken {t : Token} (ht : t ≠ .endOfStatement) :
    Upto x y (P.maybeToken t) (P.maybeToken t) :=
  next fun _ => After.ite (fun h => After.got (by rw [h]; exact ht) pure) fun _ => After.back pure

theorem expectInteger {a b : Int} : Upto x y (P.expectInteger a b) (P.expectInteger a b) := by
  refine next fun t => ?_
  cases t <;> try exact After.errorGot
  exact After.ite (fun _ => After.errorGot) fun _ => After.got (by simp) pure

/-! ### Loops -/

/-- A loop with different fuel. -/
theorem res_loop {σ : Type} {step step2 : σ → P (σ × Bool)}
    (h : ∀ s, Upto x y (step s) (step2 s)) :
    ∀ n k s u, OneStmt u → UptoRes x y (P.loopFuel step n s (u ++ .endOfStatement :: x))
      (P.loopFuel step2 k s (u ++ .endOfStatement :: y))
  | 0, _, _, _, _ => trivial
  | _ + 1, 0, _, _, _ => res_stuck
  | n + 1, k + 1, s, u, hu => by
    have h1 := h s u hu
    show UptoRes x y (P.bind (step s) _ _) (P.bind (step2 s) _ _)
    unfold P.bind
    revert h1
    cases step s (u ++ .endOfStatement :: x) <;> cases step2 s (u ++ .endOfStatement :: y) <;>
      intro h1 <;> first
        | exact h1.elim
        | exact h1
        | trivial
        | exact res_stuck
        | skip
    obtain ⟨rfl, v, hv, rfl, rfl⟩ := h1
    rename_i a
    obtain ⟨s, b⟩ := a
    cases b
    · exact ⟨rfl, v, hv, rfl, rfl⟩
    · exact res_loop h n k s v hv

theorem loop {σ : Type} {step step2 : σ → P (σ × Bool)} (h : ∀ s, Upto x y (step s) (step2 s)) (s : σ) :
    Upto x y (P.loop step s) (P.loop step2 s) := fun u hu => res_loop h _ _ s u hu

theorem closed {σ : Type} {step step2 : σ → P σ} (h : ∀ s, Upto x y (step s) (step2 s)) (s : σ) :
    Upto x y (P.closed step s) (P.closed step2 s) :=
  loop (fun s => bind (h s) fun _ => bind (expectTokens (by decide)) fun _ => pure) s

theorem separated {σ : Type} {step step2 : σ → P σ} (h : ∀ s, Upto x y (step s) (step2 s)) (s : σ) :
    Upto x y (P.separated step s) (P.separated step2 s) :=
  loop (fun s => bind (h s) fun _ => bind (maybeToken (by decide)) fun _ => pure) s

theorem closedList {item item2 : P α} (h :
    Upto x y item item2) : Upto x y (P.closedList item) (P.closedList item2) :=
  closed (fun _ => bind h fun _ => pure) []

theorem separatedList {item item2 : P α} (h :
    Upto x y item item2) : Upto x y (P.separatedList item) (P.separatedList item2) :=
  separated (fun _ => bind h fun _ => pure) []

theorem distinctColumns : Upto x y P.distinctColumns P.distinctColumns :=
  closed (fun _ => bind expectIdentifier fun _ => ite error pure) []

/-- The methods that call each other. -/
structure All (x y : List Token) (p q : Parsers) : Prop where
  subExpr : Upto x y p.subExpr q.subExpr
  query : Upto x y p.query q.query
  fromItem : Upto x y p.fromItem q.fromItem

theorem adjust {e : Expr} : Upto x y (adjust e) (adjust e) := by
  intro u hu
  unfold Maho.adjust
  cases adjustPrecedence (3 * e.nodes + 1) e with
  | none => trivial
  | some e => exact ⟨rfl, u, hu, rfl, rfl⟩

theorem All.expr {p q : Parsers} (h : All x y p q) :
    Upto x y p.expr q.expr := bind h.subExpr fun _ => adjust

theorem addKeyConstraint {s : CreateTable} {ct : ConstraintType} {cn : Identifier} {key : IndexKey} :
    Upto x y (addKeyConstraint s ct cn key) (addKeyConstraint s ct cn key) := by
  unfold Maho.addKeyConstraint
  refine ite error ?_
  cases anyEqualKey key s.constraints with
  | ok b => cases b; exact pure; exact error
  | err => exact crash
  | panic => exact crash

theorem addColumnConstraint {s : CreateTable} {ct : ConstraintType} {cn : Identifier} {n : Nat} :
    Upto x y (addColumnConstraint s ct cn n) (addColumnConstraint s ct cn n) := ite error pure

/-- Methods that are put together from others. -/
macro "upto" : tactic => `(tactic|
  repeat' first
    | exact Upto.pure
    | exact Upto.error
    | exact Upto.crash
    | exact Upto.expectIdentifier
    | exact Upto.expectReserved
    | exact Upto.optionalReserved
    | exact Upto.optionalReservedId
    | exact Upto.expectTokens (by decide)
    | exact Upto.maybeToken (by decide)
    | exact Upto.maybeIdentifier
    | exact Upto.expectInteger
    | exact Upto.distinctColumns
    | exact Upto.unscan (by first | decide | simp)
    | exact Upto.addKeyConstraint
    | exact Upto.addColumnConstraint
    | assumption
    | refine Upto.ite ?_ ?_
    | refine Upto.bind ?_ (fun _ => ?_)
    | refine Upto.map ?_
    | refine Upto.closedList ?_
    | refine Upto.separatedList ?_)

theorem optionalBinaryOp : Upto x y optionalBinaryOp optionalBinaryOp := by
  refine next fun t => ?_
  cases h : binaryOps.lookup t with
  | some op =>
    refine After.got ?_ pure
    rintro rfl
    rw [show binaryOps.lookup .endOfStatement = none from rfl] at h
    cases h
  | none =>
    refine After.ite (fun h => After.got (by rw [h]; simp) pure) fun _ => ?_
    exact After.ite (fun h => After.got (by rw [h]; simp) pure) fun _ => After.back pure

theorem schemaName : Upto x y parseSchemaName parseSchemaName := by
  unfold parseSchemaName
  upto

theorem tableName : Upto x y parseTableName parseTableName := by
  unfold parseTableName
  upto

theorem alias {required : Bool} : Upto x y (parseAlias required) (parseAlias required) := by
  refine bind optionalReserved fun _ => ite expectIdentifier (next fun t => ?_)
  cases t <;> first
    | exact After.got (by simp) pure
    | exact After.ite (fun _ => After.errorAt) fun _ => After.back pure

theorem tableAlias : Upto x y parseTableAlias parseTableAlias := by
  have h1 := @tableName x y
  have h2 := @alias x y false
  unfold parseTableAlias
  upto

theorem columnAliases : Upto x y parseColumnAliases parseColumnAliases := by
  unfold parseColumnAliases
  upto

theorem clause {id : Identifier} {m n : P α} (h :
    Upto x y m n) : Upto x y (P.clause id m) (P.clause id n) := by
  unfold P.clause
  upto

section
variable {p q : Parsers} (h : All x y p q)
include h

theorem subquery : Upto x y p.subquery q.subquery := by
  refine bind (expectTokens (by decide)) fun _ => bind h.query fun o => ?_
  cases o <;> dsimp only <;> upto

theorem call {id : Identifier} : Upto x y (p.call id) (q.call id) := by
  have hs := h.subExpr
  refine bind (maybeToken (by decide)) fun _ => ite ?_ (bind (loop (fun _ => ?_) []) fun _ => pure)
  · upto
  · upto

theorem operand : Upto x y p.operand q.operand := by
  have hs := h.subExpr
  have hq := subquery h
  refine next fun t => ?_
  cases t
  case reserved id =>
    refine After.got (by simp) ?_
    dsimp only
    upto
  case identifier id => exact After.got (by simp) (call h)
  all_goals first
    | exact After.got (by simp) pure
    | refine After.ite (fun e => ?_) fun _ => After.ite (fun e => ?_) fun _ => After.errorGot
      · exact After.got (fun e2 => absurd (e.symm.trans e2) (by decide)) (by upto)
      · refine After.got (fun e2 => absurd (e.symm.trans e2) (by decide)) (bind h.query fun o => ?_)
        cases o <;> upto

theorem operator {env : ParseEnv} {e : Expr} : Upto x y (p.operator env e) (q.operator env e) := by
  have hs := h.subExpr
  have hq := subquery h
  refine bind optionalBinaryOp fun o => ?_
  cases o with
  | some ob =>
    obtain ⟨op, b⟩ := ob
    refine bind optionalReservedId fun o => ?_
    cases o <;> dsimp only <;> upto
  | none =>
    refine bind optionalReservedId fun o => ?_
    cases o <;> dsimp only <;> upto

theorem values : Upto x y p.values q.values := by
  have he := h.expr
  refine bind (separated (fun rows => ?_) []) fun _ => pure
  refine bind (expectTokens (by decide)) fun _ => bind (closedList he) fun row => ?_
  cases rows
  · exact pure
  · exact ite error pure

theorem fromList : Upto x y p.fromList q.fromList := by
  have hf := h.fromItem
  refine bind hf fun fi => loop (fun fi => ?_) fi
  upto

theorem result : Upto x y p.result q.result := by
  have he := h.expr
  have ha := @alias x y false
  have tail : Upto x y
      (do let e ← p.expr; let alias ← parseAlias false; Pure.pure (SelectResult.expr e alias))
      (do let e ← q.expr; let alias ← parseAlias false; Pure.pure (SelectResult.expr e alias)) := by
    upto
  refine next fun t => ?_
  cases t <;> try exact After.back tail
  refine After.got (by simp) ?_
  dsimp only
  upto

omit h in
theorem orderBy : Upto x y parseOrderBy parseOrderBy := by
  unfold parseOrderBy
  upto

theorem select : Upto x y p.select q.select := by
  have he := h.expr
  have h1 := result h
  have h2 := fromList h
  have h3 := @orderBy x y
  have h4 :
      Upto x y (P.expectReserved [Kw.BY] >>= fun _ => P.separatedList p.expr)
        (P.expectReserved [Kw.BY] >>= fun _ => P.separatedList q.expr) := by upto
  have h5 :
      Upto x y (P.expectReserved [Kw.BY] >>= fun _ => P.separatedList parseOrderBy)
        (P.expectReserved [Kw.BY] >>= fun _ => P.separatedList parseOrderBy) := by upto
  have h6 := clause (id := Kw.FROM) h2
  have h7 := clause (id := Kw.WHERE) he
  have h8 := clause (id := Kw.GROUP) h4
  have h9 := clause (id := Kw.HAVING) he
  have h10 := clause (id := Kw.ORDER) h5
  unfold Parsers.select
  upto

omit h in
theorem showFromTable {env : ParseEnv} {table : Identifier} :
    Upto x y (showFromTable env table) (showFromTable env table) := by
  have h1 := @tableName x y
  unfold Maho.showFromTable
  upto

omit h in
theorem showVariable {env : ParseEnv} {id : Identifier} :
    Upto x y (showVariable env id) (showVariable env id) := by
  have h1 := @showFromTable x y env
  have h2 := clause (id := Kw.FROM) (@expectIdentifier x y)
  have h3 := clause (id := Kw.FROM) (@schemaName x y)
  have h4 := @h1 Kw.COLUMNS
  have h5 := @h1 Kw.CONSTRAINTS
  unfold Maho.showVariable
  upto
  split <;> exact pure

omit h in
theorem parseShow {env : ParseEnv} : Upto x y (parseShow env) (parseShow env) := by
  refine next fun t => ?_
  cases t <;> first
    | exact After.got (by simp) showVariable
    | exact After.errorAt

theorem stepQuery {env : ParseEnv} : Upto x y (p.stepQuery env) (q.stepQuery env) := by
  have h1 := select h
  have h2 := values h
  have h3 := @parseShow x y env
  have h4 := @tableName x y
  unfold Parsers.stepQuery
  upto

omit h in
theorem fromStmt {r : Query} : Upto x y (parseFromStmt r) (parseFromStmt r) := by
  have h1 := @alias x y true
  have h2 := @columnAliases x y
  unfold parseFromStmt
  upto

omit h in
theorem joinType : Upto x y parseJoinType parseJoinType := by
  refine bind optionalReservedId fun o => ?_
  cases o <;> dsimp only <;> upto

theorem joinCondition : Upto x y p.joinCondition q.joinCondition := by
  refine bind (clause h.expr) fun o => ?_
  have h1 :
      Upto x y (P.expectTokens [Tok.lparen] >>= fun _ => P.distinctColumns)
        (P.expectTokens [Tok.lparen] >>= fun _ => P.distinctColumns) := by upto
  have h2 := clause (id := Kw.USING) h1
  cases o <;> dsimp only <;> upto

theorem stepFromItem : Upto x y p.stepFromItem q.stepFromItem := by
  have hq := h.query
  have hf := h.fromItem
  have h1 := @tableAlias x y
  have h2 := fromList h
  have h3 := @joinType x y
  have h4 := joinCondition h
  refine bind (maybeToken (by decide)) fun b => ?_
  refine ite (bind (bind hq fun o => ?_) fun fi => ?_) (bind h1 fun fi => ?_)
  · cases o <;> dsimp only
    · upto
    · exact fromStmt
  all_goals
    refine bind h3 fun o => ?_
    cases o <;> dsimp only <;> upto

end

/-- The methods that call each other, with different fuel. -/
theorem parsers (env : ParseEnv) : ∀ n k, All x y (parsers env n) (parsers env k)
  | 0, _ => ⟨fun _ _ => trivial, fun _ _ => trivial, fun _ _ => trivial⟩
  | _ + 1, 0 => ⟨fun _ _ => res_stuck, fun _ _ => res_stuck, fun _ _ => res_stuck⟩
  | n + 1, k + 1 =>
    have h := parsers env n k
    ⟨bind (operand h) fun _ => operator h, stepQuery h, stepFromItem h⟩

theorem key {unique : Bool} : Upto x y (parseKey unique) (parseKey unique) := by
  refine bind (expectTokens (by decide)) fun _ => closed (fun key => ?_) _
  upto

theorem refAction : Upto x y parseRefAction parseRefAction := by
  unfold parseRefAction
  upto

theorem onActions : Upto x y parseOnActions parseOnActions := by
  have h := @refAction x y
  refine loop (fun s => ?_) _
  upto

theorem foreignKey {cn : Identifier} : Upto x y (parseForeignKey cn) (parseForeignKey cn) := by
  have h1 := @tableName x y
  have h2 := @onActions x y
  unfold parseForeignKey
  upto

theorem columnType : Upto x y parseColumnType parseColumnType := by
  refine bind expectIdentifier fun typ => ?_
  cases columnTypes.lookup typ <;> dsimp only <;> upto

theorem constraintName : Upto x y parseConstraintName parseConstraintName :=
  bind (clause expectIdentifier) fun _ => pure

theorem ifNotExists : Upto x y parseIfNotExists parseIfNotExists := by
  refine bind (clause ?_) fun _ => pure
  upto

theorem ifExists : Upto x y parseIfExists parseIfExists := by
  refine bind (clause ?_) fun _ => pure
  upto

theorem alterAction : Upto x y parseAlterAction parseAlterAction := by
  have h1 := @constraintName x y
  have h2 := @onActions x y
  have h4 := @tableName x y
  have h3 := @ifExists x y
  unfold parseAlterAction
  upto

theorem alterTable : Upto x y parseAlterTable parseAlterTable := by
  have h1 := @tableName x y
  have h2 := @alterAction x y
  unfold parseAlterTable
  upto

theorem createIndex {unique : Bool} :
    Upto x y (parseCreateIndex unique) (parseCreateIndex unique) := by
  have h1 := @tableName x y
  have h2 := @ifNotExists x y
  have h3 := clause (id := Kw.USING) (@expectIdentifier x y)
  have h4 := @key x y unique
  unfold parseCreateIndex
  upto

theorem dropTable : Upto x y parseDropTable parseDropTable := by
  have h1 := @tableName x y
  have h2 := @ifExists x y
  unfold parseDropTable
  upto

theorem dropIndex : Upto x y parseDropIndex parseDropIndex := by
  have h1 := @tableName x y
  have h2 := @ifExists x y
  unfold parseDropIndex
  upto

theorem columns : Upto x y parseColumns parseColumns := by
  unfold parseColumns
  upto

theorem copy : Upto x y parseCopy parseCopy := by
  refine bind tableName fun _ => bind columns fun _ => bind expectReserved fun _ => ?_
  refine bind expectIdentifier fun id => ite error ?_
  refine bind (clause (next fun t => ?_)) fun _ => pure
  cases t <;> try exact After.errorAt
  rename_i s
  rcases s with _ | ⟨b, _ | ⟨c, l⟩⟩
  · exact After.errorAt
  · exact After.got (by simp) pure
  · exact After.errorAt

theorem options {env : ParseEnv} : Upto x y (parseOptions env) (parseOptions env) := by
  refine bind (loop (fun options => next fun t => ?_) _) fun o => ite error pure
  cases t <;> try exact After.back pure
  refine After.got (by simp) (bind (maybeToken (by decide)) fun _ => next fun t => ?_)
  cases t <;> first
    | exact After.errorAt
    | exact After.got (by simp) pure

theorem createDatabase {env : ParseEnv} :
    Upto x y (parseCreateDatabase env) (parseCreateDatabase env) := by
  have h1 := clause (id := Kw.WITH) (@options x y env)
  unfold parseCreateDatabase
  upto

theorem dropDatabase : Upto x y parseDropDatabase parseDropDatabase := by
  have h1 := @ifExists x y
  unfold parseDropDatabase
  upto

theorem dropSchema : Upto x y parseDropSchema parseDropSchema := by
  have h1 := @ifExists x y
  have h2 := @schemaName x y
  unfold parseDropSchema
  upto

theorem drop : Upto x y parseDrop parseDrop := by
  have h1 := @dropDatabase x y
  have h2 := @dropIndex x y
  have h3 := @dropSchema x y
  have h4 := @dropTable x y
  unfold parseDrop
  upto

section
variable {p q : Parsers} (h : All x y p q) {env : ParseEnv}
include h

theorem columnConstraint {nam : Identifier} (st : ColumnState) :
    Upto x y (p.columnConstraint env nam st) (q.columnConstraint env nam st) := by
  have he := h.expr
  have h1 := @tableName x y
  have h2 := @onActions x y
  refine bind constraintName fun cn => bind optionalReservedId fun o => ?_
  cases o <;> dsimp only <;> upto

theorem column {s : CreateTable} : Upto x y (p.column env s) (q.column env s) := by
  refine bind expectIdentifier fun nam => ite error ?_
  exact bind columnType fun ct => bind (loop (columnConstraint h) _) fun st => pure

theorem createDetail (s : CreateTable) : Upto x y (p.createDetail env s) (q.createDetail env s) := by
  have he := h.expr
  have h1 := @key x y true
  have h4 := @column x y p q h env s
  refine bind constraintName fun cn => bind optionalReservedId fun o => ?_
  have h3 := @foreignKey x y cn
  cases o <;> dsimp only <;> upto

theorem createTable : Upto x y (p.createTable env) (q.createTable env) :=
  bind ifNotExists fun _ => bind tableName fun _ => bind (expectTokens (by decide)) fun _ =>
    closed (createDetail h) _

theorem delete : Upto x y p.delete q.delete := by
  have h1 := @tableName x y
  have h2 := clause (id := Kw.WHERE) h.expr
  unfold Parsers.delete
  upto

theorem exprOrDefault : Upto x y p.exprOrDefault q.exprOrDefault := by
  have h1 := h.expr
  unfold Parsers.exprOrDefault
  upto

theorem insert : Upto x y p.insert q.insert := by
  have h1 := @tableName x y
  have h2 := @columns x y
  have h3 := exprOrDefault h
  unfold Parsers.insert
  upto

theorem update : Upto x y p.update q.update := by
  have h1 := @tableName x y
  have h2 := exprOrDefault h
  have h3 := clause (id := Kw.WHERE) h.expr
  unfold Parsers.update
  upto

theorem settingValue : Upto x y (p.settingValue env) (q.settingValue env) := by
  refine bind h.expr fun e => ?_
  cases e <;> try exact error
  rename_i v
  rcases v with _ | v
  · exact crash
  · cases v <;> exact pure

theorem set : Upto x y (p.set env) (q.set env) := by
  have h1 := @settingValue x y p q h env
  refine bind optionalReservedId fun o => ?_
  cases o <;> dsimp only <;> upto

theorem use : Upto x y (p.use env) (q.use env) := bind (settingValue h) fun _ => pure

theorem explain : Upto x y p.explain q.explain := by
  have h1 := select h
  unfold Parsers.explain
  upto

theorem create : Upto x y (p.create env) (q.create env) := by
  have h1 := @createDatabase x y env
  have h2 := @createIndex x y false
  have h3 := @createIndex x y true
  have h4 := @schemaName x y
  have h5 := @createTable x y p q h env
  unfold Parsers.create
  upto

theorem afterKeyword {id : Identifier} :
    Upto x y (p.afterKeyword env id) (q.afterKeyword env id) := by
  have h1 := @alterTable x y
  have h2 := @copy x y
  have h3 := @create x y p q h env
  have h4 := delete h
  have h5 := @drop x y
  have h6 := explain h
  have h7 := insert h
  have h8 := select h
  have h9 := @set x y p q h env
  have h10 := @parseShow x y env
  have h11 := update h
  have h12 := @use x y p q h env
  have h13 := values h
  unfold Parsers.afterKeyword
  upto

end

end Upto

/-! ### Calls of Parse -/

/-- The results for a statement and its end. -/
def UptoLast (x y : List Token) : PRes α → PRes α → Prop
  | .stuck, _ => True
  | _, .stuck => True
  | .ok a r, .ok b s => a = b ∧ r = x ∧ s = y
  | .fail e r, .fail f s => e = f ∧ (e = false ∧ LeftUpto x y r s ∨ e = true ∧ r = x ∧ s = y)
  | .panic, .panic => True
  | _, _ => False

theorem UptoLast.stuck {r : PRes α} : UptoLast x y r .stuck := by
  cases r <;> trivial

theorem upto_end {u : List Token} (hu : OneStmt u) : UptoLast x y
    (P.expectEndOfStatement (u ++ .endOfStatement :: x))
    (P.expectEndOfStatement (u ++ .endOfStatement :: y)) := by
  cases u with
  | nil => exact ⟨rfl, rfl, rfl⟩
  | cons t u =>
    have hu2 : OneStmt u :=
      ⟨fun h => hu.1 (List.mem_cons_of_mem _ h), fun h => hu.2 (List.mem_cons_of_mem _ h)⟩
    have h1 : t ≠ .endOfStatement := fun e => hu.1 (by simp [e])
    have h2 : t ≠ .eof := fun e => hu.2 (by simp [e])
    by_cases ht : t = .error false
    · subst ht
      exact ⟨rfl, .inl ⟨rfl, u, hu2, rfl, rfl⟩⟩
    · show UptoLast x y (P.bind P.next _ _) (P.bind P.next _ _)
      unfold P.bind
      rw [List.cons_append, List.cons_append, Upto.next_eq ht, Upto.next_eq ht]
      dsimp only
      rw [if_neg (by rintro (e | e); exact h2 e; exact h1 e)]
      unfold P.errorGot
      split
      · trivial
      · exact ⟨rfl, .inl ⟨by simpa using h1, u, hu2, rfl, rfl⟩⟩

theorem upto_then {m n : P α} (h : Upto x y m n) {u : List Token} (hu : OneStmt u) : UptoLast x y
    ((do let s ← m; P.expectEndOfStatement; pure s : P α) (u ++ .endOfStatement :: x))
    ((do let s ← n; P.expectEndOfStatement; pure s : P α) (u ++ .endOfStatement :: y)) := by
  have h1 := h u hu
  show UptoLast x y (P.bind m _ _) (P.bind n _ _)
  unfold P.bind
  revert h1
  cases m (u ++ .endOfStatement :: x) <;> cases n (u ++ .endOfStatement :: y) <;> intro h1 <;> first
    | exact h1.elim
    | exact h1
    | trivial
    | exact UptoLast.stuck
    | skip
  obtain ⟨rfl, v, hv, rfl, rfl⟩ := h1
  have h2 := upto_end (x := x) (y := y) hv
  show UptoLast x y (P.bind P.expectEndOfStatement _ _) (P.bind P.expectEndOfStatement _ _)
  unfold P.bind
  revert h2
  cases P.expectEndOfStatement (v ++ .endOfStatement :: x) <;>
    cases P.expectEndOfStatement (v ++ .endOfStatement :: y) <;> intro h2 <;> first
      | exact h2.elim
      | exact h2
      | trivial
      | exact UptoLast.stuck
      | exact ⟨rfl, h2.2⟩

/-- A statement that is not empty. -/
theorem upto_stmtEnd {p q : Parsers} (h : Upto.All x y p q) {env : ParseEnv} {u : List Token}
    (hu : OneStmt u) (hn : u ≠ []) : UptoLast x y (p.stmtEnd env (u ++ .endOfStatement :: x))
      (q.stmtEnd env (u ++ .endOfStatement :: y)) := by
  obtain ⟨t, u, rfl⟩ := List.exists_cons_of_ne_nil hn
  have hu2 : OneStmt u :=
    ⟨fun h => hu.1 (List.mem_cons_of_mem _ h), fun h => hu.2 (List.mem_cons_of_mem _ h)⟩
  have h1 : t ≠ .endOfStatement := fun e => hu.1 (by simp [e])
  have h2 : t ≠ .eof := fun e => hu.2 (by simp [e])
  by_cases ht : t = .error false
  · subst ht
    exact ⟨rfl, .inl ⟨rfl, u, hu2, rfl, rfl⟩⟩
  · have key : Upto x y (P.expectReserved stmtKeywords >>= fun id => p.afterKeyword env id)
        (P.expectReserved stmtKeywords >>= fun id => q.afterKeyword env id) :=
      Upto.bind Upto.expectReserved fun _ => Upto.afterKeyword h
    have e : ∀ (p : Parsers) l, p.stmtEnd env (t :: l) =
        (do
          let s ← P.expectReserved stmtKeywords >>= fun id => p.afterKeyword env id
          P.expectEndOfStatement
          pure s : P (Option Stmt)) (if t = .eof then l else t :: l) := by
      intro p l
      show P.bind (P.bind (P.bind P.next _) _) _ _ = _
      simp only [P.bind, Upto.next_eq ht, if_neg h1]
      rfl
    rw [List.cons_append, List.cons_append, e, e, if_neg h2, if_neg h2]
    exact upto_then key hu

/-- Two calls of `Parse`: the results are the same. After a statement, and after an error at the
semicolon, what is after it is left; otherwise the rest of the statement is to be skipped. -/
def UptoCall (x y : List Token) (a b : Parsed × Bool × List Token) : Prop :=
  a.1 = b.1 ∧
    (a.1 = .panic ∨
      a.2.1 = b.2.1 ∧ ((∃ s, a.1 = .stmt s) ∨ a.1 = .error) ∧
        (a.2.1 = false ∧ a.2.2 = x ∧ b.2.2 = y ∨
          a.1 = .error ∧ a.2.1 = true ∧ LeftUpto x y a.2.2 b.2.2))

theorem upto_recover (env : ParseEnv) {u : List Token} (hu : OneStmt u) (hn : u ≠ [])
    (hx : (parseRecover env (u ++ .endOfStatement :: x)).1 ≠ .stuck)
    (hy : (parseRecover env (u ++ .endOfStatement :: y)).1 ≠ .stuck) :
    UptoCall x y (parseRecover env (u ++ .endOfStatement :: x))
      (parseRecover env (u ++ .endOfStatement :: y)) := by
  have h := upto_stmtEnd (Upto.parsers (x := x) (y := y) env
    ((u ++ .endOfStatement :: x).length + 1) ((u ++ .endOfStatement :: y).length + 1))
    (env := env) hu hn
  revert hx hy
  unfold parseRecover parseStmtEnd
  revert h
  generalize Parsers.stmtEnd env _ (u ++ .endOfStatement :: x) = a
  generalize Parsers.stmtEnd env _ (u ++ .endOfStatement :: y) = b
  cases a <;> cases b <;> intro h hx hy <;> first
    | exact h.elim
    | exact absurd rfl hx
    | exact absurd rfl hy
    | exact ⟨rfl, .inl rfl⟩
    | skip
  · obtain ⟨rfl, h⟩ := h
    exact ⟨rfl, .inr ⟨rfl, .inl ⟨_, rfl⟩, .inl ⟨rfl, h⟩⟩⟩
  · obtain ⟨rfl, ⟨rfl, h⟩ | ⟨rfl, h⟩⟩ := h
    · exact ⟨rfl, .inr ⟨rfl, .inr rfl, .inr ⟨rfl, rfl, h⟩⟩⟩
    · exact ⟨rfl, .inr ⟨rfl, .inr rfl, .inl ⟨rfl, h⟩⟩⟩

/-- A token that is neither an error nor the end of a statement is skipped. -/
theorem skip_other {t : Token} {l : List Token} (h1 : t ≠ .eof) (h2 : t ≠ .error false)
    (h3 : t ≠ .endOfStatement) : skipStatement (t :: l) = skipStatement l := by
  conv => lhs; unfold skipStatement
  split
  · rename_i h; cases h
  · rename_i h; cases h; exact absurd rfl h1
  · rename_i h; cases h; exact absurd rfl h2
  · rename_i h; cases h; exact absurd rfl h3
  · rename_i h; cases h; rfl

/-- Skipping the statement that failed, up to a semicolon or an error. -/
theorem skipStatement_append : ∀ (m u : List Token), Token.eof ∉ m →
    Token.endOfStatement ∉ m →
    (∃ v, ∀ z, skipStatement (m ++ .endOfStatement :: (u ++ z)) = (some true, v ++ z)) ∨
      ∀ z, skipStatement (m ++ .endOfStatement :: (u ++ z)) = (none, u ++ z)
  | [], u, _, _ => .inr fun z => rfl
  | t :: m, u, h1, h2 => by
    by_cases ht : t = .error false
    · subst ht
      exact .inl ⟨m ++ .endOfStatement :: u, fun z => by simp [skipStatement]⟩
    · have e : ∀ l, skipStatement (t :: l) = skipStatement l := fun l =>
        skip_other (fun e => h1 (by simp [e])) ht (fun e => h2 (by simp [e]))
      simp only [List.cons_append, e]
      exact skipStatement_append m u (fun h => h1 (List.mem_cons_of_mem _ h))
        (fun h => h2 (List.mem_cons_of_mem _ h))

end Maho
