import Verif.Lemmas.Literals
/-
The parser does not look into bytes tokens: expressions and queries.
-/
namespace Maho.Lit
open Maho Maho.Spec Maho.P

/-- A method that is known to do the same on tokens with other bytes. -/
syntax "plain" : tactic
macro_rules | `(tactic| plain) => `(tactic| assumption)
macro_rules | `(tactic| plain) => `(tactic| with_reducible exact same_expectIdentifier)
macro_rules | `(tactic| plain) => `(tactic| with_reducible exact same_expectReserved _)
macro_rules | `(tactic| plain) => `(tactic| with_reducible exact same_optionalReservedId _)
macro_rules | `(tactic| plain) => `(tactic| with_reducible exact same_optionalReserved _)
macro_rules | `(tactic| plain) => `(tactic| with_reducible exact same_maybeIdentifier _)
macro_rules | `(tactic| plain) => `(tactic| (with_reducible refine same_maybeToken _ ?_); intro _; rfl)
macro_rules | `(tactic| plain) => `(tactic| (with_reducible refine same_expectTokens _ ?_); exact noBytes_tokens (by decide))
macro_rules | `(tactic| plain) => `(tactic| with_reducible exact same_expectInteger _ _)
macro_rules | `(tactic| plain) => `(tactic| with_reducible exact same_distinctColumns)
macro_rules | `(tactic| plain) => `(tactic| (with_reducible refine same_pure ?_); rfl)
macro_rules | `(tactic| plain) => `(tactic| with_reducible exact same_error)
macro_rules | `(tactic| plain) => `(tactic| with_reducible exact same_crash)
macro_rules | `(tactic| plain) => `(tactic| (with_reducible refine same_closedListEq ?_); plain)
macro_rules | `(tactic| plain) => `(tactic| (with_reducible refine same_separatedListEq ?_); plain)
macro_rules | `(tactic| plain) => `(tactic| (with_reducible refine same_clauseEq _ ?_); plain)
macro_rules | `(tactic| plain) => `(tactic| (with_reducible refine same_ite (fun _ => ?_) (fun _ => ?_)) <;> plain)

/-- Methods that return nothing with bytes. -/
macro "walk" : tactic => `(tactic| repeat' first
  | plain
  | with_reducible refine same_ite (fun _ => ?_) (fun _ => ?_)
  | ((with_reducible refine same_bindEq ?_ (fun _ => ?_)); · plain))

section
variable {f : Bytes → Bytes}

theorem exprsWith_eq : ∀ l, exprsWith f l = l.map (exprWith f)
  | [] => rfl
  | e :: es => by rw [exprsWith, exprsWith_eq es]; rfl

theorem rowsWith_eq : ∀ l, rowsWith f l = l.map (·.map (exprWith f))
  | [] => rfl
  | e :: es => by rw [rowsWith, rowsWith_eq es, exprsWith_eq]; rfl

theorem resultsWith_eq : ∀ l, resultsWith f l = l.map (resultWith f)
  | [] => rfl
  | e :: es => by rw [resultsWith, resultsWith_eq es]; rfl

theorem condWith_eq (e : Option Expr) : condWith f e = e.map (exprWith f) := by
  cases e <;> simp [condWith]

theorem maybeFromWith_eq (e : Option FromItem) : maybeFromWith f e = e.map (fromWith f) := by
  cases e <;> simp [maybeFromWith]

mutual

theorem nodes_with : ∀ e : Expr, (exprWith f e).nodes = e.nodes
  | .lit _ => by simp [exprWith, Expr.nodes]
  | .ref _ _ => by simp [exprWith, Expr.nodes]
  | .call _ args => by simp [exprWith, Expr.nodes, nodesList_with args]
  | .unary _ e => by simp [exprWith, Expr.nodes, nodes_with e]
  | .binary _ l r => by simp [exprWith, Expr.nodes, nodes_with l, nodes_with r]
  | .subquery _ _ _ _ => by simp [exprWith, Expr.nodes]

theorem nodesList_with : ∀ l : List Expr, Expr.nodesList (exprsWith f l) = Expr.nodesList l
  | [] => by simp [exprsWith, Expr.nodesList]
  | e :: es => by simp [exprsWith, Expr.nodesList, nodes_with e, nodesList_with es]

end

theorem mapM_with {g : Expr → Option Expr}
    (h : ∀ e, g (exprWith f e) = (g e).map (exprWith f)) : ∀ l : List Expr,
    (l.map (exprWith f)).mapM g = (l.mapM g).map (·.map (exprWith f))
  | [] => rfl
  | e :: es => by
    rw [List.map_cons, List.mapM_cons, List.mapM_cons, h, mapM_with h es]
    cases g e with
    | none => rfl
    | some a => cases es.mapM g <;> rfl

theorem adjust_with : ∀ (n : Nat) (e : Expr),
    adjustPrecedence n (exprWith f e) = (adjustPrecedence n e).map (exprWith f)
  | 0, _ => by simp [adjustPrecedence]
  | n + 1, .lit _ => by simp [exprWith, adjustPrecedence]
  | n + 1, .ref _ _ => by simp [exprWith, adjustPrecedence]
  | n + 1, .subquery _ _ _ _ => by simp [exprWith, adjustPrecedence]
  | n + 1, .call _ args => by
    rw [exprWith, adjustPrecedence, adjustPrecedence, exprsWith_eq, mapM_with (adjust_with n)]
    cases args.mapM (adjustPrecedence n) <;> simp [exprWith, exprsWith_eq]
  | n + 1, .unary op e => by
    rw [exprWith, adjustPrecedence, adjustPrecedence, adjust_with n e]
    cases adjustPrecedence n e with
    | none => rfl
    | some a =>
      dsimp only [Option.map_some]
      by_cases hop : op = .noOp
      · rw [if_pos hop, if_pos hop]; simp [exprWith]
      · rw [if_neg hop, if_neg hop]
        cases a with
        | binary bop l r =>
          dsimp only [exprWith]
          by_cases h : opPrecedence bop < opPrecedence op
          · rw [if_pos h, if_pos h, ← adjust_with n]; simp [exprWith]
          · rw [if_neg h, if_neg h]; simp [exprWith]
        | _ => simp [exprWith]
  | n + 1, .binary op l r => by
    rw [exprWith, adjustPrecedence, adjustPrecedence, adjust_with n l, adjust_with n r]
    cases adjustPrecedence n l with
    | none => rfl
    | some l =>
      cases adjustPrecedence n r with
      | none => rfl
      | some r =>
        dsimp only [Option.map_some]
        have left : ∀ r' : Expr, (match exprWith f l with
          | .binary cop cl cr =>
            if opPrecedence cop < opPrecedence op then
              adjustPrecedence n (.binary cop cl (.binary op cr (exprWith f r')))
            else some (.binary op (exprWith f l) (exprWith f r'))
          | _ => some (.binary op (exprWith f l) (exprWith f r'))) =
          (match l with
          | .binary cop cl cr =>
            if opPrecedence cop < opPrecedence op then
              adjustPrecedence n (.binary cop cl (.binary op cr r'))
            else some (.binary op l r')
          | _ => some (.binary op l r')).map (exprWith f) := by
          intro r'
          cases l with
          | binary cop cl cr =>
            dsimp only [exprWith]
            by_cases h : opPrecedence cop < opPrecedence op
            · rw [if_pos h, if_pos h, ← adjust_with n]; simp [exprWith]
            · rw [if_neg h, if_neg h]; simp [exprWith]
          | _ => simp [exprWith]
        cases r with
        | binary bop bl br =>
          have := left (.binary bop bl br)
          simp only [exprWith] at this ⊢
          by_cases h : opPrecedence bop ≤ opPrecedence op
          · rw [if_pos h, if_pos h, ← adjust_with n]; simp [exprWith]
          · rw [if_neg h, if_neg h]; exact this
        | lit v => have := left (.lit v); simp only [exprWith] at this ⊢; exact this
        | ref v w => have := left (.ref v w); simp only [exprWith] at this ⊢; exact this
        | call v w => have := left (.call v w); simp only [exprWith] at this ⊢; exact this
        | unary v w => have := left (.unary v w); simp only [exprWith] at this ⊢; exact this
        | subquery a b c d =>
          have := left (.subquery a b c d); simp only [exprWith] at this ⊢; exact this

theorem same_adjust (e : Expr) : Same f (By (exprWith f)) (adjust (exprWith f e)) (adjust e) := by
  intro ts
  unfold adjust
  rw [nodes_with, adjust_with]
  cases adjustPrecedence (3 * e.nodes + 1) e with
  | none => trivial
  | some e => exact ⟨rfl, rfl⟩

theorem binaryOps_with (t : Token) : binaryOps.lookup (tokenWith f t) = binaryOps.lookup t := by
  cases t with
  | bytes b => rfl
  | _ => rfl

theorem same_optionalBinaryOp : Same f Eq optionalBinaryOp optionalBinaryOp := by
  refine same_bindBy same_next fun t => ?_
  rw [binaryOps_with]
  cases binaryOps.lookup t with
  | some op => exact same_pure rfl
  | none =>
    exact same_token (fun _ => rfl) (fun _ => same_pure rfl) fun _ =>
      same_token (fun _ => rfl) (fun _ => same_pure rfl) fun _ =>
        same_bindEq (same_unscan t) fun _ => same_pure rfl
macro_rules | `(tactic| plain) => `(tactic| with_reducible exact same_optionalBinaryOp)

theorem same_parseSchemaName : Same f Eq parseSchemaName parseSchemaName := by
  unfold parseSchemaName
  walk
macro_rules | `(tactic| plain) => `(tactic| with_reducible exact same_parseSchemaName)

theorem same_parseTableName : Same f Eq parseTableName parseTableName := by
  unfold parseTableName
  walk
macro_rules | `(tactic| plain) => `(tactic| with_reducible exact same_parseTableName)

theorem same_parseAlias (required : Bool) : Same f Eq (parseAlias required) (parseAlias required) := by
  unfold parseAlias
  refine same_bindEq (by plain) fun as => same_ite (fun _ => by plain) fun _ => ?_
  refine same_bindBy same_next fun t => ?_
  cases t with
  | identifier id => exact same_pure rfl
  | bytes b =>
    exact same_ite (fun _ => same_errorAt (.bytes b))
      (fun _ => same_bindEq (same_unscan (.bytes b)) fun _ => same_pure rfl)
  | _ =>
    exact same_ite (fun _ => same_errorAt _)
      (fun _ => same_bindEq (same_unscan _) fun _ => same_pure rfl)
macro_rules | `(tactic| plain) => `(tactic| with_reducible exact same_parseAlias _)

theorem same_parseTableAlias :
    Same f (By (fromWith f)) parseTableAlias parseTableAlias := by
  unfold parseTableAlias
  walk <;> exact same_pure (by simp [By, fromWith])

theorem same_parseColumnAliases : Same f Eq parseColumnAliases parseColumnAliases := by
  unfold parseColumnAliases
  walk
macro_rules | `(tactic| plain) => `(tactic| with_reducible exact same_parseColumnAliases)

/-- The methods that call each other do not look into bytes tokens. -/
structure Blind (f : Bytes → Bytes) (p : Parsers) : Prop where
  subExpr : Same f (By (exprWith f)) p.subExpr p.subExpr
  query : Same f (By (Option.map (queryWith f))) p.query p.query
  fromItem : Same f (By (fromWith f)) p.fromItem p.fromItem

variable {p : Parsers}

theorem same_expr (h : Blind f p) : Same f (By (exprWith f)) p.expr p.expr :=
  same_bindBy h.subExpr fun e => same_adjust e

theorem same_subquery (h : Blind f p) : Same f (By (queryWith f)) p.subquery p.subquery := by
  unfold Parsers.subquery
  refine same_bindEq (by plain) fun _ => same_bindBy h.query fun q => ?_
  cases q with
  | none => exact same_error
  | some q => exact same_bindEq (by plain) fun _ => same_pure rfl

theorem same_call (h : Blind f p) (id : Identifier) :
    Same f (By (exprWith f)) (p.call id) (p.call id) := by
  unfold Parsers.call
  refine same_bindEq (by plain) fun paren => same_ite (fun _ => ?_) (fun _ => ?_)
  · refine same_bindEq (by plain) fun empty => same_ite (fun _ => ?_) (fun _ => ?_)
    · exact same_pure (by simp [By, exprWith, exprsWith])
    · refine same_joinEq ?_ fun star => ?_
      · plain
      refine same_ite (fun _ => ?_) (fun _ => ?_)
      · exact same_bindEq (by plain) fun _ => same_pure (by simp [By, exprWith, exprsWith])
      · exact same_bindBy (same_closedList h.subExpr) fun args =>
          same_pure (by simp [By, exprWith, exprsWith_eq])
  · refine same_bindEq (same_loop rfl fun s' s hs => ?_) fun ids =>
      same_pure (by simp [By, exprWith])
    cases hs
    exact same_bindEq (by plain) fun dot => same_ite
      (fun _ => same_bindEq (by plain) fun _ => same_pure ⟨rfl, rfl⟩)
      (fun _ => same_pure ⟨rfl, rfl⟩)

theorem same_operand (h : Blind f p) : Same f (By (exprWith f)) p.operand p.operand := by
  unfold Parsers.operand
  refine same_bindBy same_next fun t => ?_
  have other : ∀ t : Token, Same f (By (exprWith f))
      (if tokenWith f t = Tok.minus then do
        let e ← p.subExpr
        pure (.unary .negate e)
      else if tokenWith f t = Tok.lparen then do
        let q ← p.query
        match q with
        | some q => do
          let _ ← expectTokens [Tok.rparen]
          pure (.subquery .scalar .add none q)
        | none => do
          let e ← p.subExpr
          let _ ← expectTokens [Tok.rparen]
          pure (.unary .noOp e)
      else errorGot (tokenWith f t))
      (if t = Tok.minus then do
        let e ← p.subExpr
        pure (.unary .negate e)
      else if t = Tok.lparen then do
        let q ← p.query
        match q with
        | some q => do
          let _ ← expectTokens [Tok.rparen]
          pure (.subquery .scalar .add none q)
        | none => do
          let e ← p.subExpr
          let _ ← expectTokens [Tok.rparen]
          pure (.unary .noOp e)
      else errorGot t) := by
    intro t
    refine same_token (fun _ => rfl) (fun _ => ?_) fun _ =>
      same_token (fun _ => rfl) (fun _ => ?_) fun _ => same_errorGot t
    · exact same_bindBy h.subExpr fun e => same_pure (by simp [By, exprWith])
    · refine same_bindBy h.query fun q => ?_
      cases q with
      | some q => exact same_bindEq (by plain) fun _ => same_pure (by simp [By, exprWith, condWith])
      | none =>
        exact same_bindBy h.subExpr fun e => same_bindEq (by plain) fun _ =>
          same_pure (by simp [By, exprWith])
  cases t with
  | reserved id =>
    refine same_ite (fun _ => same_pure rfl) fun _ => same_ite (fun _ => same_pure rfl) fun _ =>
      same_ite (fun _ => same_pure rfl) fun _ => same_ite (fun _ => ?_) fun _ =>
      same_ite (fun _ => ?_) fun _ => same_error
    · exact same_bindBy h.subExpr fun e => same_pure (by simp [By, exprWith])
    · exact same_bindBy (same_subquery h) fun q => same_pure (by simp [By, exprWith, condWith])
  | string s => exact same_pure rfl
  | bytes b => exact same_pure rfl
  | integer i => exact same_pure rfl
  | float v => exact same_pure rfl
  | identifier id => exact same_call h id
  | eof => exact other .eof
  | endOfStatement => exact other .endOfStatement
  | error b => exact other (.error b)
  | parameter i => exact other (.parameter i)
  | barBar => exact other .barBar
  | lessLess => exact other .lessLess
  | lessEqual => exact other .lessEqual
  | lessGreater => exact other .lessGreater
  | greaterGreater => exact other .greaterGreater
  | greaterEqual => exact other .greaterEqual
  | equalEqual => exact other .equalEqual
  | bangEqual => exact other .bangEqual
  | rune r => exact other (.rune r)

theorem same_operator (env : ParseEnv) (h : Blind f p) (e : Expr) :
    Same f (By (exprWith f)) (p.operator env (exprWith f e)) (p.operator env e) := by
  unfold Parsers.operator
  refine same_bindEq (by plain) fun op => ?_
  cases op with
  | none =>
    refine same_bindEq (by plain) fun id => ?_
    cases id with
    | none => exact same_pure rfl
    | some id =>
      refine same_ite (fun _ => ?_) fun _ => same_ite (fun _ => ?_) fun _ => ?_
      · exact same_bindBy (same_subquery h) fun q => same_pure (by simp [By, exprWith, condWith])
      · refine same_bindEq (by plain) fun in_ => same_ite (fun _ => ?_) (fun _ => ?_)
        · exact same_bindBy (same_subquery h) fun q => same_pure (by simp [By, exprWith, condWith])
        · exact same_bindEq (same_unscan (.reserved Kw.NOT)) fun _ => same_pure rfl
      · refine same_bindEq (by plain) fun not => same_bindEq (by plain) fun _ => same_pure ?_
        cases not <;> simp [By, exprWith, exprsWith]
  | some op =>
    obtain ⟨op, bool⟩ := op
    refine same_bindEq (by plain) fun id => ?_
    cases id with
    | some id =>
      exact same_ite (fun _ => same_bindBy (same_subquery h) fun q =>
        same_pure (by simp [By, exprWith, condWith])) (fun _ => same_error)
    | none => exact same_bindBy h.subExpr fun r => same_pure (by simp [By, exprWith])

theorem same_stepSubExpr (env : ParseEnv) (h : Blind f p) :
    Same f (By (exprWith f)) (p.stepSubExpr env) (p.stepSubExpr env) :=
  same_bindBy (same_operand h) fun e => same_operator env h e

theorem same_values (h : Blind f p) : Same f (By (queryWith f)) p.values p.values := by
  unfold Parsers.values
  refine same_bindBy (g := List.map (List.map (exprWith f)))
    (same_separated rfl fun s' s hs => ?_) fun rows =>
    same_pure (by simp [By, queryWith, rowsWith_eq])
  cases hs
  refine same_bindEq (by plain) fun _ => same_bindBy (same_closedList (same_expr h)) fun row => ?_
  cases s with
  | nil => exact same_pure rfl
  | cons row0 rows =>
    simp only [List.map_cons, List.length_map]
    exact same_ite (fun _ => same_error) (fun _ => same_pure (by simp [By]))

theorem same_fromList (h : Blind f p) : Same f (By (fromWith f)) p.fromList p.fromList := by
  unfold Parsers.fromList
  refine same_bindBy h.fromItem fun fi => same_loop rfl fun s' s hs => ?_
  cases hs
  exact same_bindEq (by plain) fun comma => same_ite
    (fun _ => same_bindBy h.fromItem fun r => same_pure ⟨by simp [By, fromWith, condWith], rfl⟩)
    (fun _ => same_pure ⟨rfl, rfl⟩)

theorem same_result (h : Blind f p) : Same f (By (resultWith f)) p.result p.result := by
  unfold Parsers.result
  refine same_bindBy same_next fun t => ?_
  have rest : Same f (By (resultWith f))
      (do let e ← p.expr; let alias ← parseAlias false; pure (SelectResult.expr e alias))
      (do let e ← p.expr; let alias ← parseAlias false; pure (SelectResult.expr e alias)) :=
    same_bindBy (same_expr h) fun e => same_bindEq (by plain) fun alias =>
      same_pure (by simp [By, resultWith])
  cases t with
  | identifier tbl =>
    refine same_bindEq (by plain) fun dot => same_ite (fun _ => ?_) (fun _ => ?_)
    · refine same_bindEq (by plain) fun star => same_ite (fun _ => ?_) (fun _ => ?_)
      · exact same_pure (by simp [By, resultWith])
      · exact same_bindEq (same_unscan Tok.dot) fun _ =>
          same_bindEq (same_unscan (.identifier tbl)) fun _ => rest
    · exact same_bindEq (same_unscan (.identifier tbl)) fun _ => rest
  | bytes b => exact same_bindEq (same_unscan (.bytes b)) fun _ => rest
  | _ => exact same_bindEq (same_unscan _) fun _ => rest

theorem same_parseOrderBy : Same f Eq parseOrderBy parseOrderBy := by
  unfold parseOrderBy
  walk
macro_rules | `(tactic| plain) => `(tactic| with_reducible exact same_parseOrderBy)

theorem same_select (h : Blind f p) : Same f (By (queryWith f)) p.select p.select := by
  unfold Parsers.select
  refine same_bindEq (by plain) fun star => ?_
  refine same_joinBy (g := List.map (resultWith f)) ?_ fun results => ?_
  · exact same_ite (fun _ => same_pure rfl) fun _ => same_separatedList (same_result h)
  refine same_bindBy (same_clause _ (same_fromList h)) fun fromItem => ?_
  refine same_bindBy (same_clause _ (same_expr h)) fun cond => ?_
  refine same_bindBy (same_clause _ (same_bindEq (by plain) fun _ =>
    same_separatedList (same_expr h))) fun groupBy => ?_
  refine same_bindBy (same_clause _ (same_expr h)) fun having => ?_
  refine same_bindEq (same_clauseEq _ (same_bindEq (by plain) fun _ => by plain)) fun orderBy => ?_
  refine same_pure ?_
  cases groupBy <;>
    simp [By, queryWith, resultsWith_eq, maybeFromWith_eq, condWith_eq, exprsWith_eq]

theorem same_showFromTable (env : ParseEnv) (table : Identifier) :
    Same f (By (queryWith f)) (showFromTable env table) (showFromTable env table) := by
  unfold showFromTable
  refine same_bindEq (by plain) fun _ => same_bindEq (by plain) fun tn => same_pure ?_
  by_cases h : tn.schema = 0 <;>
    simp [By, h, selectFrom, queryWith, resultsWith, exprsWith, condWith, maybeFromWith, fromWith,
      exprWith, ParseEnv.name, schemaTest, valueWith]

theorem same_showVariable (env : ParseEnv) (id : Identifier) :
    Same f (By (queryWith f)) (showVariable env id) (showVariable env id) := by
  unfold showVariable
  refine same_ite (fun _ => same_showFromTable env _) fun _ => same_ite (fun _ => ?_) fun _ =>
    same_ite (fun _ => same_showFromTable env _) fun _ => same_ite (fun _ => ?_) fun _ =>
    same_ite (fun _ => ?_) fun _ => same_ite (fun _ => ?_) fun _ => ?_
  · exact same_pure (by simp [By, queryWith, resultsWith, resultWith, exprsWith,
      condWith, maybeFromWith, fromWith, exprWith, ParseEnv.name, valueWith])
  · exact same_pure (by simp [By, selectFrom, queryWith, resultsWith, exprsWith, condWith,
      maybeFromWith, fromWith])
  · exact same_bindEq (by plain) fun db => same_pure (by simp [By, selectFrom, queryWith,
      resultsWith, exprsWith, condWith, maybeFromWith, fromWith])
  · refine same_bindEq (by plain) fun sn => ?_
    cases sn <;> exact same_pure (by simp [By, selectFrom, queryWith, resultsWith, exprsWith,
      condWith, maybeFromWith, fromWith, exprWith, ParseEnv.name, valueWith])
  · exact same_pure (by simp [By, queryWith])

theorem same_parseShow (env : ParseEnv) :
    Same f (By (queryWith f)) (parseShow env) (parseShow env) := by
  unfold parseShow
  refine same_bindBy same_next fun t => ?_
  cases t with
  | reserved id => exact same_showVariable env id
  | identifier id => exact same_showVariable env id
  | bytes b => exact same_errorAt (.bytes b)
  | _ => exact same_errorAt _

theorem same_stepQuery (env : ParseEnv) (h : Blind f p) :
    Same f (By (Option.map (queryWith f))) (p.stepQuery env) (p.stepQuery env) := by
  unfold Parsers.stepQuery
  refine same_bindEq (by plain) fun _ => same_ite
    (fun _ => same_bindBy (same_select h) fun q => same_pure rfl) fun _ => ?_
  refine same_bindEq (by plain) fun _ => same_ite
    (fun _ => same_bindBy (same_values h) fun q => same_pure rfl) fun _ => ?_
  refine same_bindEq (by plain) fun _ => same_ite
    (fun _ => same_bindBy (same_parseShow env) fun q => same_pure rfl) fun _ => ?_
  refine same_bindEq (by plain) fun _ => same_ite
    (fun _ => same_bindEq (by plain) fun tn => same_pure ?_) fun _ => same_pure rfl
  simp [By, selectFrom, queryWith, resultsWith, exprsWith, condWith, maybeFromWith, fromWith]

theorem same_parseFromStmt (q : Query) :
    Same f (By (fromWith f)) (parseFromStmt (queryWith f q)) (parseFromStmt q) := by
  unfold parseFromStmt
  exact same_bindEq (by plain) fun _ => same_bindEq (by plain) fun _ => same_bindEq (by plain)
    fun _ => same_pure (by simp [By, fromWith])

theorem same_parseJoinType : Same f Eq parseJoinType parseJoinType := by
  unfold parseJoinType
  refine same_bindEq (by plain) fun id => ?_
  cases id with
  | none => exact same_pure rfl
  | some id => dsimp only; walk
macro_rules | `(tactic| plain) => `(tactic| with_reducible exact same_parseJoinType)

theorem same_joinCondition (h : Blind f p) :
    Same f (By fun x => (x.1.map (exprWith f), x.2)) p.joinCondition p.joinCondition := by
  unfold Parsers.joinCondition
  refine same_bindBy (same_clause _ (same_expr h)) fun on => ?_
  cases on with
  | some e => exact same_pure rfl
  | none =>
    exact same_bindEq (same_clauseEq _ (same_bindEq (by plain) fun _ => by plain)) fun cols =>
      same_pure rfl

theorem same_stepFromItem (h : Blind f p) :
    Same f (By (fromWith f)) p.stepFromItem p.stepFromItem := by
  unfold Parsers.stepFromItem
  refine same_bindEq (by plain) fun paren => ?_
  refine same_joinBy (g := fromWith f) ?_ fun fi => ?_
  · refine same_ite (fun _ => ?_) fun _ => same_parseTableAlias
    refine same_bindBy h.query fun q => ?_
    cases q with
    | some q => exact same_parseFromStmt q
    | none => exact same_bindBy (same_fromList h) fun fi => same_bindEq (by plain) fun _ =>
        same_pure rfl
  · refine same_bindEq (by plain) fun jt => ?_
    cases jt with
    | none => exact same_pure rfl
    | some jt =>
      refine same_bindBy h.fromItem fun r => same_bindBy (same_joinCondition h) fun c => ?_
      obtain ⟨on, cols⟩ := c
      simp only [Option.isSome_map, Option.isNone_map]
      exact same_ite
        (fun _ => same_ite (fun _ => same_error) (fun _ =>
          same_pure (by simp [By, fromWith, condWith_eq])))
        (fun _ => same_ite (fun _ => same_error) (fun _ =>
          same_pure (by simp [By, fromWith, condWith_eq])))

theorem blind (env : ParseEnv) : ∀ n, Blind f (parsers env n)
  | 0 => ⟨same_stuck, same_stuck, same_stuck⟩
  | n + 1 => ⟨same_stepSubExpr env (blind env n), same_stepQuery env (blind env n),
      same_stepFromItem (blind env n)⟩

end
end Maho.Lit
