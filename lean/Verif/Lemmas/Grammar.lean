import Verif.Spec.Statement
import Verif.Lemmas.Nest
import Verif.Lemmas.Steps
/-
Helper lemmas for C61 to C63: the parser reads what the grammar of Spec/Grammar.lean describes.
-/
namespace Maho
open P Maho.Spec

/-- What can follow an operand. -/
def operandEnd : Token → Bool
  | .error _ => false
  | .eof => false
  | .rune r => r != 40 && r != 46
  | _ => true

/-- What can follow an expression. -/
def exprEnd : Token → Bool
  | .endOfStatement => true
  | .identifier _ => true
  | .reserved id => id ∉ [Kw.AND, Kw.OR, Kw.IN, Kw.NOT, Kw.IS, Kw.ANY, Kw.SOME, Kw.ALL]
  | .rune r => r == 44 || r == 41
  | _ => false

/-- What an expression can start with. -/
def exprStart : Token → Bool
  | .reserved id => id ∈ [Kw.TRUE, Kw.FALSE, Kw.NULL, Kw.NOT, Kw.EXISTS]
  | .string _ => true
  | .bytes _ => true
  | .integer _ => true
  | .float _ => true
  | .identifier _ => true
  | .rune r => r == 45 || r == 40
  | _ => false

/-- What can follow a query. -/
def queryEnd : Token → Bool
  | .endOfStatement => true
  | .rune r => r == 41
  | _ => false

theorem operandEnd_exprEnd {t : Token} (h : exprEnd t = true) : operandEnd t = true := by
  cases t <;> simp_all [operandEnd, exprEnd]
  omega

theorem operandEnd_infix {t : Token} {op : SqlOp} (h : (t, op) ∈ infixTokens) :
    operandEnd t = true := by
  have : ∀ p ∈ infixTokens, operandEnd p.1 = true := by decide
  exact this _ h

theorem infix_ne {t : Token} {op : SqlOp} (h : (t, op) ∈ infixTokens) : t ≠ .error false := by
  have : ∀ p ∈ infixTokens, p.1 ≠ .error false := by decide
  exact this _ h

theorem infix_isInfix {t : Token} {op : SqlOp} (h : (t, op) ∈ infixTokens) : IsInfix op := by
  have : ∀ p ∈ infixTokens, p.2 ≠ .not ∧ p.2 ≠ .negate ∧ p.2 ≠ .noOp := by decide
  exact this _ h

theorem fair_exprEnd : IsFair exprEnd := ⟨rfl, rfl⟩
theorem fair_exprStart : IsFair exprStart := ⟨rfl, rfl⟩
theorem fair_operandEnd : IsFair operandEnd := ⟨rfl, rfl⟩
theorem fair_queryEnd : IsFair queryEnd := ⟨rfl, rfl⟩

section

variable {words : Words} {e : Expr} {its : List Part} {ts rest : List Token}

theorem operand_isOperand (h : Operand words e ts) : IsOperand e := by
  cases h <;> first | trivial | rfl

theorem operand_start (h : Operand words e ts) : ∃ t us, ts = t :: us ∧ exprStart t = true := by
  cases h <;> exact ⟨_, _, rfl, by first | rfl | decide⟩

theorem operand_ends (h : Operand words e ts) : Ends exprStart (ts ++ rest) := by
  obtain ⟨t, us, rfl, ht⟩ := operand_start h
  exact .cons ht

theorem pieces_start : PiecesText words its ts → ∃ t us, ts = t :: us ∧ exprStart t = true
  | .one h => operand_start h
  | .pre (t := t) (ts := us) h _ => ⟨t, us, rfl, by
      have : ∀ p ∈ prefixTokens, exprStart p.1 = true := by decide
      exact this _ h⟩
  | .infix h _ _ => by
      obtain ⟨t, us, rfl, ht⟩ := operand_start h
      exact ⟨_, _, rfl, ht⟩
  | .isNull h => by
      obtain ⟨t, us, rfl, ht⟩ := operand_start h
      exact ⟨_, _, rfl, ht⟩
  | .isNotNull h => by
      obtain ⟨t, us, rfl, ht⟩ := operand_start h
      exact ⟨_, _, rfl, ht⟩
  | .inQuery h _ _ => by
      obtain ⟨t, us, rfl, ht⟩ := operand_start h
      exact ⟨_, _, rfl, ht⟩
  | .notIn h _ _ => by
      obtain ⟨t, us, rfl, ht⟩ := operand_start h
      exact ⟨_, _, rfl, ht⟩
  | .any h _ _ _ _ _ => by
      obtain ⟨t, us, rfl, ht⟩ := operand_start h
      exact ⟨_, _, rfl, ht⟩
  | .all h _ _ _ _ => by
      obtain ⟨t, us, rfl, ht⟩ := operand_start h
      exact ⟨_, _, rfl, ht⟩

theorem written_start (h : Written words e ts) : ∃ t us, ts = t :: us ∧ exprStart t = true := by
  cases h with
  | mk _ h => exact pieces_start h

theorem written_ends (h : Written words e ts) : Ends exprStart (ts ++ rest) := by
  obtain ⟨t, us, rfl, ht⟩ := written_start h
  exact .cons ht

theorem separated_start {es : List Expr} (h : Separated (Written words) es ts) :
    ∃ t us, ts = t :: us ∧ exprStart t = true := by
  cases h with
  | one h => exact written_start h
  | cons h _ =>
    obtain ⟨t, us, rfl, ht⟩ := written_start h
    exact ⟨t, _, rfl, ht⟩

theorem separated_ends {es : List Expr} (h : Separated (Written words) es ts) :
    Ends exprStart (ts ++ rest) := by
  obtain ⟨t, us, rfl, ht⟩ := separated_start h
  exact .cons ht

theorem prefix_isPrefix {t : Token} {p : SqlOp} (h : (t, p) ∈ prefixTokens) : IsPrefix p := by
  have : ∀ q ∈ prefixTokens, q.2 = .not ∨ q.2 = .negate := by decide
  exact this _ h

/-- The pieces can follow each other. -/
theorem pieces_sequence {its : List Part} {ts : List Token} :
    PiecesText words its ts → Sequence its
  | .one h => .one (operand_isOperand h)
  | .pre h h1 => .pre (prefix_isPrefix h) (pieces_sequence h1)
  | .infix h h1 h2 => .infix (operand_isOperand h) (infix_isInfix h1) (pieces_sequence h2)
  | .isNull _ => .one trivial
  | .isNotNull _ => .pre (Or.inl rfl) (.one trivial)
  | .inQuery _ _ _ => .one trivial
  | .notIn _ _ _ => .one trivial
  | .any _ _ _ _ _ _ => .one trivial
  | .all _ _ _ _ _ => .one trivial

end

/-! ### Expressions -/

/-- `u` is what `parseSubExpr` makes of an expression `e`. -/
def Raw (u e : Expr) : Prop := Adjusts u e ∧ (Settled e → u = e)

/-- What can follow an expression: also the `NOT NULL` of a column. -/
def ExprEnds (rest : List Token) : Prop :=
  Ends exprEnd rest ∨ ∃ r, rest = .reserved Kw.NOT :: .reserved Kw.NULL :: r

theorem ExprEnds.operand {rest : List Token} (h : ExprEnds rest) : Ends operandEnd rest := by
  rcases h with h | ⟨r, rfl⟩
  · exact h.mono fun t => operandEnd_exprEnd
  · exact .cons rfl

def SubOk (env : ParseEnv) (n : Nat) : Prop :=
  ∀ its ts, PiecesText env.words its ts → ts.length < n → ∀ rest, ExprEnds rest →
    ∃ u, (parsers env n).subExpr (ts ++ rest) = .ok u rest ∧ Adjusts u (build its) ∧
      ∀ e, pieces e = its → Settled e → u = e

def QueryOk (env : ParseEnv) (n : Nat) : Prop :=
  ∀ q ts, QueryText env.words q ts → ts.length < n → ∀ rest, Ends queryEnd rest →
    (parsers env n).query (ts ++ rest) = .ok (some q) rest

section

variable {env : ParseEnv} {n : Nat}

theorem SubOk.written_ends (h : SubOk env n) {e : Expr} {ts rest : List Token}
    (hw : Written env.words e ts) (hn : ts.length < n) (hr : ExprEnds rest) :
    ∃ u, (parsers env n).subExpr (ts ++ rest) = .ok u rest ∧ Raw u e := by
  cases hw with
  | mk h1 h2 =>
    obtain ⟨u, g1, g2, g3⟩ := h _ _ h2 hn rest hr
    rw [build_pieces e h1] at g2
    exact ⟨u, g1, g2, g3 e rfl⟩

theorem SubOk.written (h : SubOk env n) {e : Expr} {ts rest : List Token}
    (hw : Written env.words e ts) (hn : ts.length < n) (hr : Ends exprEnd rest) :
    ∃ u, (parsers env n).subExpr (ts ++ rest) = .ok u rest ∧ Raw u e :=
  h.written_ends hw hn (Or.inl hr)

theorem SubOk.expr_ends (h : SubOk env n) {e : Expr} {ts rest : List Token}
    (hw : Written env.words e ts) (hn : ts.length < n) (hr : ExprEnds rest) :
    (parsers env n).expr (ts ++ rest) = .ok e rest := by
  obtain ⟨u, g1, g2⟩ := h.written_ends hw hn hr
  unfold Parsers.expr
  rw [bind_ok g1]
  exact g2.1.adjust_eq rest

theorem SubOk.expr (h : SubOk env n) {e : Expr} {ts rest : List Token}
    (hw : Written env.words e ts) (hn : ts.length < n) (hr : Ends exprEnd rest) :
    (parsers env n).expr (ts ++ rest) = .ok e rest := h.expr_ends hw hn (Or.inl hr)

theorem dots_loop {rest : List Token} (hr : Ends operandEnd rest) : ∀ (ids acc : List Identifier)
    (k : Nat), (ids.flatMap fun i => [Tok.dot, Token.identifier i]).length < k →
    loopFuel (fun ids => do
      let dot ← maybeToken Tok.dot
      if dot then do
        let id ← expectIdentifier
        pure (ids ++ [id], true)
      else pure (ids, false)) k acc
      ((ids.flatMap fun i => [Tok.dot, Token.identifier i]) ++ rest) = .ok (acc ++ ids) rest
  | [], acc, k, hk => by
    obtain ⟨j, rfl⟩ : ∃ j, k = j + 1 := ⟨k - 1, by omega⟩
    unfold loopFuel
    have hs : (do
        let dot ← maybeToken Tok.dot
        if dot then do
          let id ← expectIdentifier
          pure (acc ++ [id], true)
        else pure (acc, false) : P (List Identifier × Bool)) rest = .ok (acc, false) rest := by
      rw [bind_ok (maybeToken_miss hr fair_operandEnd rfl (by simp))]
      rfl
    rw [List.flatMap_nil, List.nil_append, bind_ok hs, List.append_nil]
    rfl
  | id :: ids, acc, k, hk => by
    obtain ⟨j, rfl⟩ : ∃ j, k = j + 1 := ⟨k - 1, by omega⟩
    simp only [List.flatMap_cons, List.length_append, List.length_cons, List.length_nil] at hk
    have ih := dots_loop hr ids (acc ++ [id]) j (by omega)
    unfold loopFuel
    have hs : (do
        let dot ← maybeToken Tok.dot
        if dot then do
          let id ← expectIdentifier
          pure (acc ++ [id], true)
        else pure (acc, false) : P (List Identifier × Bool))
          (Tok.dot :: .identifier id :: ((ids.flatMap fun i => [Tok.dot, Token.identifier i]) ++ rest))
          = .ok (acc ++ [id], true) ((ids.flatMap fun i => [Tok.dot, Token.identifier i]) ++ rest) := by
      rw [bind_ok (maybeToken_hit (by simp)), if_pos rfl, bind_ok expectIdentifier_hit]
      rfl
    rw [List.flatMap_cons, List.append_assoc]
    simp only [List.cons_append, List.nil_append]
    rw [bind_ok hs]
    simp only [if_true]
    rw [ih]
    simp

theorem call_ref (p : Parsers) (id : Identifier) (ids : List Identifier) {rest : List Token}
    (hr : Ends operandEnd rest) :
    p.call id ((ids.flatMap fun i => [Tok.dot, Token.identifier i]) ++ rest) =
      .ok (.ref id ids) rest := by
  unfold Parsers.call
  have he : Ends (fun t => t != .rune 40 && t != .error false && t != .eof)
      ((ids.flatMap fun i => [Tok.dot, Token.identifier i]) ++ rest) := by
    cases ids with
    | nil =>
      refine hr.mono fun t ht => ?_
      cases t <;> simp_all [operandEnd]
    | cons i ids => exact .cons rfl
  rw [bind_ok (maybeToken_miss he ⟨rfl, rfl⟩ rfl (by simp)), if_neg (by simp)]
  have hl := dots_loop hr ids []
    (((ids.flatMap fun i => [Tok.dot, Token.identifier i]) ++ rest).length + 1)
    (by rw [List.length_append]; omega)
  rw [bind_ok (show loop _ _ _ = _ from hl)]
  rfl

theorem call_empty (p : Parsers) (id : Identifier) {rest : List Token} :
    p.call id (inParens [] ++ rest) = .ok (.call id []) rest := by
  unfold Parsers.call inParens
  simp only [List.nil_append, List.cons_append]
  rw [bind_ok (maybeToken_hit (by simp)), if_pos rfl, bind_ok (maybeToken_hit (by simp))]
  rfl

theorem call_countAll (p : Parsers) {rest : List Token} :
    p.call Kw.COUNT (inParens [Tok.star] ++ rest) = .ok (.call Kw.COUNT_ALL []) rest := rfl

theorem raw_list {us es : List Expr} (h : Pairwise2 Raw us es) :
    (∀ m, 3 * Expr.nodesList us ≤ m → us.mapM (adjustPrecedence m) = some es) ∧
      (SettledList es → us = es) := by
  induction h with
  | nil => exact ⟨fun _ _ => by simp, fun _ => rfl⟩
  | cons h _ ih =>
    refine ⟨fun m hm => ?_, fun hs => ?_⟩
    · simp only [Expr.nodesList] at hm
      simp [List.mapM_cons, h.1.1 m (by omega), ih.1 m (by omega)]
    · simp only [SettledList] at hs
      rw [h.2 hs.1, ih.2 hs.2]

theorem call_args (hS : SubOk env n) (id : Identifier) {es : List Expr} {ts rest : List Token}
    (h : Separated (Written env.words) es ts) (hn : ts.length < n) :
    ∃ us, (parsers env n).call id (inParens ts ++ rest) = .ok (.call id us) rest ∧
      Pairwise2 Raw us es := by
  have he : Ends exprStart (ts ++ Tok.rparen :: rest) := separated_ends h
  obtain ⟨us, h1, h2⟩ := closedList_run (S := Raw) (item := (parsers env n).subExpr) (f := exprEnd)
    (rest := rest) rfl rfl
    (fun b ts hb hts rest hr => hS.written hb hts hr) h hn
  refine ⟨us, ?_, h1⟩
  unfold Parsers.call inParens
  simp only [List.cons_append, List.append_assoc, List.nil_append]
  rw [bind_ok (maybeToken_hit (by simp)), if_pos rfl,
    bind_ok (maybeToken_miss he fair_exprStart rfl (by simp)), if_neg (by simp)]
  by_cases hc : id = Kw.COUNT
  · rw [if_pos hc, bind_ok (maybeToken_miss he fair_exprStart rfl (by simp)), if_neg (by simp), bind_ok h2]
    rfl
  · rw [if_neg hc, bind_ok pure_ok, if_neg (by simp), bind_ok h2]
    rfl

/-- A query in parentheses. -/
theorem subquery_run (hQ : QueryOk env n) {q : Query} {ts rest : List Token}
    (h : QueryText env.words q ts) (hn : ts.length < n) :
    (parsers env n).subquery (inParens ts ++ rest) = .ok q rest := by
  unfold Parsers.subquery inParens
  simp only [List.cons_append, List.append_assoc, List.nil_append]
  rw [bind_ok (expectTokens_hit (by simp) (by simp)),
    bind_ok (hQ q ts h hn (Tok.rparen :: rest) (.cons rfl))]
  simp only
  rw [bind_ok (expectTokens_hit (by simp) (by simp))]
  rfl

/-- No query. -/
theorem query_none {ts : List Token} {f : Token → Bool} (h : Ends f ts) (hf : IsFair f)
    (hk : ∀ k ∈ [Kw.SELECT, Kw.VALUES, Kw.SHOW, Kw.TABLE], f (.reserved k) = false) (hn : 0 < n) :
    (parsers env n).query ts = .ok none ts := by
  obtain ⟨m, rfl⟩ : ∃ m, n = m + 1 := ⟨n - 1, by omega⟩
  show (parsers env m).stepQuery env ts = _
  unfold Parsers.stepQuery
  rw [bind_ok (optionalReserved_miss h hf (by simpa using hk Kw.SELECT (by simp))),
    if_neg (by simp),
    bind_ok (optionalReserved_miss h hf (by simpa using hk Kw.VALUES (by simp))),
    if_neg (by simp),
    bind_ok (optionalReserved_miss h hf (by simpa using hk Kw.SHOW (by simp))),
    if_neg (by simp),
    bind_ok (optionalReserved_miss h hf (by simpa using hk Kw.TABLE (by simp))),
    if_neg (by simp)]
  rfl

theorem raw_stable {e : Expr} (h : Stable e) : Raw e e := ⟨Adjusts.stable h, fun _ => rfl⟩

theorem operand_run (hS : SubOk env n) (hQ : QueryOk env n) {e : Expr} {ts rest : List Token}
    (h : Operand env.words e ts) (hn : ts.length < n + 1) (hr : Ends operandEnd rest) :
    ∃ u, (parsers env n).operand (ts ++ rest) = .ok u rest ∧ Raw u e := by
  cases h with
  | true => exact ⟨_, rfl, raw_stable trivial⟩
  | false => exact ⟨_, rfl, raw_stable trivial⟩
  | null => exact ⟨_, rfl, raw_stable trivial⟩
  | string s => exact ⟨_, rfl, raw_stable trivial⟩
  | bytes s => exact ⟨_, rfl, raw_stable trivial⟩
  | integer s => exact ⟨_, rfl, raw_stable trivial⟩
  | float s => exact ⟨_, rfl, raw_stable trivial⟩
  | ref id ids => exact ⟨_, call_ref _ id ids hr, raw_stable trivial⟩
  | callEmpty id => exact ⟨_, call_empty (parsers env n) id, raw_stable trivial⟩
  | countAll => exact ⟨_, call_countAll (parsers env n), raw_stable trivial⟩
  | call id h =>
    obtain ⟨us, h1, h2⟩ := call_args (rest := rest) hS id h (by
      simp only [inParens, List.length_cons, List.length_append] at hn
      omega)
    refine ⟨_, h1, Adjusts.call (raw_list h2).1, fun hs => ?_⟩
    simp only [Settled] at hs
    rw [(raw_list h2).2 hs]
  | paren h =>
    simp only [inParens, List.length_cons, List.length_append] at hn
    rename_i e ts
    obtain ⟨u, h1, h2⟩ := hS.written (rest := Tok.rparen :: rest) h (by omega) (.cons rfl)
    refine ⟨.unary .noOp u, ?_, h2.1.paren, fun hs => ?_⟩
    · show ((parsers env n).query >>= _) ((ts ++ [Tok.rparen]) ++ rest) = _
      rw [List.append_assoc]
      simp only [List.cons_append, List.nil_append]
      rw [bind_ok (query_none (written_ends h) fair_exprStart (by decide) (by omega))]
      simp only
      rw [bind_ok h1, bind_ok (expectTokens_hit (by simp) (by simp))]
      rfl
    · simp only [Settled] at hs
      rw [h2.2 hs]
  | scalar h =>
    simp only [inParens, List.length_cons, List.length_append] at hn
    rename_i q ts
    refine ⟨_, ?_, raw_stable trivial⟩
    show ((parsers env n).query >>= _) ((ts ++ [Tok.rparen]) ++ rest) = _
    rw [List.append_assoc]
    simp only [List.cons_append, List.nil_append]
    rw [bind_ok (hQ _ _ h (by omega) (Tok.rparen :: rest) (.cons rfl))]
    simp only
    rw [bind_ok (expectTokens_hit (by simp) (by simp))]
    rfl
  | «exists» h =>
    simp only [inParens, List.length_cons, List.length_append] at hn
    rename_i q ts
    refine ⟨_, ?_, raw_stable trivial⟩
    show ((parsers env n).subquery >>= _) (inParens ts ++ rest) = _
    rw [bind_ok (subquery_run hQ h (by omega))]
    rfl

/-- Nothing follows. -/
theorem operator_none (p : Parsers) (e : Expr) {rest : List Token} (h : ExprEnds rest) :
    p.operator env e rest = .ok e rest := by
  rcases h with hr | ⟨r, rfl⟩
  case inr => rfl
  unfold Parsers.operator
  rw [bind_ok (optionalBinaryOp_miss hr fair_exprEnd (by decide))]
  simp only
  rw [bind_ok (optionalReservedId_miss hr fair_exprEnd (by decide))]
  rfl

theorem operator_infix (hS : SubOk env n) (x : Expr) {t : Token} {op : SqlOp} {its : List Part}
    {us rest : List Token} (ht : (t, op) ∈ infixTokens) (h : PiecesText env.words its us)
    (hn : us.length < n) (hr : ExprEnds rest) :
    ∃ u, (parsers env n).operator env x (t :: (us ++ rest)) = .ok (.binary op x u) rest ∧
      Adjusts u (build its) ∧ ∀ e, pieces e = its → Settled e → u = e := by
  obtain ⟨u, h1, h2⟩ := hS its us h hn rest hr
  obtain ⟨b, hb, _⟩ := optionalBinaryOp_hit (ts := us ++ rest) ht
  have hst : Ends exprStart (us ++ rest) := by
    obtain ⟨t, vs, rfl, ht⟩ := pieces_start h
    exact .cons ht
  refine ⟨u, ?_, h2⟩
  unfold Parsers.operator
  rw [bind_ok hb]
  simp only
  rw [bind_ok (optionalReservedId_miss hst fair_exprStart (by decide))]
  simp only
  rw [bind_ok h1]
  rfl

theorem operator_query (hQ : QueryOk env n) (x : Expr) {t : Token} {op : SqlOp} {q : Query}
    {w : Identifier} {us rest : List Token} (ht : (t, op) ∈ infixTokens) (hb : IsBoolean op)
    (hw : w ∈ [Kw.ANY, Kw.SOME, Kw.ALL]) (h : QueryText env.words q us) (hn : us.length < n) :
    (parsers env n).operator env x (t :: .reserved w :: (inParens us ++ rest)) =
      .ok (.subquery (if w = Kw.ALL then .all else .any) op (some x) q) rest := by
  obtain ⟨b, h1, h2⟩ := optionalBinaryOp_hit (ts := .reserved w :: (inParens us ++ rest)) ht
  unfold Parsers.operator
  rw [bind_ok h1]
  simp only
  rw [bind_ok (optionalReservedId_hit hw)]
  simp only
  rw [if_pos (h2 hb), bind_ok (subquery_run hQ h hn)]
  rfl

theorem operator_in (hQ : QueryOk env n) (x : Expr) {q : Query} {us rest : List Token}
    (h : QueryText env.words q us) (hn : us.length < n) :
    (parsers env n).operator env x (.reserved Kw.IN :: (inParens us ++ rest)) =
      .ok (.subquery .any .equal (some x) q) rest := by
  show ((parsers env n).subquery >>= _) (inParens us ++ rest) = _
  rw [bind_ok (subquery_run hQ h hn)]
  rfl

theorem operator_notIn (hQ : QueryOk env n) (x : Expr) {q : Query} {us rest : List Token}
    (h : QueryText env.words q us) (hn : us.length < n) :
    (parsers env n).operator env x (.reserved Kw.NOT :: .reserved Kw.IN :: (inParens us ++ rest)) =
      .ok (.subquery .all .notEqual (some x) q) rest := by
  show ((parsers env n).subquery >>= _) (inParens us ++ rest) = _
  rw [bind_ok (subquery_run hQ h hn)]
  rfl

theorem pieces_pos (e : Expr) : 0 < (pieces e).length := by
  cases e with
  | binary _ _ _ => simp [pieces]; omega
  | unary op _ => cases op <;> simp [pieces]
  | _ => simp [pieces]

/-- Every expression is a prefix operator, an operator between operands or an operand. -/
theorem pieces_cases (e : Expr) : (∃ op l r, e = .binary op l r) ∨
    (∃ p e', p ≠ .noOp ∧ e = .unary p e' ∧ pieces e = .pre p :: pieces e') ∨
    pieces e = [.operand e] := by
  cases e with
  | binary op l r => exact Or.inl ⟨op, l, r, rfl⟩
  | unary p e =>
    by_cases hp : p = .noOp
    · subst hp
      exact Or.inr (Or.inr (by simp [pieces]))
    · refine Or.inr (Or.inl ⟨p, e, hp, rfl, ?_⟩)
      cases p <;> first | exact absurd rfl hp | simp [pieces]
  | _ => exact Or.inr (Or.inr (by simp [pieces]))

theorem pieces_one {e x : Expr} (h : pieces e = [.operand x]) : e = x := by
  rcases pieces_cases e with ⟨op, l, r, rfl⟩ | ⟨p, e', _, rfl, he⟩ | he
  · have := congrArg List.length h
    simp only [pieces, List.length_append, List.length_cons, List.length_nil] at this
    have := pieces_pos r
    omega
  · rw [h] at he
    simp at he
  · rw [h] at he
    simp at he
    exact he.symm

theorem settled_infix {e x : Expr} {op : SqlOp} {its : List Part}
    (h : pieces e = .operand x :: .infix op :: its) (hs : Settled e) :
    ∃ r, e = .binary op x r ∧ pieces r = its ∧ Settled x ∧ Settled r := by
  rcases pieces_cases e with ⟨op', l, r, rfl⟩ | ⟨p, e', _, rfl, he⟩ | he
  · simp only [Settled] at hs
    simp only [pieces, hs.2.2, List.cons_append, List.nil_append, List.cons.injEq,
      Part.operand.injEq, Part.infix.injEq] at h
    obtain ⟨rfl, rfl, h⟩ := h
    exact ⟨r, rfl, h, hs.1, hs.2.1⟩
  · rw [h] at he
    simp at he
  · rw [h] at he
    simp at he

theorem settled_prefix {e : Expr} {p : SqlOp} {its : List Part} (h : pieces e = .pre p :: its)
    (hs : Settled e) : ∃ r, e = .unary p r ∧ pieces r = its ∧ Settled r := by
  rcases pieces_cases e with ⟨op', l, r, rfl⟩ | ⟨p', e', _, rfl, he⟩ | he
  · simp only [Settled] at hs
    simp [pieces, hs.2.2] at h
  · rw [h] at he
    simp only [List.cons.injEq, Part.pre.injEq] at he
    obtain ⟨rfl, rfl⟩ := he
    simp only [Settled] at hs
    exact ⟨e', rfl, rfl, hs⟩
  · rw [h] at he
    simp at he

theorem operator_isNull (p : Parsers) (x : Expr) {rest : List Token} :
    p.operator env x (.reserved Kw.IS :: .reserved Kw.NULL :: rest) =
      .ok (.call env.words.isNull [x]) rest := rfl

theorem operator_isNotNull (p : Parsers) (x : Expr) {rest : List Token} :
    p.operator env x (.reserved Kw.IS :: .reserved Kw.NOT :: .reserved Kw.NULL :: rest) =
      .ok (.unary .not (.call env.words.isNull [x])) rest := rfl

theorem subExpr_operand {ts us : List Token} {r : PRes Expr} {u : Expr}
    (h1 : (parsers env n).operand (ts ++ us) = .ok u us)
    (h2 : (parsers env n).operator env u us = r) :
    (parsers env (n + 1)).subExpr (ts ++ us) = r := by
  show ((parsers env n).operand >>= _) (ts ++ us) = _
  rw [bind_ok h1]
  exact h2

/-- A prefix operator. -/
theorem operand_prefix {t : Token} {p : SqlOp} {us rest : List Token} {u : Expr}
    (ht : (t, p) ∈ prefixTokens) (h : (parsers env n).subExpr us = .ok u rest) :
    (parsers env n).operand (t :: us) = .ok (.unary p u) rest := by
  simp only [prefixTokens, List.mem_cons, List.not_mem_nil, or_false, Prod.mk.injEq] at ht
  rcases ht with ⟨rfl, rfl⟩ | ⟨rfl, rfl⟩
  · show ((parsers env n).subExpr >>= _) us = _
    rw [bind_ok h]
    rfl
  · show ((parsers env n).subExpr >>= _) us = _
    rw [bind_ok h]
    rfl

theorem adjusts_isNull {x e : Expr} (h : Raw x e) (f : Identifier) :
    Raw (.call f [x]) (.call f [e]) := by
  have := raw_list (.cons h .nil)
  refine ⟨Adjusts.call this.1, fun hs => ?_⟩
  simp only [Settled] at hs
  rw [this.2 hs]

/-- `parseSubExpr` reads the pieces of an expression. -/
theorem subExpr_step (hS : SubOk env n) (hQ : QueryOk env n) : SubOk env (n + 1) := by
  intro its ts h hn rest hr
  cases h with
  | one h =>
    obtain ⟨u, h1, h2, h3⟩ := operand_run hS hQ h hn hr.operand
    refine ⟨u, subExpr_operand h1 (operator_none _ u hr), h2, ?_⟩
    intro e he hs
    rw [pieces_one he] at hs ⊢
    exact h3 hs
  | @pre p t its us ht h =>
    obtain ⟨u, h1, h2, h3⟩ := hS its us h (by simp at hn; omega) rest hr
    refine ⟨.unary p u, ?_, h2.prefix_ (prefix_isPrefix ht), ?_⟩
    · show ((parsers env n).operand >>= _) (t :: (us ++ rest)) = _
      rw [bind_ok (operand_prefix ht h1)]
      exact operator_none _ _ hr
    · intro e he hs
      obtain ⟨r, rfl, h4, h5⟩ := settled_prefix he hs
      rw [h3 r h4 h5]
  | @«infix» x op t its us vs h ht h' =>
    simp only [List.length_append, List.length_cons] at hn
    obtain ⟨u, h1, h2, h3⟩ := operand_run (rest := t :: (vs ++ rest)) hS hQ h (by omega)
      (.cons (operandEnd_infix ht))
    obtain ⟨v, g1, g2, g3⟩ := operator_infix hS u ht h' (by omega) hr
    refine ⟨.binary op u v, ?_, h2.infix_ (operand_isOperand h) g2, ?_⟩
    · rw [List.append_assoc, List.cons_append]
      exact subExpr_operand h1 g1
    · intro e he hs
      obtain ⟨r, rfl, h4, h5, h6⟩ := settled_infix he hs
      rw [h3 h5, g3 r h4 h6]
  | @isNull x us h =>
    simp only [List.length_append, List.length_cons] at hn
    obtain ⟨u, h1, h2⟩ := operand_run (rest := .reserved Kw.IS :: .reserved Kw.NULL :: rest) hS hQ h
      (by omega) (.cons rfl)
    have h3 := adjusts_isNull h2 env.words.isNull
    refine ⟨.call env.words.isNull [u], ?_, h3.1, ?_⟩
    · rw [List.append_assoc]
      exact subExpr_operand h1 (operator_isNull _ u)
    · intro e he hs
      rw [pieces_one he] at hs ⊢
      exact h3.2 hs
  | @isNotNull x us h =>
    simp only [List.length_append, List.length_cons] at hn
    obtain ⟨u, h1, h2⟩ := operand_run
      (rest := .reserved Kw.IS :: .reserved Kw.NOT :: .reserved Kw.NULL :: rest) hS hQ h
      (by omega) (.cons rfl)
    have h3 := adjusts_isNull h2 env.words.isNull
    refine ⟨.unary .not (.call env.words.isNull [u]), ?_, h3.1.prefix_ (Or.inl rfl), ?_⟩
    · rw [List.append_assoc]
      exact subExpr_operand h1 (operator_isNotNull _ u)
    · intro e he hs
      obtain ⟨r, rfl, h4, h5⟩ := settled_prefix he hs
      rw [pieces_one h4] at h5 ⊢
      rw [h3.2 h5]
  | @inQuery x q us vs h hx hq =>
    simp only [inParens, List.length_append, List.length_cons] at hn
    obtain ⟨u, h1, h2⟩ := operand_run (rest := .reserved Kw.IN :: (inParens vs ++ rest)) hS hQ h
      (by omega) (.cons rfl)
    rw [h2.2 hx] at h1
    refine ⟨_, ?_, Adjusts.stable trivial, fun e he _ => (pieces_one he).symm⟩
    rw [List.append_assoc]
    exact subExpr_operand h1 (operator_in hQ x hq (by omega))
  | @notIn x q us vs h hx hq =>
    simp only [inParens, List.length_append, List.length_cons] at hn
    obtain ⟨u, h1, h2⟩ := operand_run
      (rest := .reserved Kw.NOT :: .reserved Kw.IN :: (inParens vs ++ rest)) hS hQ h
      (by omega) (.cons rfl)
    rw [h2.2 hx] at h1
    refine ⟨_, ?_, Adjusts.stable trivial, fun e he _ => (pieces_one he).symm⟩
    rw [List.append_assoc]
    exact subExpr_operand h1 (operator_notIn hQ x hq (by omega))
  | @any x op t q us vs w h hx ht hb hw hq =>
    simp only [inParens, List.length_append, List.length_cons] at hn
    obtain ⟨u, h1, h2⟩ := operand_run
      (rest := t :: .reserved w :: (inParens vs ++ rest)) hS hQ h
      (by omega) (.cons (operandEnd_infix ht))
    rw [h2.2 hx] at h1
    refine ⟨_, ?_, Adjusts.stable trivial, fun e he _ => (pieces_one he).symm⟩
    rw [List.append_assoc]
    have hw2 : w ∈ [Kw.ANY, Kw.SOME, Kw.ALL] ∧ w ≠ Kw.ALL := by
      simp only [List.mem_cons, List.not_mem_nil, or_false] at hw ⊢
      rcases hw with rfl | rfl <;> simp
    have := operator_query (rest := rest) hQ x ht hb hw2.1 hq (by omega)
    rw [if_neg hw2.2] at this
    exact subExpr_operand h1 this
  | @all x op t q us vs h hx ht hb hq =>
    simp only [inParens, List.length_append, List.length_cons] at hn
    obtain ⟨u, h1, h2⟩ := operand_run
      (rest := t :: .reserved Kw.ALL :: (inParens vs ++ rest)) hS hQ h
      (by omega) (.cons (operandEnd_infix ht))
    rw [h2.2 hx] at h1
    refine ⟨_, ?_, Adjusts.stable trivial, fun e he _ => (pieces_one he).symm⟩
    rw [List.append_assoc]
    exact subExpr_operand h1 (operator_query hQ x ht hb (by simp) hq (by omega))

end

end Maho
