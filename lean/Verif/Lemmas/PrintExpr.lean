import Verif.Lemmas.PrintLex
/-
Helper lemmas for C62 and C63: what is printed is written as the grammar says.
-/
namespace Maho
open P Maho.Spec

theorem parens_cases (e : Expr) : pieces (parens e) = [.operand (parens e)] ∧
    WellNested (parens e) ∧ (∀ op, RootAbove op (parens e)) ∧ (∀ op, RootAtLeast op (parens e)) ∧
    openPrefixes (parens e) = [] := by
  cases e with
  | lit v => simp [parens, pieces, WellNested, RootAbove, RootAtLeast, openPrefixes]
  | ref id ids => simp [parens, pieces, WellNested, RootAbove, RootAtLeast, openPrefixes]
  | call n args => simp [parens, pieces, WellNested, RootAbove, RootAtLeast, openPrefixes]
  | binary op l r => simp [parens, pieces, WellNested, RootAbove, RootAtLeast, openPrefixes]
  | subquery op o e q => simp [parens, pieces, WellNested, RootAbove, RootAtLeast, openPrefixes]
  | unary op e =>
    unfold parens
    split
    · exact parens_cases e
    · simp [pieces, WellNested, RootAbove, RootAtLeast, openPrefixes]

/-- What is shown of an expression. -/
structure ExprOk (env : ParseEnv) (words : Words) (e : Expr) (ts : List Token) : Prop where
  lex : Lex env.toScanEnv (e.print env) ts
  parts : PiecesText words [.operand (parens e)] ts
  settled : Settled (parens e)
  operand : NoTest e → Operand words (parens e) ts

theorem ExprOk.written {env : ParseEnv} {words : Words} {e : Expr} {ts : List Token}
    (h : ExprOk env words e ts) : Written words (parens e) ts :=
  .mk (parens_cases e).2.1 (by rw [(parens_cases e).1]; exact h.parts)

theorem ExprOk.of_operand {env : ParseEnv} {words : Words} {e : Expr} {ts : List Token}
    (h : Lex env.toScanEnv (e.print env) ts) (ho : Operand words (parens e) ts)
    (hs : Settled (parens e)) : ExprOk env words e ts :=
  ⟨h, .one ho, hs, fun _ => ho⟩

theorem commas_cons (a b : Bytes) (l : List Bytes) :
    commas (a :: b :: l) = a ++ (ascii ", " ++ commas (b :: l)) := by
  simp [commas]

/-- A list with commas. -/
theorem separated_names {env : ParseEnv} : ∀ {l : List Identifier}, l ≠ [] → (∀ i ∈ l, Plain env i) →
    ∃ ts, Lex env.toScanEnv (commas (l.map env.string)) ts ∧ Separated Name l ts
  | [], h, _ => absurd rfl h
  | [i], _, h => ⟨_, Lex.name (h i (by simp)), .one (.mk i)⟩
  | i :: j :: l, _, h => by
    obtain ⟨ts, h1, h2⟩ := separated_names (l := j :: l) (by simp) fun k hk => h k (by simp [hk])
    exact ⟨_, ((Lex.name (h i (by simp))).comma h1).cast (commas_cons _ _ _) rfl, .cons (.mk i) h2⟩

theorem printTable_ok {env : ParseEnv} {tn : TableName} (h : PlainTable env tn) :
    ∃ ts, Lex env.toScanEnv (tn.print env) ts ∧ TableText tn ts := by
  obtain ⟨d, s, t⟩ := tn
  obtain ⟨ht, h⟩ := h
  simp only at ht h
  rcases h with ⟨rfl, rfl⟩ | ⟨rfl, hs, hps⟩ | ⟨hd, hpd, hps⟩
  · exact ⟨_, (Lex.name ht).cast (by simp [TableName.print]) rfl, .one t⟩
  · exact ⟨_, (Lex.dot hps (Lex.name ht)).cast (by simp [TableName.print, hs]) rfl, .two s t⟩
  · exact ⟨_, (Lex.dot hpd (Lex.dot hps (Lex.name ht))).cast (by simp [TableName.print, hd]) rfl,
      .three d s t⟩

section
set_option linter.unusedSectionVars false
variable {env : ParseEnv} (hw : KnowsWords env.toScanEnv)
include hw

/-- An alias after something else. -/
theorem Lex.alias {a : Identifier} {b : Bytes} {ts : List Token} (h : Plain env a)
    (hb : Lex env.toScanEnv b ts) :
    Lex env.toScanEnv (b ++ ascii " AS " ++ env.string a)
      (ts ++ [.reserved Kw.AS, .identifier a]) :=
  (hb.space ((Lex.word hw "AS" Kw.AS).space (Lex.name h))).cast (by
      rw [show ascii " AS " = ascii " " ++ (ascii "AS" ++ ascii " ") from rfl]
      simp) (by simp)

/-- The columns of `ORDER BY`. -/
theorem separated_orders : ∀ {l : List (Identifier × Bool)}, l ≠ [] → (∀ o ∈ l, Plain env o.1) →
    ∃ ts, Lex env.toScanEnv (commas (l.map (printOrder env))) ts ∧ Separated OrderText l ts
  | [], h, _ => absurd rfl h
  | (i, b) :: l, _, h => by
    have h1 : ∃ ts, Lex env.toScanEnv (printOrder env (i, b)) ts ∧ OrderText (i, b) ts := by
      have hi := Lex.name (h (i, b) (by simp))
      cases b
      · exact ⟨_, (hi.space (Lex.word hw "ASC" Kw.ASC)).cast (by simp [printOrder]; rfl) rfl, .asc i⟩
      · exact ⟨_, (hi.space (Lex.word hw "DESC" Kw.DESC)).cast (by simp [printOrder]; rfl) rfl, .desc i⟩
    obtain ⟨ts, h1, h2⟩ := h1
    cases l with
    | nil => exact ⟨ts, h1, .one h2⟩
    | cons o l =>
      obtain ⟨us, h3, h4⟩ := separated_orders (l := o :: l) (by simp) fun k hk => h k (by simp [hk])
      exact ⟨_, (h1.comma h3).cast (commas_cons _ _ _) rfl, .cons h2 h4⟩

theorem lit_ok (words : Words) {v : Option Value} (h : PlainValue env v) :
    ∃ ts, ExprOk env words (.lit v) ts := by
  have mk : ∀ {t : Token}, Lex env.toScanEnv ((Expr.lit v).print env) [t] →
      Operand words (.lit v) [t] → ∃ ts, ExprOk env words (.lit v) ts :=
    fun h1 h2 => ⟨_, .of_operand h1 (by simpa only [parens] using h2) (by simp [parens, Settled])⟩
  cases v with
  | none =>
    exact mk ((Lex.word hw "NULL" Kw.NULL).cast
      (by simp [Expr.print]) rfl) .null
  | some v =>
    cases v with
    | bool b =>
      refine mk ((Lex.bool hw b).cast (by simp [Expr.print, ParseEnv.valueString]) rfl) ?_
      cases b
      · exact .false
      · exact .true
    | int i =>
      exact mk ((Lex.integer _ h).cast (by simp [Expr.print, ParseEnv.valueString]) rfl) (.integer i)
    | float f =>
      obtain ⟨l, h1, h2, h3⟩ := h
      exact mk ((Lex.float _ h1 h3).cast (by simp [Expr.print, ParseEnv.valueString, h2]) rfl) (.float f)
    | str s =>
      obtain ⟨l, h1, h2⟩ := h
      exact mk ((Lex.string _ h1 h2).cast (by simp [Expr.print, ParseEnv.valueString]) rfl) (.string s)
    | bytes b => exact absurd h (by simp [PlainValue])

omit hw in
theorem call_empty_ok (words : Words) {n : Identifier} (h : Plain env n) :
    ∃ ts, ExprOk env words (.call n []) ts :=
  ⟨_, .of_operand (((Lex.name h).glue (Lex.unit _)).cast (by
      simp [Expr.print, Expr.printAll, commas]; rfl) rfl)
    (by simpa [parens, parensAll] using Operand.callEmpty n) (by simp [parens, parensAll, Settled, SettledList])⟩

omit hw in
theorem settledList_parens : ∀ {l : List Expr}, (∀ e ∈ l, Settled (parens e)) →
    SettledList (parensAll l)
  | [], _ => by simp [parensAll, SettledList]
  | e :: l, h => by
    simp only [parensAll, SettledList]
    exact ⟨h e (by simp), settledList_parens fun x hx => h x (by simp [hx])⟩

omit hw in
theorem call_ok (words : Words) {n : Identifier} {es : List Expr} {ts : List Token}
    (h : Plain env n) (hl : Lex env.toScanEnv (commas (Expr.printAll env es)) ts)
    (hs : Separated (Written words) (parensAll es) ts) (ht : SettledList (parensAll es)) :
    ∃ ts, ExprOk env words (.call n es) ts :=
  ⟨_, .of_operand (((Lex.name h).glue hl.parens).cast (by simp [Expr.print]) rfl)
    (by simpa [parens] using Operand.call n hs) (by simpa [parens, Settled] using ht)⟩

omit hw in
theorem noOp_ok (words : Words) {e : Expr} {ts : List Token} (h : ExprOk env words e ts) :
    ExprOk env words (.unary .noOp e) ts := by
  refine ⟨h.lex.cast (by simp [Expr.print]) rfl, ?_, ?_, fun hn => ?_⟩
  · simpa [parens] using h.parts
  · simpa [parens] using h.settled
  · simpa [parens] using h.operand hn

theorem unary_ok (words : Words) {op : SqlOp} {e : Expr} {ts : List Token} (hp : IsPrefix op)
    (h : ExprOk env words e ts) : ∃ ts, ExprOk env words (.unary op e) ts := by
  have hn : op ≠ .noOp := by rcases hp with rfl | rfl <;> decide
  have e1 : parens (.unary op e) = .unary .noOp (.unary op (parens e)) := by simp [parens, hn]
  have e2 : pieces (.unary op (parens e)) = [.pre op, .operand (parens e)] := by
    rw [← List.singleton_append, ← (parens_cases e).1]
    rcases hp with rfl | rfl <;> rfl
  refine ⟨_, .of_operand ((Lex.op hw hn h.lex).parens.cast (by simp [Expr.print, hn]) rfl) ?_ ?_⟩
  · rw [e1]
    refine .paren (.mk ?_ (by rw [e2]; exact .pre (opToken_prefix hp) h.parts))
    rcases hp with rfl | rfl
    · exact ⟨Or.inl rfl, (parens_cases e).2.1, (parens_cases e).2.2.1 _⟩
    · exact ⟨Or.inr rfl, (parens_cases e).2.1, (parens_cases e).2.2.1 _⟩
  · rw [e1]
    simpa [Settled] using h.settled

theorem binary_ok (words : Words) {op : SqlOp} {l r : Expr} {ts us : List Token}
    (hi : IsInfix op) (hn : NoTest l) (h1 : ExprOk env words l ts) (h2 : ExprOk env words r us) :
    ∃ ts, ExprOk env words (.binary op l r) ts := by
  have e2 : pieces (.binary op (parens l) (parens r)) =
      [.operand (parens l), .infix op, .operand (parens r)] := by
    rw [pieces, (parens_cases l).1, (parens_cases r).1]
    rfl
  refine ⟨_, .of_operand ((h1.lex.space (Lex.op hw hi.2.2 h2.lex)).parens.cast
    (by simp [Expr.print]) rfl) ?_ ?_⟩
  · rw [show parens (.binary op l r) = .unary .noOp (.binary op (parens l) (parens r)) by
      simp [parens]]
    refine .paren (.mk ⟨hi, (parens_cases l).2.1, (parens_cases r).2.1, (parens_cases l).2.2.2.1 _,
      (parens_cases r).2.2.1 _, ?_⟩ (by
        rw [e2]
        exact .infix (h1.operand hn) (opToken_infix hi) h2.parts))
    rw [(parens_cases l).2.2.2.2]
    simp
  · simp only [parens, Settled]
    exact ⟨h1.settled, h2.settled, (parens_cases l).1⟩

omit hw in
theorem isBoolean_infix {op : SqlOp} (h : IsBoolean op) : IsInfix op := by
  unfold IsBoolean at h
  unfold IsInfix
  cases op <;> simp at h ⊢

theorem any_ok (words : Words) {op : SqlOp} {e : Expr} {q : Query} {ts us : List Token}
    (hi : IsBoolean op) (hn : NoTest e) (h1 : ExprOk env words e ts)
    (h2 : Lex env.toScanEnv (q.print env) us) (h3 : QueryText words (parensQuery q) us) :
    ∃ ts, ExprOk env words (.subquery .any op (some e) q) ts := by
  have e1 : parens (.subquery .any op (some e) q) =
      .subquery .any op (some (parens e)) (parensQuery q) := by simp [parens, parensOpt]
  refine ⟨_, (h1.lex.space (Lex.op hw (isBoolean_infix hi).2.2
    ((Lex.word hw "ANY" Kw.ANY).glue h2.parens))).cast ?_ rfl, ?_, ?_, ?_⟩
  · simp [Expr.print, Expr.printOpt, show ascii " ANY(" = ascii " " ++ (ascii "ANY" ++ ascii "(") from rfl]
  · rw [e1]
    exact .any (h1.operand hn) h1.settled (opToken_infix (isBoolean_infix hi)) hi (by decide) h3
  · rw [e1]
    simp [Settled]
  · exact fun h => absurd h (by simp [NoTest])

theorem all_ok (words : Words) {op : SqlOp} {e : Expr} {q : Query} {ts us : List Token}
    (hi : IsBoolean op) (hn : NoTest e) (h1 : ExprOk env words e ts)
    (h2 : Lex env.toScanEnv (q.print env) us) (h3 : QueryText words (parensQuery q) us) :
    ∃ ts, ExprOk env words (.subquery .all op (some e) q) ts := by
  have e1 : parens (.subquery .all op (some e) q) =
      .subquery .all op (some (parens e)) (parensQuery q) := by simp [parens, parensOpt]
  refine ⟨_, (h1.lex.space (Lex.op hw (isBoolean_infix hi).2.2
    ((Lex.word hw "ALL" Kw.ALL).glue h2.parens))).cast ?_ rfl, ?_, ?_, ?_⟩
  · simp [Expr.print, Expr.printOpt, show ascii " ALL(" = ascii " " ++ (ascii "ALL" ++ ascii "(") from rfl]
  · rw [e1]
    exact .all (h1.operand hn) h1.settled (opToken_infix (isBoolean_infix hi)) hi h3
  · rw [e1]
    simp [Settled]
  · exact fun h => absurd h (by simp [NoTest])

omit hw in
theorem scalar_ok (words : Words) {q : Query} {us : List Token}
    (h2 : Lex env.toScanEnv (q.print env) us) (h3 : QueryText words (parensQuery q) us) :
    ∃ ts, ExprOk env words (.subquery .scalar .add none q) ts :=
  ⟨_, .of_operand (h2.parens.cast (by simp [Expr.print]) rfl)
    (by simpa [parens, parensOpt] using Operand.scalar h3) (by simp [parens, Settled])⟩

theorem exists_ok (words : Words) {q : Query} {us : List Token}
    (h2 : Lex env.toScanEnv (q.print env) us) (h3 : QueryText words (parensQuery q) us) :
    ∃ ts, ExprOk env words (.subquery .exists .add none q) ts :=
  ⟨_, .of_operand (((Lex.word hw "EXISTS" Kw.EXISTS).glue h2.parens).cast (by
      simp [Expr.print, show ascii "EXISTS(" = ascii "EXISTS" ++ ascii "(" from rfl]) rfl)
    (by simpa [parens, parensOpt] using Operand.exists h3) (by simp [parens, Settled])⟩

omit hw in
theorem parens_alias {words : Words} {e : Expr} {ts us : List Token} {a : Identifier}
    (h : ExprOk env words e ts) (ha : OptAlias a us) :
    ResultText words (parensResult (.expr e a)) (ts ++ us) := by
  simp only [parensResult]
  exact .expr h.written ha

theorem result_ok (words : Words) {e : Expr} {ts : List Token} {a : Identifier}
    (h : ExprOk env words e ts) (ha : PlainAlias env a) :
    ∃ us, Lex env.toScanEnv ((SelectResult.expr e a).print env) us ∧
      ResultText words (parensResult (.expr e a)) us := by
  by_cases h0 : a = 0
  · subst h0
    exact ⟨_, h.lex.cast (by simp [SelectResult.print]) (by simp), parens_alias h .none⟩
  · refine ⟨_, (Lex.alias hw (ha.resolve_left h0) h.lex).cast (by simp [SelectResult.print, h0]) rfl,
      parens_alias h (.some (.as a))⟩

theorem table_ok (words : Words) {tn : TableName} {a : Identifier} (h : PlainTable env tn)
    (ha : PlainAlias env a) : ∃ ts, Lex env.toScanEnv ((FromItem.table tn a).print env) ts ∧
      FromPart words (parensFrom (.table tn a)) ts := by
  obtain ⟨ts, h1, h2⟩ := printTable_ok h
  simp only [parensFrom]
  by_cases h0 : a = 0
  · subst h0
    exact ⟨_, h1.cast (by simp [FromItem.print]) (List.append_nil _), .table h2 .none⟩
  · exact ⟨_, (Lex.alias hw (ha.resolve_left h0) h1).cast (by simp [FromItem.print, h0]) rfl,
      .table h2 (.some (.as a))⟩

theorem index_ok (words : Words) {tn : TableName} {i a : Identifier} (h : PlainTable env tn)
    (hi : Plain env i) (ha : PlainAlias env a) :
    ∃ ts, Lex env.toScanEnv ((FromItem.index tn i a).print env) ts ∧
      FromPart words (parensFrom (.index tn i a)) ts := by
  obtain ⟨ts, h1, h2⟩ := printTable_ok h
  simp only [parensFrom]
  have h3 := h1.at (Lex.name hi)
  by_cases h0 : a = 0
  · subst h0
    exact ⟨_, h3.cast (by simp [FromItem.print]) rfl, .index i h2 .none⟩
  · exact ⟨_, (Lex.alias hw (ha.resolve_left h0) h3).cast (by simp [FromItem.print, h0]) (by simp),
      .index i h2 (.some (.as a))⟩

theorem stmt_ok (words : Words) {q : Query} {a : Identifier} {cols : List Identifier}
    {ts : List Token} (h1 : Lex env.toScanEnv (q.print env) ts)
    (h2 : QueryText words (parensQuery q) ts) (ha : Plain env a) (hc : ∀ c ∈ cols, Plain env c) :
    ∃ ts, Lex env.toScanEnv ((FromItem.stmt q a cols).print env) ts ∧
      FromPart words (parensFrom (.stmt q a cols)) ts := by
  simp only [parensFrom]
  have h3 := Lex.alias hw ha h1.parens
  by_cases h0 : cols = []
  · subst h0
    refine ⟨_, h3.cast ?_ ?_, .stmt h2 (.as a) .none⟩
    · simp [FromItem.print, show ascii ") AS " = ascii ")" ++ ascii " AS " from rfl]
    · simp
  · obtain ⟨us, h4, h5⟩ := separated_names h0 hc
    refine ⟨_, (h3.space h4.parens).cast ?_ ?_, .stmt h2 (.as a) (.some h5)⟩
    · simp [FromItem.print, h0, show ascii ") AS " = ascii ")" ++ ascii " AS " from rfl,
        show ascii " (" = ascii " " ++ ascii "(" from rfl]
    · simp

theorem join_words (jt : JoinType) : ∃ ws, Lex env.toScanEnv jt.name ws ∧ JoinWords jt ws := by
  have j := Lex.word hw "JOIN" Kw.JOIN
  cases jt with
  | join => exact ⟨_, j, .join⟩
  | leftJoin => exact ⟨_, (Lex.word hw "LEFT" Kw.LEFT).space j, .left⟩
  | rightJoin => exact ⟨_, (Lex.word hw "RIGHT" Kw.RIGHT).space j, .right⟩
  | fullJoin => exact ⟨_, (Lex.word hw "FULL" Kw.FULL).space j, .full⟩
  | crossJoin => exact ⟨_, (Lex.word hw "CROSS" Kw.CROSS).space j, .cross⟩

theorem join_ok (words : Words) {l r : FromItem} {jt : JoinType} {on : Option Expr}
    {cols : List Identifier} {ts us : List Token}
    (h1 : Lex env.toScanEnv (l.print env) ts) (h2 : FromPart words (parensFrom l) ts)
    (h3 : Lex env.toScanEnv (r.print env) us) (h4 : FromPart words (parensFrom r) us)
    (ho : ∀ e, on = some e → ∃ vs, ExprOk env words e vs) (hn : cols.Nodup)
    (hc : ∀ c ∈ cols, Plain env c) (hj : jt = .crossJoin ↔ on.isSome = false ∧ cols = [])
    (hx : on.isSome = true → cols = []) :
    ∃ ts, Lex env.toScanEnv ((FromItem.join l r jt on cols).print env) ts ∧
      FromPart words (parensFrom (.join l r jt on cols)) ts := by
  obtain ⟨ws, hl, hjw⟩ := join_words hw jt
  simp only [parensFrom]
  have h5 := (h1.space (hl.space h3))
  cases on with
  | some e =>
    have e0 : cols = [] := hx rfl
    subst e0
    have hne : jt ≠ .crossJoin := fun h => by cases (hj.1 h).1
    obtain ⟨vs, hv⟩ := ho e rfl
    refine ⟨_, (h5.space ((Lex.word hw "ON" Kw.ON).space hv.lex)).parens.cast ?_ rfl,
      .paren (.one (b := true) ?_)⟩
    · simp [FromItem.print, Expr.printClause,
        show ascii " ON " = ascii " " ++ (ascii "ON" ++ ascii " ") from rfl]
    · have := FromText.on h2 hjw hne (.plain h4) hv.written
      simpa [parensOpt] using this
  | none =>
    by_cases h0 : cols = []
    · subst h0
      have : jt = .crossJoin := hj.2 ⟨rfl, rfl⟩
      subst this
      refine ⟨_, h5.parens.cast ?_ rfl, .paren (.one (b := false) ?_)⟩
      · simp [FromItem.print, Expr.printClause]
      · simpa [parensOpt] using FromText.cross h2 hjw (.plain h4)
    · have hne : jt ≠ .crossJoin := fun h => h0 (hj.1 h).2
      obtain ⟨vs, h6, h7⟩ := separated_names h0 hc
      refine ⟨_, (h5.space ((Lex.word hw "USING" Kw.USING).space h6.parens)).parens.cast ?_ rfl,
        .paren (.one (b := true) ?_)⟩
      · simp [FromItem.print, Expr.printClause, h0,
          show ascii " USING (" = ascii " " ++ (ascii "USING" ++ (ascii " " ++ ascii "(")) from rfl]
      · have := FromText.using h2 hjw hne (.plain h4) h7 hn
        simpa [parensOpt] using this

/-- A clause. -/
theorem clause_ok (words : Words) (s : String) (w : Identifier) (hs : IsWord s w)
    {o : Option Expr} (ho : ∀ e, o = some e → ∃ vs, ExprOk env words e vs) {b : Bytes}
    {ts : List Token} (h : Lex env.toScanEnv b ts) :
    ∃ us, Lex env.toScanEnv (b ++ Expr.printClause env (ascii " " ++ (ascii s ++ ascii " ")) o)
        (ts ++ us) ∧ OptExpr words w (parensOpt o) us := by
  cases o with
  | none => exact ⟨[], h.cast (by simp [Expr.printClause]) (by simp), by simpa [parensOpt] using .none w⟩
  | some e =>
    obtain ⟨vs, hv⟩ := ho e rfl
    refine ⟨_, (h.space ((Lex.word hw s w hs).space hv.lex)).cast (by simp [Expr.printClause]) rfl, ?_⟩
    simpa [parensOpt] using OptExpr.some w hv.written

omit hw in
theorem parensAll_eq (l : List Expr) : parensAll l = l.map parens := by
  induction l with
  | nil => simp [parensAll]
  | cons e l ih => simp [parensAll, ih]

theorem order_ok {order : List (Identifier × Bool)} (ho : ∀ o ∈ order, Plain env o.1) {b : Bytes}
    {ts : List Token} (h : Lex env.toScanEnv b ts) :
    ∃ us, Lex env.toScanEnv (b ++ (if order.isEmpty then [] else ascii " ORDER BY " ++
        commas (order.map (printOrder env)))) (ts ++ us) ∧ OptOrder order us := by
  by_cases h0 : order = []
  · subst h0
    exact ⟨[], h.cast (by simp) (by simp), .none⟩
  · obtain ⟨us, h1, h2⟩ := separated_orders hw h0 ho
    refine ⟨_, (h.space ((Lex.word hw "ORDER" Kw.ORDER).space
      ((Lex.word hw "BY" Kw.BY).space h1))).cast ?_ rfl, .some h2⟩
    simp [h0, show ascii " ORDER BY " = ascii " " ++ (ascii "ORDER" ++ (ascii " " ++ (ascii "BY" ++ ascii " "))) from rfl]

theorem select_ok (words : Words) {results : List SelectResult} {f : FromItem}
    {cond having : Option Expr} {group : List Expr} {order : List (Identifier × Bool)}
    {ts us : List Token}
    (hr : Lex env.toScanEnv (if results.isEmpty then ascii "*" else commas (SelectResult.printAll env results)) ts)
    (hr2 : ResultsText words (parensResults results) ts)
    (hf : Lex env.toScanEnv (f.print env) us) (hf2 : FromPart words (parensFrom f) us)
    (hc : ∀ e, cond = some e → ∃ vs, ExprOk env words e vs)
    (hg : group ≠ [] → ∃ vs, Lex env.toScanEnv (commas (Expr.printAll env group)) vs ∧
      Separated (Written words) (parensAll group) vs)
    (hh : ∀ e, having = some e → ∃ vs, ExprOk env words e vs)
    (hgh : group = [] → having.isSome = false) (ho : ∀ o ∈ order, Plain env o.1) :
    ∃ ts, Lex env.toScanEnv ((Query.select results (some f) cond group having order).print env) ts ∧
      QueryText words (parensQuery (.select results (some f) cond group having order)) ts ∧
      ts.head? = some (.reserved Kw.SELECT) := by
  have h1 := (Lex.word hw "SELECT" Kw.SELECT).space (hr.space ((Lex.word hw "FROM" Kw.FROM).space hf))
  obtain ⟨ws, h2, h3⟩ := clause_ok hw words "WHERE" Kw.WHERE (by decide) hc h1
  have hgrp : ∃ gs hs, Lex env.toScanEnv (ascii "SELECT" ++ (ascii " " ++
      ((if results.isEmpty then ascii "*" else commas (SelectResult.printAll env results)) ++
        (ascii " " ++ (ascii "FROM" ++ (ascii " " ++ f.print env))))) ++
      Expr.printClause env (ascii " " ++ (ascii "WHERE" ++ ascii " ")) cond ++
      (if group.isEmpty then []
       else ascii " GROUP BY " ++ commas (Expr.printAll env group) ++
        Expr.printClause env (ascii " HAVING ") having))
      ([.reserved Kw.SELECT] ++ (ts ++ ([.reserved Kw.FROM] ++ us)) ++ ws ++ (gs ++ hs)) ∧
      OptGroup words (parensAll group) gs ∧ OptExpr words Kw.HAVING (parensOpt having) hs := by
    by_cases h0 : group = []
    · subst h0
      have : having = none := by
        have := hgh rfl
        cases having with
        | none => rfl
        | some e => simp at this
      subst this
      exact ⟨[], [], h2.cast (by simp) (by simp), by simpa [parensAll] using .none,
        by simpa [parensOpt] using .none _⟩
    · obtain ⟨vs, h4, h5⟩ := hg h0
      have h6 := h2.space ((Lex.word hw "GROUP" Kw.GROUP).space ((Lex.word hw "BY" Kw.BY).space h4))
      obtain ⟨hs, h7, h8⟩ := clause_ok hw words "HAVING" Kw.HAVING (by decide) hh h6
      refine ⟨_, hs, h7.cast ?_ ?_, .some h5, h8⟩
      · simp [h0, show ascii " GROUP BY " = ascii " " ++ (ascii "GROUP" ++ (ascii " " ++ (ascii "BY" ++ ascii " "))) from rfl,
          show ascii " HAVING " = ascii " " ++ (ascii "HAVING" ++ ascii " ") from rfl]
      · simp
  obtain ⟨gs, hs, h4, h5, h6⟩ := hgrp
  obtain ⟨os, h7, h8⟩ := order_ok hw ho h4
  refine ⟨.reserved Kw.SELECT :: (ts ++ ((.reserved Kw.FROM :: us) ++ (ws ++ (gs ++ (hs ++ os))))),
    h7.cast ?_ ?_, ?_, by simp⟩
  · simp [Query.print, FromItem.printOpt, show ascii "SELECT " = ascii "SELECT" ++ ascii " " from rfl,
      show ascii " FROM " = ascii " " ++ (ascii "FROM" ++ ascii " ") from rfl,
      show ascii " WHERE " = ascii " " ++ (ascii "WHERE" ++ ascii " ") from rfl]
  · simp
  · simp only [parensQuery, parensOptFrom]
    exact .select hr2 (.some (.one (.plain hf2))) h3 h5 h6 h8

omit hw in
theorem printableRows_length {n : Nat} : ∀ {rows : List (List Expr)}, PrintableRows env n rows →
    ∀ row ∈ parensRows rows, row.length = n
  | [], _ => by simp [parensRows]
  | row :: rows, h => by
    simp only [PrintableRows] at h
    intro r hr
    rw [parensRows] at hr
    rcases List.mem_cons.1 hr with rfl | hr
    · rw [parensAll_eq, List.length_map]
      exact h.1
    · exact printableRows_length h.2.2 r hr

theorem values_ok (words : Words) {rows : List (List Expr)} {ts : List Token} {n : Nat}
    (h0 : rows ≠ []) (hn : ∀ row ∈ parensRows rows, row.length = n)
    (h1 : Lex env.toScanEnv (commas (Expr.printRows env rows)) ts)
    (h2 : Separated (RowText words) (parensRows rows) ts) :
    ∃ ts, Lex env.toScanEnv ((Query.values rows).print env) ts ∧
      QueryText words (parensQuery (.values rows)) ts ∧
      ts.head? = some (.reserved Kw.VALUES) := by
  refine ⟨_, ((Lex.word hw "VALUES" Kw.VALUES).space h1).cast ?_ rfl, ?_, by simp⟩
  · simp [Query.print, h0]
  · simp only [parensQuery]
    exact .values n hn h2

theorem show_ok (words : Words) {v : Identifier} (hv : v ∉ showQueries) (hl : Legible env v) :
    ∃ ts, Lex env.toScanEnv ((Query.show v).print env) ts ∧
      QueryText words (parensQuery (.show v)) ts ∧
      ts.head? = some (.reserved Kw.SHOW) := by
  refine ⟨_, ((Lex.word hw "SHOW" Kw.SHOW).space (Lex.legible hl)).cast ?_ rfl, ?_, by simp⟩
  · simp [Query.print, show ascii "SHOW " = ascii "SHOW" ++ ascii " " from rfl]
  · simp only [parensQuery]
    by_cases h : v < 0
    · rw [if_pos h]
      exact .showReserved v hv
    · rw [if_neg h]
      exact .showVariable v hv

/-- The first word of a query that is printed. -/
def queryWord : Query → Token
  | .select _ _ _ _ _ _ => .reserved Kw.SELECT
  | .values _ => .reserved Kw.VALUES
  | .show _ => .reserved Kw.SHOW

mutual

theorem expr_ok (words : Words) : ∀ e : Expr, Printable env e → ∃ ts, ExprOk env words e ts
  | .lit _, h => lit_ok hw words (by simpa only [Printable] using h)
  | .ref id ids, h => by
    simp only [Printable] at h
    exact ⟨_, .of_operand ((Lex.ref h.1 h.2).cast (by simp [Expr.print]) rfl)
      (by simpa [parens] using .ref id ids) (by simp [parens, Settled])⟩
  | .call n args, h => by
    simp only [Printable] at h
    by_cases h0 : args = []
    · subst h0
      exact call_empty_ok words h.1
    · obtain ⟨ts, h1, h2, h3⟩ := exprs_ok words args h0 h.2
      exact call_ok words h.1 h1 h2 h3
  | .unary op e, h => by
    simp only [Printable] at h
    obtain ⟨ts, h1⟩ := expr_ok words e h.2
    rcases h.1 with h2 | rfl
    · exact unary_ok hw words h2 h1
    · exact ⟨ts, noOp_ok words h1⟩
  | .binary op l r, h => by
    simp only [Printable] at h
    obtain ⟨ts, h1⟩ := expr_ok words l h.2.2.1
    obtain ⟨us, h2⟩ := expr_ok words r h.2.2.2
    exact binary_ok hw words h.1 h.2.1 h1 h2
  | .subquery op o e q, h => by
    simp only [Printable] at h
    obtain ⟨us, h1, h2, _⟩ := query_ok words q h.1
    have he := operand_ok words e
    have h := h.2
    cases op with
    | scalar =>
      obtain ⟨rfl, rfl⟩ := h
      exact scalar_ok words h1 h2
    | «exists» =>
      obtain ⟨rfl, rfl⟩ := h
      exact exists_ok hw words h1 h2
    | any =>
      obtain ⟨e', ts, rfl, h3, h4⟩ := he h.2
      exact any_ok hw words h.1 h3 h4 h1 h2
    | all =>
      obtain ⟨e', ts, rfl, h3, h4⟩ := he h.2
      exact all_ok hw words h.1 h3 h4 h1 h2

theorem operand_ok (words : Words) : ∀ o : Option Expr, PrintableOperand env o →
    ∃ e ts, o = some e ∧ NoTest e ∧ ExprOk env words e ts
  | none, h => by simp [PrintableOperand] at h
  | some e, h => by
    simp only [PrintableOperand] at h
    obtain ⟨ts, h1⟩ := expr_ok words e h.2
    exact ⟨e, ts, rfl, h.1, h1⟩

theorem opt_ok (words : Words) : ∀ o : Option Expr, PrintableOpt env o →
    ∀ e, o = some e → ∃ ts, ExprOk env words e ts
  | none, _ => nofun
  | some e, h => by
    simp only [PrintableOpt] at h
    intro e' he
    cases he
    exact expr_ok words e h

theorem exprs_ok (words : Words) : ∀ l : List Expr, l ≠ [] → PrintableAll env l →
    ∃ ts, Lex env.toScanEnv (commas (Expr.printAll env l)) ts ∧
      Separated (Written words) (parensAll l) ts ∧ SettledList (parensAll l)
  | [], h0, _ => absurd rfl h0
  | e :: l, _, h => by
    simp only [PrintableAll] at h
    obtain ⟨ts, h1⟩ := expr_ok words e h.1
    have ih := exprs_ok words l
    cases l with
    | nil =>
      refine ⟨ts, by simpa [Expr.printAll, commas] using h1.lex, ?_, ?_⟩
      · simpa [parensAll] using Separated.one h1.written
      · simpa [parensAll, SettledList] using h1.settled
    | cons e2 l =>
      obtain ⟨us, h2, h3, h4⟩ := ih (by simp) h.2
      refine ⟨_, (h1.lex.comma h2).cast (by simp [Expr.printAll, commas]) rfl, ?_, ?_⟩
      · simpa [parensAll] using Separated.cons h1.written h3
      · rw [parensAll, SettledList]
        exact ⟨h1.settled, h4⟩

theorem from_ok (words : Words) : ∀ f : FromItem, PrintableFrom env f →
    ∃ ts, Lex env.toScanEnv (f.print env) ts ∧ FromPart words (parensFrom f) ts
  | .table tn a, h => by
    simp only [PrintableFrom] at h
    exact table_ok hw words h.1 h.2
  | .index tn i a, h => by
    simp only [PrintableFrom] at h
    exact index_ok hw words h.1 h.2.1 h.2.2
  | .stmt q a cols, h => by
    simp only [PrintableFrom] at h
    obtain ⟨ts, h1, h2, _⟩ := query_ok words q h.1
    exact stmt_ok hw words h1 h2 h.2.1 h.2.2
  | .join l r jt on cols, h => by
    simp only [PrintableFrom] at h
    obtain ⟨hl, hr, ho, hn, hc, hj, hx⟩ := h
    obtain ⟨ts, h1, h2⟩ := from_ok words l hl
    obtain ⟨us, h3, h4⟩ := from_ok words r hr
    exact join_ok hw words h1 h2 h3 h4 (opt_ok words on ho) hn hc hj hx

theorem optFrom_ok (words : Words) : ∀ f : Option FromItem, PrintableOptFrom env f →
    ∃ f' ts, f = some f' ∧ Lex env.toScanEnv (f'.print env) ts ∧ FromPart words (parensFrom f') ts
  | none, h => by simp [PrintableOptFrom] at h
  | some f, h => by
    simp only [PrintableOptFrom] at h
    obtain ⟨ts, h1, h2⟩ := from_ok words f h
    exact ⟨f, ts, rfl, h1, h2⟩

theorem selectResult_ok (words : Words) : ∀ r : SelectResult, PrintableResult env r →
    ∃ ts, Lex env.toScanEnv (r.print env) ts ∧ ResultText words (parensResult r) ts
  | .table t, h => by
    simp only [PrintableResult] at h
    refine ⟨_, (Lex.dot h (Lex.star _)).cast ?_ rfl, by simpa [parensResult] using .table t⟩
    simp [SelectResult.print, show ascii ".*" = ascii "." ++ ascii "*" from rfl]
  | .expr e a, h => by
    simp only [PrintableResult] at h
    obtain ⟨ts, h1⟩ := expr_ok words e h.1
    exact result_ok hw words h1 h.2

theorem selectResults_ok (words : Words) : ∀ l : List SelectResult, l ≠ [] →
    PrintableResults env l → ∃ ts, Lex env.toScanEnv (commas (SelectResult.printAll env l)) ts ∧
      Separated (ResultText words) (parensResults l) ts
  | [], h0, _ => absurd rfl h0
  | r :: l, _, h => by
    simp only [PrintableResults] at h
    obtain ⟨ts, h1, h2⟩ := selectResult_ok words r h.1
    have ih := selectResults_ok words l
    cases l with
    | nil =>
      refine ⟨ts, by simpa [SelectResult.printAll, commas] using h1, ?_⟩
      simpa [parensResults] using Separated.one h2
    | cons e2 l =>
      obtain ⟨us, h3, h4⟩ := ih (by simp) h.2
      refine ⟨_, (h1.comma h3).cast (by simp [SelectResult.printAll, commas]) rfl, ?_⟩
      simpa [parensResults] using Separated.cons h2 h4

theorem rows_ok (words : Words) (n : Nat) (hn : 0 < n) : ∀ rows : List (List Expr), rows ≠ [] →
    PrintableRows env n rows → ∃ ts, Lex env.toScanEnv (commas (Expr.printRows env rows)) ts ∧
      Separated (RowText words) (parensRows rows) ts
  | [], h0, _ => absurd rfl h0
  | row :: rows, _, h => by
    simp only [PrintableRows] at h
    have h0 : row ≠ [] := by
      rintro rfl
      simp at h
      omega
    obtain ⟨ts, h1, h2, _⟩ := exprs_ok words row h0 h.2.1
    have ih := rows_ok words n hn rows
    cases rows with
    | nil =>
      refine ⟨_, h1.parens.cast (by simp [Expr.printRows, commas]) rfl, ?_⟩
      simpa [parensRows] using Separated.one (RowText.mk h2)
    | cons e2 l =>
      obtain ⟨us, h3, h4⟩ := ih (by simp) h.2.2
      refine ⟨_, (h1.parens.comma h3).cast (by simp [Expr.printRows, commas]) rfl, ?_⟩
      simpa [parensRows] using Separated.cons (RowText.mk h2) h4

theorem query_ok (words : Words) : ∀ q : Query, PrintableQuery env q →
    ∃ ts, Lex env.toScanEnv (q.print env) ts ∧ QueryText words (parensQuery q) ts ∧
      ts.head? = some (queryWord q)
  | .select results fromItem cond groupBy having orderBy, h => by
    simp only [PrintableQuery] at h
    obtain ⟨hr, hf, hc, hg, hh, hgh, ho⟩ := h
    obtain ⟨f, us, rfl, hf1, hf2⟩ := optFrom_ok words fromItem hf
    have hrs : ∃ ts, Lex env.toScanEnv (if results.isEmpty then ascii "*"
        else commas (SelectResult.printAll env results)) ts ∧
        ResultsText words (parensResults results) ts := by
      by_cases h0 : results = []
      · subst h0
        exact ⟨_, (Lex.star _).cast (by simp) rfl, by simpa [parensResults] using .star⟩
      · obtain ⟨ts, h1, h2⟩ := selectResults_ok words results h0 hr
        exact ⟨ts, h1.cast (by simp [h0]) rfl, .list h2⟩
    obtain ⟨ts, h1, h2⟩ := hrs
    refine select_ok hw words h1 h2 hf1 hf2 (opt_ok words cond hc) (fun h0 => ?_)
      (opt_ok words having hh) hgh ho
    obtain ⟨vs, h3, h4, _⟩ := exprs_ok words groupBy h0 hg
    exact ⟨vs, h3, h4⟩
  | .values rows, h => by
    simp only [PrintableQuery] at h
    obtain ⟨h0, n, hn, h⟩ := h
    obtain ⟨ts, h1, h2⟩ := rows_ok words n hn rows h0 h
    exact values_ok hw words h0 (printableRows_length h) h1 h2
  | .show v, h => by
    simp only [PrintableQuery] at h
    exact show_ok hw words h.1 h.2

end

end

mutual

theorem bare_parens : ∀ e : Expr, bare (parens e) = bare e
  | .lit _ => by simp [parens]
  | .ref _ _ => by simp [parens]
  | .call n args => by simp [parens, bare, bareAll_parens args]
  | .unary op e => by
    by_cases h : op = .noOp
    · subst h
      simp [parens, bare, bare_parens e]
    · simp [parens, bare, h, bare_parens e]
  | .binary op l r => by simp [parens, bare, bare_parens l, bare_parens r]
  | .subquery op o e q => by simp [parens, bare, bareOpt_parens e, bareQuery_parens q]

theorem bareOpt_parens : ∀ o : Option Expr, bareOpt (parensOpt o) = bareOpt o
  | none => rfl
  | some e => by simp [parensOpt, bareOpt, bare_parens e]

theorem bareAll_parens : ∀ l : List Expr, bareAll (parensAll l) = bareAll l
  | [] => by simp [parensAll]
  | e :: l => by simp [parensAll, bareAll, bare_parens e, bareAll_parens l]

theorem bareFrom_parens : ∀ f : FromItem, bareFrom (parensFrom f) = bareFrom f
  | .table _ _ => by simp [parensFrom]
  | .index _ _ _ => by simp [parensFrom]
  | .stmt q _ _ => by simp [parensFrom, bareFrom, bareQuery_parens q]
  | .join l r _ on _ => by
    simp [parensFrom, bareFrom, bareFrom_parens l, bareFrom_parens r, bareOpt_parens on]

theorem bareOptFrom_parens : ∀ f : Option FromItem, bareOptFrom (parensOptFrom f) = bareOptFrom f
  | none => rfl
  | some f => by simp [parensOptFrom, bareOptFrom, bareFrom_parens f]

theorem bareResult_parens : ∀ r : SelectResult, bareResult (parensResult r) = bareResult r
  | .table _ => by simp [parensResult]
  | .expr e _ => by simp [parensResult, bareResult, bare_parens e]

theorem bareResults_parens : ∀ l : List SelectResult, bareResults (parensResults l) = bareResults l
  | [] => by simp [parensResults]
  | r :: l => by simp [parensResults, bareResults, bareResult_parens r, bareResults_parens l]

theorem bareRows_parens : ∀ l : List (List Expr), bareRows (parensRows l) = bareRows l
  | [] => by simp [parensRows]
  | r :: l => by simp [parensRows, bareRows, bareAll_parens r, bareRows_parens l]

theorem bareQuery_parens : ∀ q : Query, bareQuery (parensQuery q) = bareQuery q
  | .select results fromItem cond groupBy having _ => by
    simp [parensQuery, bareQuery, bareResults_parens results, bareOptFrom_parens fromItem,
      bareOpt_parens cond, bareAll_parens groupBy, bareOpt_parens having]
  | .values rows => by simp [parensQuery, bareQuery, bareRows_parens rows]
  | .show _ => by simp [parensQuery]

end

mutual

theorem print_parens (env : ParseEnv) : ∀ e : Expr, (parens e).print env = e.print env
  | .lit _ => by simp [parens]
  | .ref _ _ => by simp [parens]
  | .call n args => by simp [parens, Expr.print, printAll_parens env args]
  | .unary op e => by
    by_cases h : op = .noOp
    · subst h
      simp [parens, Expr.print, print_parens env e]
    · simp [parens, Expr.print, h, print_parens env e]
  | .binary op l r => by simp [parens, Expr.print, print_parens env l, print_parens env r]
  | .subquery op o e q => by
    cases op <;> simp [parens, Expr.print, printOpt_parens env e, printQuery_parens env q]

theorem printOpt_parens (env : ParseEnv) : ∀ o : Option Expr,
    Expr.printOpt env (parensOpt o) = Expr.printOpt env o
  | none => rfl
  | some e => by simp [parensOpt, Expr.printOpt, print_parens env e]

theorem printClause_parens (env : ParseEnv) (w : Bytes) : ∀ o : Option Expr,
    Expr.printClause env w (parensOpt o) = Expr.printClause env w o
  | none => rfl
  | some e => by simp [parensOpt, Expr.printClause, print_parens env e]

theorem printAll_parens (env : ParseEnv) : ∀ l : List Expr,
    Expr.printAll env (parensAll l) = Expr.printAll env l
  | [] => by simp [parensAll]
  | e :: l => by simp [parensAll, Expr.printAll, print_parens env e, printAll_parens env l]

theorem printFrom_parens (env : ParseEnv) : ∀ f : FromItem, (parensFrom f).print env = f.print env
  | .table _ _ => by simp [parensFrom]
  | .index _ _ _ => by simp [parensFrom]
  | .stmt q _ _ => by simp [parensFrom, FromItem.print, printQuery_parens env q]
  | .join l r _ on _ => by
    simp [parensFrom, FromItem.print, printFrom_parens env l, printFrom_parens env r,
      printClause_parens env _ on]

theorem printOptFrom_parens (env : ParseEnv) : ∀ f : Option FromItem,
    FromItem.printOpt env (parensOptFrom f) = FromItem.printOpt env f
  | none => rfl
  | some f => by simp [parensOptFrom, FromItem.printOpt, printFrom_parens env f]

theorem printResult_parens (env : ParseEnv) : ∀ r : SelectResult,
    (parensResult r).print env = r.print env
  | .table _ => by simp [parensResult]
  | .expr e _ => by simp [parensResult, SelectResult.print, print_parens env e]

theorem printResults_parens (env : ParseEnv) : ∀ l : List SelectResult,
    SelectResult.printAll env (parensResults l) = SelectResult.printAll env l
  | [] => by simp [parensResults]
  | r :: l => by
    simp [parensResults, SelectResult.printAll, printResult_parens env r, printResults_parens env l]

theorem printRows_parens (env : ParseEnv) : ∀ l : List (List Expr),
    Expr.printRows env (parensRows l) = Expr.printRows env l
  | [] => by simp [parensRows]
  | r :: l => by simp [parensRows, Expr.printRows, printAll_parens env r, printRows_parens env l]

theorem printQuery_parens (env : ParseEnv) : ∀ q : Query,
    (parensQuery q).print env = q.print env
  | .select results fromItem cond groupBy having _ => by
    have h1 : (parensResults results).isEmpty = results.isEmpty := by
      cases results <;> simp [parensResults]
    have h2 : (parensAll groupBy).isEmpty = groupBy.isEmpty := by
      cases groupBy <;> simp [parensAll]
    simp only [parensQuery, Query.print, printResults_parens env results, h1, h2,
      printOptFrom_parens env fromItem, printClause_parens env _ cond, printAll_parens env groupBy,
      printClause_parens env _ having]
  | .values rows => by
    have h1 : (parensRows rows).isEmpty = rows.isEmpty := by
      cases rows <;> simp [parensRows]
    simp only [parensQuery, Query.print, printRows_parens env rows, h1]
  | .show _ => by simp [parensQuery]

end

end Maho
