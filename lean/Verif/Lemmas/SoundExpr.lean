import Verif.Lemmas.Sound
import Verif.Lemmas.Steps
/-
Helper lemmas for C76: expressions and queries.
-/
namespace Maho
open P Maho.Spec

/-! ### The tokens stay in order when operators are nested -/

theorem mapM_some {α β : Type} {f : α → Option β} : ∀ {l : List α} {m : List β},
    l.mapM f = some m → Pairwise2 (fun a b => f a = some b) l m
  | [], m, h => by
    simp only [List.mapM_nil, Option.pure_def, Option.some.injEq] at h
    subst h
    exact .nil
  | a :: l, m, h => by
    simp only [List.mapM_cons, Option.pure_def, Option.bind_eq_bind, Option.bind_eq_some_iff,
      Option.some.injEq] at h
    obtain ⟨b, hb, k, hk, rfl⟩ := h
    exact .cons hb (mapM_some hk)

theorem separated_map {α : Type} {R : α → List Token → Prop} {f : α → Option α}
    (hf : ∀ a b ts, f a = some b → R a ts → R b ts) {l m : List α}
    (h : Pairwise2 (fun a b => f a = some b) l m) : ∀ {ts : List Token}, Separated R l ts →
      Separated R m ts := by
  induction h with
  | nil => intro ts h; cases h
  | cons h1 h2 ih =>
    intro ts h
    cases h with
    | one h =>
      cases h2
      exact .one (hf _ _ _ h1 h)
    | cons h h' => exact .cons (hf _ _ _ h1 h) (ih h')

theorem prefix_ne {t : Token} {p : SqlOp} (h : (t, p) ∈ prefixTokens) : p ≠ .noOp := by
  have : ∀ q ∈ prefixTokens, q.2 ≠ .noOp := by decide
  exact this _ h

/-- The last part of `adjustPrecedence`: the operator on the left side is looser. -/
theorem left_form {env : ParseEnv} {n : Nat} {op : SqlOp} {t : Token} {l r e' : Expr}
    {ts us : List Token}
    (ih : ∀ (e e' : Expr) (ts : List Token), adjustPrecedence n e = some e' → ExprForm env e ts →
      ExprForm env e' ts)
    (h : (match l with
      | .binary cop cl cr =>
        if opPrecedence cop < opPrecedence op then
          adjustPrecedence n (.binary cop cl (.binary op cr r))
        else some (.binary op l r)
      | _ => some (.binary op l r)) = some e')
    (ht : (t, op) ∈ infixTokens) (hl : ExprForm env l ts) (hr : ExprForm env r us) :
    ExprForm env e' (ts ++ t :: us) := by
  cases l with
  | binary cop cl cr =>
    simp only at h
    split at h
    · refine ih _ _ _ h ?_
      cases hl with
      | «infix» ht' hcl hcr =>
        have := ExprForm.infix ht' hcl (.infix ht hcr hr)
        simpa using this
    · cases h
      exact .infix ht hl hr
  | _ =>
    cases h
    exact .infix ht hl hr

theorem adjust_form (env : ParseEnv) : ∀ (n : Nat) (e e' : Expr) (ts : List Token),
    adjustPrecedence n e = some e' → ExprForm env e ts → ExprForm env e' ts := by
  intro n
  induction n using Nat.strongRecOn with
  | _ n ih =>
  intro e e' ts h hf
  cases n with
  | zero => cases h
  | succ n =>
    have ih1 := ih n (by omega)
    cases e with
    | lit v => cases h; exact hf
    | ref id ids => cases h; exact hf
    | subquery op o e q => cases h; exact hf
    | call name args =>
      simp only [adjustPrecedence] at h
      split at h
      · cases h
      · rename_i args' ha
        cases h
        have ha := mapM_some ha
        cases hf with
        | callEmpty => cases ha; exact .callEmpty _
        | countAll => cases ha; exact .countAll
        | call _ hs => exact .call _ (separated_map (fun a b ts => ih1 a b ts) ha hs)
        | isNull he =>
          cases ha with
          | cons h1 h2 =>
            cases h2
            exact .isNull (ih1 _ _ _ h1 he)
    | unary op e =>
      simp only [adjustPrecedence] at h
      split at h
      · cases h
      · rename_i e1 h1
        cases hf with
        | paren he =>
          rw [if_pos rfl] at h
          cases h
          exact .paren (ih1 _ _ _ h1 he)
        | pre hp he =>
          rename_i t us
          rw [if_neg (prefix_ne hp)] at h
          have he1 := ih1 _ _ _ h1 he
          split at h
          · split at h
            · refine ih1 _ _ _ h ?_
              cases he1 with
              | «infix» ht hl hr => exact .infix (ts := t :: _) ht (.pre hp hl) hr
            · cases h
              exact .pre hp he1
          · cases h
            exact .pre hp he1
        | isNotNull he =>
          rw [if_neg (by decide)] at h
          cases n with
          | zero => cases h1
          | succ n =>
            simp only [adjustPrecedence] at h1
            split at h1
            · cases h1
            · rename_i args' ha
              cases h1
              have ha := mapM_some ha
              cases ha with
              | cons h1 h2 =>
                cases h2
                simp only [Option.some.injEq] at h
                subst h
                exact .isNotNull (ih n (by omega) _ _ _ h1 he)
    | binary op l r =>
      cases hf with
      | «infix» ht hl hr =>
        rename_i t ts us
        simp only [adjustPrecedence] at h
        split at h
        · rename_i l1 r1 h1 h2
          replace hl := ih1 _ _ _ h1 hl
          replace hr := ih1 _ _ _ h2 hr
          clear h1 h2
          cases r1 with
          | binary bop bl br =>
            simp only at h
            split at h
            · refine ih1 _ _ _ h ?_
              cases hr with
              | «infix» ht' hbl hbr =>
                have := ExprForm.infix ht' (.infix ht hl hbl) hbr
                simpa using this
            · exact left_form ih1 h ht hl hr
          | _ => exact left_form ih1 h ht hl hr
        · cases h

theorem Sound.adjust (env : ParseEnv) {e : Expr} {ts : List Token} (h : ExprForm env e ts) :
    Sound (Maho.adjust e) (fun e' us => us = [] ∧ ExprForm env e' ts) := by
  intro us a rest _ ha
  unfold Maho.adjust at ha
  split at ha
  · rename_i e1 h1
    cases ha
    exact ⟨[], rfl, rfl, adjust_form env _ _ _ _ h1 h⟩
  · cases ha

/-! ### Parts of queries -/

namespace Sound

theorem optionalBinaryOp : Sound Maho.optionalBinaryOp (fun o us =>
    (o = none ∧ us = []) ∨ ∃ op b t, o = some (op, b) ∧ us = [t] ∧ (t, op) ∈ infixTokens ∧
      (b = true → IsBoolean op)) := by
  unfold Maho.optionalBinaryOp
  refine peek (fun a h => ?_) (fun t l a rest ht _ h => ?_) (fun a rest h => ?_)
  · exact Or.inl ⟨(unscan_eof h).1, rfl⟩
  · cases hop : binaryOps.lookup t with
    | some op =>
      simp only [hop] at h
      obtain ⟨rfl, rfl⟩ := pure_eq h
      have hm : (t, op) ∈ binaryOps := by
        have := List.lookup_eq_some_iff.1 hop
        obtain ⟨l1, l2, h, _⟩ := this
        rw [h]
        simp
      have hall : ∀ p ∈ binaryOps, (p.1, p.2.1) ∈ infixTokens ∧ (p.2.2 = true → IsBoolean p.2.1) := by
        unfold IsBoolean
        decide
      exact ⟨[t], rfl, Or.inr ⟨op.1, op.2, t, rfl, rfl, (hall _ hm).1, (hall _ hm).2⟩⟩
    | none =>
      simp only [hop] at h
      split at h
      · obtain ⟨rfl, rfl⟩ := pure_eq h
        exact ⟨[t], rfl, Or.inr ⟨.and, true, t, rfl, rfl, by simp [*, infixTokens],
          fun _ => by unfold IsBoolean; decide⟩⟩
      · split at h
        · obtain ⟨rfl, rfl⟩ := pure_eq h
          exact ⟨[t], rfl, Or.inr ⟨.or, true, t, rfl, rfl, by simp [*, infixTokens],
            fun _ => by unfold IsBoolean; decide⟩⟩
        · obtain ⟨rfl, rfl⟩ := unscan_pure ht h
          exact ⟨[], rfl, Or.inl ⟨rfl, rfl⟩⟩
  · exact (unscan_eof h).2

theorem schemaName : Sound parseSchemaName SchemaForm := by
  unfold parseSchemaName
  refine bind expectIdentifier fun id vs h => bind (maybeToken (by simp)) fun d ws hd =>
    ite (fun hc => ?_) fun hc => pure ?_
  · subst hc hd
    cases h
    refine bind expectIdentifier fun s us hs => pure ?_
    cases hs
    exact .two id s
  · have : d = false := by simpa using hc
    subst this hd
    cases h
    exact .one id

theorem tableName : Sound parseTableName TableText := by
  unfold parseTableName
  refine bind expectIdentifier fun id vs h => bind (maybeToken (by simp)) fun d ws hd =>
    ite (fun hc => ?_) fun hc => pure ?_
  · subst hc hd
    cases h
    refine bind expectIdentifier fun id2 us hs => bind (maybeToken (by simp)) fun d ws hd =>
      ite (fun hc => ?_) fun hc => pure ?_
    · subst hc hd
      cases hs
      refine bind expectIdentifier fun id3 us hs => pure ?_
      cases hs
      exact .three id id2 id3
    · have : d = false := by simpa using hc
      subst this hd
      cases hs
      exact .two id id2
  · have : d = false := by simpa using hc
    subst this hd
    cases h
    exact .one id

theorem aliasFalse : Sound (parseAlias false) OptAlias := by
  unfold parseAlias
  refine bind (optionalReserved Kw.AS) fun b vs hb => ite (fun hc => ?_) fun hc => ?_
  · subst hc hb
    exact expectIdentifier.mono fun a us h => by cases h; exact .some (.as a)
  · have : b = false := by simpa using hc
    subst this hb
    simp only [Bool.false_eq_true, if_false, List.nil_append]
    refine peek (fun a h => ?_) (fun t l a rest ht _ h => ?_) (fun a rest h => ?_)
    · rw [(unscan_eof h).1]
      exact .none
    · split at h
      · rename_i id
        obtain ⟨rfl, rfl⟩ := pure_eq h
        exact ⟨_, rfl, .some (.bare _)⟩
      · obtain ⟨rfl, rfl⟩ := unscan_pure ht h
        exact ⟨[], rfl, .none⟩
    · exact (unscan_eof h).2

theorem aliasTrue : Sound (parseAlias true) AliasText := by
  unfold parseAlias
  refine bind (optionalReserved Kw.AS) fun b vs hb => ite (fun hc => ?_) fun hc => ?_
  · subst hc hb
    exact expectIdentifier.mono fun a us h => by cases h; exact .as a
  · have : b = false := by simpa using hc
    subst this hb
    simp only [Bool.false_eq_true, if_false, List.nil_append]
    refine bind next fun t us h => ?_
    split
    · refine pure ?_
      rcases h with ⟨h, _⟩ | ⟨_, rfl⟩
      · cases h
      · exact .bare _
    · exact errorAt

theorem tableAlias (env : ParseEnv) : Sound parseTableAlias (FromPartForm env) := by
  unfold parseTableAlias
  refine bind tableName fun tn vs h => bind (maybeToken (by simp)) fun b ws hb =>
    ite (fun hc => ?_) fun hc => ?_
  · subst hc hb
    refine bind expectIdentifier fun i us hi => bind aliasFalse fun a as ha => pure ?_
    cases hi
    simpa using FromPartForm.index i h ha
  · have : b = false := by simpa using hc
    subst this hb
    refine bind aliasFalse fun a as ha => pure ?_
    simpa using FromPartForm.table h ha

theorem columnAliases : Sound parseColumnAliases OptColumns := by
  unfold parseColumnAliases
  refine bind (maybeToken (by simp)) fun b ws hb => ite (fun hc => ?_) fun hc => ?_
  · subst hc hb
    refine (closedList expectIdentifier).mono fun l us h => ?_
    obtain ⟨vs, rfl, h⟩ := h
    exact .some h
  · have : b = false := by simpa using hc
    subst this hb
    exact pure .none

theorem orderBy : Sound parseOrderBy OrderText := by
  unfold parseOrderBy
  refine bind expectIdentifier fun id vs h => bind (optionalReserved Kw.DESC) fun b ws hb =>
    ite (fun hc => ?_) fun hc => ?_
  · subst hc hb
    cases h
    exact pure (.desc id)
  · have : b = false := by simpa using hc
    subst this hb
    cases h
    refine bind (optionalReserved Kw.ASC) fun b ws hb => pure ?_
    subst hb
    cases b
    · exact .plain id
    · exact .asc id

theorem joinType : Sound parseJoinType (fun o us =>
    (o = none ∧ us = []) ∨ ∃ jt, o = some jt ∧ JoinWords jt us) := by
  unfold parseJoinType
  refine bind (optionalReservedId _) fun o vs h => ?_
  rcases h with ⟨rfl, rfl⟩ | ⟨id, hid, rfl, rfl⟩
  · exact pure (Or.inl ⟨rfl, rfl⟩)
  · simp only
    refine ite (fun hc => pure ?_) fun h1 => ite (fun hc => ?_) fun h2 => ite (fun hc => ?_) fun h3 => ?_
    · subst hc
      exact Or.inr ⟨.join, rfl, .join⟩
    · subst hc
      refine bind (expectWord Kw.JOIN) fun _ us hu => pure ?_
      subst hu
      exact Or.inr ⟨.join, rfl, .inner⟩
    · subst hc
      refine bind (expectWord Kw.JOIN) fun _ us hu => pure ?_
      subst hu
      exact Or.inr ⟨.crossJoin, rfl, .cross⟩
    · refine bind (optionalReserved Kw.OUTER) fun b us hb => bind (expectWord Kw.JOIN)
        fun _ us hu => pure ?_
      subst hb hu
      simp only [List.mem_cons, List.not_mem_nil, or_false] at hid
      rcases hid with rfl | rfl | rfl | rfl | rfl | rfl
      · exact absurd rfl h1
      · exact absurd rfl h2
      · cases b
        · exact Or.inr ⟨.leftJoin, rfl, .left⟩
        · exact Or.inr ⟨.leftJoin, rfl, .leftOuter⟩
      · cases b
        · exact Or.inr ⟨.rightJoin, rfl, .right⟩
        · exact Or.inr ⟨.rightJoin, rfl, .rightOuter⟩
      · cases b
        · exact Or.inr ⟨.fullJoin, rfl, .full⟩
        · exact Or.inr ⟨.fullJoin, rfl, .fullOuter⟩
      · exact absurd rfl h3

/-! ### SHOW -/

theorem showFromTable (env : ParseEnv) {w : Identifier} {ns : List Token}
    (hw : w ∈ [Kw.COLUMNS, Kw.CONSTRAINTS]) (hn : ShowName w ns) :
    Sound (Maho.showFromTable env w) (fun q us => ShowForm env q (ns ++ us)) := by
  unfold Maho.showFromTable
  refine bind (expectWord Kw.FROM) fun _ us hu => bind tableName fun tn ts ht => pure ?_
  subst hu
  have := ShowForm.fromTable (env := env) hw hn ht
  unfold infoQuery columnIs columnNamed schemaIs columnIs at this
  unfold selectFrom schemaTest ParseEnv.name
  simp only [List.append_nil]
  by_cases hs : tn.schema = 0
  · simp only [hs, if_true] at this ⊢
    exact this
  · simp only [hs, if_false] at this ⊢
    exact this

theorem showVariable (env : ParseEnv) {id : Identifier} {ns : List Token} (hn : ShowName id ns) :
    Sound (Maho.showVariable env id) (fun q us => ShowForm env q (ns ++ us)) := by
  unfold Maho.showVariable
  refine ite (fun hc => ?_) fun h1 => ite (fun hc => ?_) fun h2 => ite (fun hc => ?_) fun h3 =>
    ite (fun hc => ?_) fun h4 => ite (fun hc => ?_) fun h5 => ite (fun hc => ?_) fun h6 => ?_
  · subst hc
    exact showFromTable env (by simp) hn
  · subst hc
    refine pure ?_
    simpa [selectFrom, infoQuery, ParseEnv.name, columnNamed, columnIs, schemaIs] using ShowForm.config (env := env) hn
  · subst hc
    exact showFromTable env (by simp) hn
  · subst hc
    refine pure ?_
    simpa [selectFrom, infoQuery, ParseEnv.name, columnNamed, columnIs, schemaIs] using ShowForm.databases (env := env) hn
  · subst hc
    refine bind (clause Kw.FROM expectIdentifier) fun d ws hd => pure ?_
    simpa [selectFrom, infoQuery, ParseEnv.name, columnNamed, columnIs, schemaIs] using ShowForm.schemas (env := env) hn hd
  · subst hc
    refine bind (clause Kw.FROM schemaName) fun d ws hd => ?_
    cases hd with
    | none =>
      refine pure ?_
      simpa [selectFrom, infoQuery, ParseEnv.name, columnNamed, columnIs, schemaIs] using ShowForm.tables (env := env) hn
    | some hs =>
      refine pure ?_
      simpa [selectFrom, infoQuery, ParseEnv.name, columnNamed, columnIs, schemaIs] using ShowForm.tablesFrom (env := env) hn hs
  · refine pure ?_
    simpa using ShowForm.variable (env := env) (by simp [showQueries, *]) hn

theorem parseShow (env : ParseEnv) : Sound (Maho.parseShow env) (ShowForm env) := by
  unfold Maho.parseShow
  refine bind next fun t vs h => ?_
  rcases h with ⟨rfl, rfl⟩ | ⟨_, rfl⟩
  · exact errorAt
  · split
    · exact showVariable env (.word _)
    · exact showVariable env (.name _)
    · exact errorAt

end Sound

/-! ### Expressions and queries -/

/-- The methods that call each other accept what the grammar describes. -/
structure ParsersSound (env : ParseEnv) (p : Parsers) : Prop where
  subExpr : Sound p.subExpr (ExprForm env)
  query : Sound p.query (fun o us => (o = none ∧ us = []) ∨ ∃ q, o = some q ∧ QueryForm env q us)
  fromItem : Sound p.fromItem (FromForm env)

namespace ParsersSound

open Sound

variable {env : ParseEnv} {p : Parsers} (hp : ParsersSound env p)
include hp

theorem expr : Sound p.expr (ExprForm env) := by
  unfold Parsers.expr
  refine bind hp.subExpr fun e vs h => (Sound.adjust env h).mono fun e' us h => ?_
  obtain ⟨rfl, h⟩ := h
  simpa using h

theorem subquery : Sound p.subquery (fun q us => ∃ ts, us = inParens ts ∧ QueryForm env q ts) := by
  unfold Parsers.subquery
  refine bind (expectToken (by simp)) fun _ us hu => bind hp.query fun o vs ho => ?_
  subst hu
  rcases ho with ⟨rfl, rfl⟩ | ⟨q, rfl, hq⟩
  · exact error
  · refine bind (expectToken (by simp)) fun _ ws hw => pure ?_
    subst hw
    exact ⟨vs, by simp [inParens], hq⟩

theorem call (id : Identifier) :
    Sound (p.call id) (fun e us => ExprForm env e (.identifier id :: us)) := by
  unfold Parsers.call
  refine bind (maybeToken (by simp)) fun b vs hb => ite (fun hc => ?_) fun hc => ?_
  · subst hc hb
    refine bind (maybeToken (by simp)) fun b vs hb => ite (fun hc => pure ?_) fun hc => ?_
    · subst hc hb
      exact .callEmpty id
    · have : b = false := by simpa using hc
      subst this hb
      have hk : ∀ (b : Bool), (b = true → id = Kw.COUNT) → Sound (if b then do
            let _ ← P.expectTokens [Tok.rparen]
            Pure.pure (.call Kw.COUNT_ALL [])
          else do
            let args ← P.closedList p.subExpr
            Pure.pure (.call id args))
          (fun e us => ExprForm env e
            (.identifier id :: Tok.lparen :: ((if b then [Tok.star] else []) ++ us))) := by
        intro b hb
        refine ite (fun hc => ?_) fun hc => ?_
        · subst hc
          refine bind (expectToken (by simp)) fun _ ws hw => pure ?_
          subst hw
          rw [hb rfl]
          exact .countAll
        · have : b = false := by simpa using hc
          subst this
          refine bind (closedList hp.subExpr) fun args ws hw => pure ?_
          obtain ⟨us, rfl, hw⟩ := hw
          simpa [inParens] using ExprForm.call id hw
      dsimp only
      refine ite (fun hc => ?_) fun hc => ?_
      · refine bind (maybeToken (by simp)) fun b vs hb => (hk b fun _ => hc).mono fun e us h => ?_
        subst hb
        exact h
      · refine bind (pure (R := fun b us => b = false ∧ us = []) ⟨rfl, rfl⟩) fun b vs hb => ?_
        obtain ⟨rfl, rfl⟩ := hb
        exact hk false (by simp)
  · have : b = false := by simpa using hc
    subst this hb
    refine bind (loopNil (R := fun ids us ids' => ∃ i, us = [Tok.dot, .identifier i] ∧
      ids' = ids ++ [i]) fun ids => ?_) fun ids vs h => pure ?_
    · refine bind (maybeToken (by simp)) fun b vs hb => ite (fun hc => ?_) fun hc => ?_
      · subst hc hb
        refine bind expectIdentifier fun i us hi => pure ?_
        cases hi
        exact ⟨i, rfl, rfl⟩
      · have : b = false := by simpa using hc
        subst this hb
        exact pure ⟨rfl, rfl⟩
    · have key : ∀ {ids ids' : List Identifier} {us : List Token}, Repeated (fun ids us ids' =>
          ∃ i, us = [Tok.dot, Token.identifier i] ∧ ids' = ids ++ [i]) ids us ids' →
          ∃ k, ids' = ids ++ k ∧ us = k.flatMap fun i => [Tok.dot, .identifier i] := by
        intro ids ids' us h
        induction h with
        | nil s => exact ⟨[], by simp, rfl⟩
        | cons h _ ih =>
          obtain ⟨i, rfl, rfl⟩ := h
          obtain ⟨k, rfl, rfl⟩ := ih
          exact ⟨i :: k, by simp, by simp⟩
      obtain ⟨k, hk, rfl⟩ := key h
      rw [List.nil_append] at hk
      subst hk
      simpa using ExprForm.ref (env := env) id ids

theorem operand : Sound p.operand (ExprForm env) := by
  unfold Parsers.operand
  refine bind next fun t vs h => ?_
  rcases h with ⟨rfl, rfl⟩ | ⟨_, rfl⟩
  · exact ite (fun h => nomatch h) fun _ => ite (fun h => nomatch h) fun _ => errorGot
  · split
    · refine ite (fun hc => pure ?_) fun _ => ite (fun hc => pure ?_) fun _ =>
        ite (fun hc => pure ?_) fun _ => ite (fun hc => ?_) fun _ => ite (fun hc => ?_) fun _ => error
      · subst hc; exact .true
      · subst hc; exact .false
      · subst hc; exact .null
      · subst hc
        refine bind hp.subExpr fun e us he => pure ?_
        simpa using ExprForm.pre (p := .not) (by decide) he
      · subst hc
        refine bind hp.subquery fun q us hq => pure ?_
        obtain ⟨ts, rfl, hq⟩ := hq
        simpa using ExprForm.exists hq
    · exact pure (.string _)
    · exact pure (.bytes _)
    · exact pure (.integer _)
    · exact pure (.float _)
    · exact (hp.call _).mono fun e us h => h
    · refine ite (fun hc => ?_) fun _ => ite (fun hc => ?_) fun _ => errorGot
      · subst hc
        refine bind hp.subExpr fun e us he => pure ?_
        simpa using ExprForm.pre (p := .negate) (t := Tok.minus) (by decide) he
      · subst hc
        refine bind hp.query fun o us ho => ?_
        rcases ho with ⟨rfl, rfl⟩ | ⟨q, rfl, hq⟩
        · refine bind hp.subExpr fun e us he => bind (expectToken (by simp)) fun _ ws hw => pure ?_
          subst hw
          simpa [inParens] using ExprForm.paren he
        · refine bind (expectToken (by simp)) fun _ ws hw => pure ?_
          subst hw
          simpa [inParens] using ExprForm.scalar hq

theorem operator {e : Expr} {ts : List Token} (he : ExprForm env e ts) :
    Sound (p.operator env e) (fun e' us => ExprForm env e' (ts ++ us)) := by
  unfold Parsers.operator
  refine bind Sound.optionalBinaryOp fun o vs ho => ?_
  rcases ho with ⟨rfl, rfl⟩ | ⟨op, b, t, rfl, rfl, ht, hb⟩
  · simp only [List.nil_append]
    refine bindAt (optionalReservedId _) fun o vs ho => ?_
    rcases ho with ⟨rfl, rfl⟩ | ⟨id, hid, rfl, rfl⟩
    · exact atPre (pure (by simpa using he))
    · simp only
      refine iteAt (fun hc => ?_) fun h1 => iteAt (fun hc => ?_) fun h2 => atPre ?_
      · subst hc
        refine atPre (bind hp.subquery fun q us hq => pure ?_)
        obtain ⟨us, rfl, hq⟩ := hq
        simpa using ExprForm.inQuery he hq
      · subst hc
        refine bindAt2 (optionalReserved Kw.IN) fun b vs hb => iteAt (fun hc => ?_) fun hc => ?_
        · subst hc hb
          refine atPre (bind hp.subquery fun q us hq => pure ?_)
          obtain ⟨us, rfl, hq⟩ := hq
          simpa using ExprForm.notIn he hq
        · have : b = false := by simpa using hc
          subst this hb
          exact unscanAt (pre := []) (by simp) (atPre (pure (by simpa using he)))
      · simp only [List.mem_cons, List.not_mem_nil, or_false] at hid
        have : id = Kw.IS := by
          rcases hid with h | h | h
          · exact absurd h h1
          · exact absurd h h2
          · exact h
        subst this
        refine bind (optionalReserved Kw.NOT) fun b vs hb => bind (expectWord Kw.NULL)
          fun _ ws hw => pure ?_
        subst hb hw
        cases b
        · simpa using ExprForm.isNull he
        · simpa using ExprForm.isNotNull he
  · simp only
    refine bind (optionalReservedId _) fun o vs ho => ?_
    rcases ho with ⟨rfl, rfl⟩ | ⟨id, hid, rfl, rfl⟩
    · refine bind hp.subExpr fun r us hr => pure ?_
      simpa using ExprForm.infix ht he hr
    · refine ite (fun hc => ?_) fun _ => error
      refine bind hp.subquery fun q us hq => pure ?_
      obtain ⟨us, rfl, hq⟩ := hq
      by_cases hall : id = Kw.ALL
      · subst hall
        simpa using ExprForm.all he ht (hb hc) hq
      · rw [if_neg hall]
        simp only [List.mem_cons, List.not_mem_nil, or_false] at hid
        simpa using ExprForm.any (w := id) he ht (hb hc) (by simp; omega) hq

theorem stepSubExpr : Sound (p.stepSubExpr env) (ExprForm env) :=
  bind hp.operand fun _ _ he => hp.operator he

theorem values : Sound p.values (fun q us => QueryForm env q (.reserved Kw.VALUES :: us)) := by
  unfold Parsers.values
  refine bind (separated (R := fun rows us rows' => ∃ row, RowForm env row us ∧
    rows' = rows ++ [row] ∧ ∀ r ∈ rows.head?, r.length = row.length) (fun rows => ?_) [])
    fun rows vs h => pure ?_
  · refine bind (expectToken (by simp)) fun _ us hu => bind (closedList hp.expr) fun row ws hr => ?_
    obtain ⟨xs, rfl, hr⟩ := hr
    subst hu
    have hrow : RowForm env row (Tok.lparen :: (xs ++ [Tok.rparen])) := .mk hr
    split
    · exact pure ⟨row, by simpa using hrow, rfl, by simp⟩
    · refine ite (fun _ => error) fun hl => pure ⟨row, by simpa using hrow, rfl, ?_⟩
      intro r hr
      simp only [List.head?_cons, Option.mem_def, Option.some.injEq] at hr
      subst hr
      simpa using hl
  · have key : ∀ {l m : List (List Expr)} {ts : List Token}, Changes (fun rows us rows' =>
        ∃ row, RowForm env row us ∧ rows' = rows ++ [row] ∧ ∀ r ∈ rows.head?, r.length = row.length)
        l ts m → (∀ n, (∀ r ∈ l, r.length = n) → l ≠ [] → ∀ r ∈ m, r.length = n) ∧
        (l = [] → ∃ n, ∀ r ∈ m, r.length = n) ∧ ∃ k, m = l ++ k ∧ Separated (RowForm env) k ts := by
      intro l m ts h
      induction h with
      | one h =>
        rename_i l m ts
        obtain ⟨row, h1, rfl, h2⟩ := h
        refine ⟨fun n hn h0 r hr => ?_, fun h0 => ⟨row.length, ?_⟩, [row], rfl, .one h1⟩
        · simp only [List.mem_append, List.mem_singleton] at hr
          rcases hr with hr | rfl
          · exact hn r hr
          · cases l with
            | nil => exact absurd rfl h0
            | cons x l => rw [← h2 x (by simp)]; exact hn x (by simp)
        · subst h0
          simp
      | cons h _ ih =>
        rename_i l l' l'' ts us _
        obtain ⟨row, h1, rfl, h2⟩ := h
        obtain ⟨i1, _, k, rfl, i3⟩ := ih
        refine ⟨fun n hn h0 => i1 n (fun r hr => ?_) (by simp), fun h0 => ⟨row.length, ?_⟩,
          row :: k, by simp, .cons h1 i3⟩
        · simp only [List.mem_append, List.mem_singleton] at hr
          rcases hr with hr | rfl
          · exact hn r hr
          · cases l with
            | nil => exact absurd rfl h0
            | cons x l => rw [← h2 x (by simp)]; exact hn x (by simp)
        · subst h0
          exact i1 _ (by simp) (by simp)
    obtain ⟨_, h1, k, rfl, h2⟩ := key h
    obtain ⟨n, h1⟩ := h1 rfl
    simpa using QueryForm.values n h1 h2

theorem fromList : Sound p.fromList (FromListForm env) := by
  unfold Parsers.fromList
  refine bind hp.fromItem fun f vs hf => ?_
  refine (loopNil (R := fun f us f' => ∃ r ts, FromForm env r ts ∧ us = Tok.comma :: ts ∧
    f' = .join f r .crossJoin none []) fun f => ?_).mono fun f' us h => ?_
  · refine bind (maybeToken (by simp)) fun b vs hb => ite (fun hc => ?_) fun hc => ?_
    · subst hc hb
      refine bind hp.fromItem fun r us hr => pure ?_
      exact ⟨r, us, hr, by simp, rfl⟩
    · have : b = false := by simpa using hc
      subst this hb
      exact pure ⟨rfl, rfl⟩
  · have key : ∀ {f f' : FromItem} {us : List Token}, Repeated (fun f us f' => ∃ r ts,
        FromForm env r ts ∧ us = Tok.comma :: ts ∧ f' = .join f r .crossJoin none []) f us f' →
        ∀ vs, FromListForm env f vs → FromListForm env f' (vs ++ us) := by
      intro f f' us h
      induction h with
      | nil s => intro vs h; simpa using h
      | cons h _ ih =>
        intro vs hv
        obtain ⟨r, ts, h1, rfl, rfl⟩ := h
        have := ih _ (.comma hv h1)
        simpa using this
    exact key h vs (.one hf)

theorem exprAlias : Sound (do let e ← p.expr; let alias ← parseAlias false; Pure.pure (.expr e alias))
    (ResultForm env) := by
  refine bind hp.expr fun e vs he => bind aliasFalse fun a us ha => pure ?_
  simpa using ResultForm.expr he ha

theorem result : Sound p.result (ResultForm env) := by
  unfold Parsers.result
  refine bindAt next fun t vs h => ?_
  rcases h with ⟨rfl, rfl⟩ | ⟨ht, rfl⟩
  · refine atPre ?_
    simp only [List.nil_append]
    intro ts a rest hR h
    exact hp.exprAlias ts a rest hR h
  · split
    · rename_i tbl
      refine bindAt2 (maybeToken (by simp)) fun b vs hb => iteAt (fun hc => ?_) fun hc => ?_
      · subst hc hb
        refine bindAt2 (maybeToken (by simp)) fun b vs hb => iteAt (fun hc => ?_) fun hc => ?_
        · subst hc hb
          exact atPre (pure (.table tbl))
        · have : b = false := by simpa using hc
          subst this hb
          exact unscanAt (pre := [.identifier tbl]) (t := Tok.dot) (by simp)
            (unscanAt (pre := []) (by simp) (atPre hp.exprAlias))
      · have : b = false := by simpa using hc
        subst this hb
        exact unscanAt (pre := []) (by simp) (atPre hp.exprAlias)
    · exact unscanAt (pre := []) ht (atPre hp.exprAlias)

theorem groupBy : Sound (do let _ ← P.expectReserved [Kw.BY]; P.separatedList p.expr)
    (GroupForm env) := by
  refine bind (expectWord Kw.BY) fun _ vs hv => (separatedList hp.expr).mono fun l us h => ?_
  subst hv
  exact .mk h

omit hp in
theorem orderClause : Sound (P.clause Kw.ORDER (do
    let _ ← P.expectReserved [Kw.BY]
    P.separatedList parseOrderBy)) (fun o us => OptOrder (o.getD []) us) := by
  have h : Sound (do let _ ← P.expectReserved [Kw.BY]; P.separatedList parseOrderBy)
      (fun l us => ∃ vs, us = .reserved Kw.BY :: vs ∧ Separated OrderText l vs) := by
    refine bind (expectWord Kw.BY) fun _ vs hv => (separatedList orderBy).mono fun l us h => ?_
    subst hv
    exact ⟨us, rfl, h⟩
  refine (clause Kw.ORDER h).mono fun o us h => ?_
  cases h with
  | none => exact .none
  | some h =>
    obtain ⟨vs, rfl, h⟩ := h
    exact .some h

theorem select : Sound p.select (fun q us => QueryForm env q (.reserved Kw.SELECT :: us)) := by
  unfold Parsers.select
  refine bind (maybeToken (by simp)) fun star ss hs => ?_
  have hres : Sound (if star then Pure.pure [] else P.separatedList p.result)
      (fun l us => ResultsForm env l (ss ++ us)) := by
    refine ite (fun hc => pure ?_) fun hc => ?_
    · subst hc hs
      exact .star
    · have : star = false := by simpa using hc
      subst this hs
      exact (separatedList hp.result).mono fun l us h => .list h
  dsimp only
  refine join hres fun l us hl => bind (clause Kw.FROM hp.fromList) fun f fs hf =>
    bind (clause Kw.WHERE hp.expr) fun c ws hw => bind (clause Kw.GROUP hp.groupBy) fun g gs hg =>
    bind (clause Kw.HAVING hp.expr) fun h hs hh => bind ParsersSound.orderClause fun o os ho => pure ?_
  have := QueryForm.select hl hf hw hg hh ho
  simpa using this

theorem stepQuery : Sound (p.stepQuery env) (fun o us =>
    (o = none ∧ us = []) ∨ ∃ q, o = some q ∧ QueryForm env q us) := by
  unfold Parsers.stepQuery
  refine bind (optionalReserved Kw.SELECT) fun b vs hb => ite (fun hc => ?_) fun hc => ?_
  · subst hc hb
    exact bind hp.select fun q us hq => pure (Or.inr ⟨q, rfl, by simpa using hq⟩)
  have : b = false := by simpa using hc
  subst this hb
  refine bind (optionalReserved Kw.VALUES) fun b vs hb => ite (fun hc => ?_) fun hc => ?_
  · subst hc hb
    exact bind hp.values fun q us hq => pure (Or.inr ⟨q, rfl, by simpa using hq⟩)
  have : b = false := by simpa using hc
  subst this hb
  refine bind (optionalReserved Kw.SHOW) fun b vs hb => ite (fun hc => ?_) fun hc => ?_
  · subst hc hb
    exact bind (Sound.parseShow env) fun q us hq =>
      pure (Or.inr ⟨q, rfl, by simpa using QueryForm.showAny hq⟩)
  have : b = false := by simpa using hc
  subst this hb
  refine bind (optionalReserved Kw.TABLE) fun b vs hb => ite (fun hc => ?_) fun hc => ?_
  · subst hc hb
    exact bind tableName fun tn us ht =>
      pure (Or.inr ⟨_, rfl, by simpa [selectFrom] using QueryForm.table (env := env) ht⟩)
  have : b = false := by simpa using hc
  subst this hb
  exact pure (Or.inl ⟨rfl, rfl⟩)

theorem joinCondition : Sound p.joinCondition (fun r us =>
    (∃ e vs, r = (some e, []) ∧ us = .reserved Kw.ON :: vs ∧ ExprForm env e vs) ∨
    (∃ cols vs, r = (none, cols) ∧ us = .reserved Kw.USING :: inParens vs ∧
      Separated Name cols vs ∧ cols.Nodup) ∨ (r = (none, []) ∧ us = [])) := by
  unfold Parsers.joinCondition
  refine bind (clause Kw.ON hp.expr) fun o vs ho => ?_
  cases ho with
  | some he => exact pure (Or.inl ⟨_, _, rfl, by simp, he⟩)
  | none =>
    have h : Sound (do let _ ← P.expectTokens [Tok.lparen]; P.distinctColumns)
        (fun l us => l.Nodup ∧ ∃ vs, us = inParens vs ∧ Separated Name l vs) := by
      refine bind (expectToken (by simp)) fun _ vs hv => distinctColumns.mono fun l us h => ?_
      subst hv
      obtain ⟨h1, ws, rfl, h2⟩ := h
      exact ⟨h1, ws, rfl, h2⟩
    refine bind (clause Kw.USING h) fun o vs ho => pure ?_
    cases ho with
    | none => exact Or.inr (Or.inr ⟨rfl, rfl⟩)
    | some h =>
      obtain ⟨h1, ws, rfl, h2⟩ := h
      exact Or.inr (Or.inl ⟨_, ws, rfl, by simp, h2, h1⟩)

theorem fromPart : Sound (do
    let paren ← P.maybeToken Tok.lparen
    if paren then (do
      let q ← p.query
      match q with
      | some q => parseFromStmt q
      | none => do
        let fi ← p.fromList
        let _ ← P.expectTokens [Tok.rparen]
        Pure.pure fi)
    else parseTableAlias) (FromPartForm env) := by
  refine bind (maybeToken (by simp)) fun b vs hb => ite (fun hc => ?_) fun hc => ?_
  · subst hc hb
    refine bind hp.query fun o us ho => ?_
    rcases ho with ⟨rfl, rfl⟩ | ⟨q, rfl, hq⟩
    · refine bind hp.fromList fun f us hf => bind (expectToken (by simp)) fun _ ws hw => pure ?_
      subst hw
      simpa [inParens] using FromPartForm.paren hf
    · simp only
      unfold parseFromStmt
      refine bind (expectToken (by simp)) fun _ ws hw => bind aliasTrue fun a as ha =>
        bind columnAliases fun cols cs hc => pure ?_
      subst hw
      simpa [inParens] using FromPartForm.stmt hq ha hc
  · have : b = false := by simpa using hc
    subst this hb
    exact (tableAlias env).mono fun f us h => h

theorem stepFromItem : Sound p.stepFromItem (FromForm env) := by
  have hassoc : p.stepFromItem = (do
      let fi ← (do
        let paren ← P.maybeToken Tok.lparen
        if paren then (do
          let q ← p.query
          match q with
          | some q => parseFromStmt q
          | none => do
            let fi ← p.fromList
            let _ ← P.expectTokens [Tok.rparen]
            Pure.pure fi)
        else parseTableAlias)
      let jt ← parseJoinType
      match jt with
      | none => Pure.pure fi
      | some jt => do
        let r ← p.fromItem
        let (on, cols) ← p.joinCondition
        if jt = .crossJoin then
          if on.isSome ∨ cols ≠ [] then P.error else Pure.pure (.join fi r jt on cols)
        else
          if (on.isSome ∧ cols ≠ []) ∨ (on.isNone ∧ cols = []) then P.error
          else Pure.pure (.join fi r jt on cols)) := by
    funext ts
    unfold Parsers.stepFromItem
    show P.bind _ _ ts = P.bind (P.bind _ _) _ ts
    unfold P.bind
    cases P.maybeToken Tok.lparen ts with
    | ok b rest => cases b <;> rfl
    | _ => rfl
  rw [hassoc]
  refine bind hp.fromPart fun f vs hf => bind joinType fun o us ho => ?_
  rcases ho with ⟨rfl, rfl⟩ | ⟨jt, rfl, hj⟩
  · exact pure (by simpa using FromForm.plain hf)
  · refine bind hp.fromItem fun r rs hr => bind hp.joinCondition fun c cs hc => ?_
    rcases hc with ⟨e, es, rfl, rfl, he⟩ | ⟨cols, ns, rfl, rfl, hn, hd⟩ | ⟨rfl, rfl⟩
    · refine ite (fun hx => ite (fun _ => error) fun h => absurd (Or.inl rfl) h)
        fun hx => ite (fun _ => error) fun _ => pure ?_
      simpa using FromForm.on hf hj hx hr he
    · refine ite (fun hx => ite (fun _ => error) fun h => ?_) fun hx => ite (fun _ => error)
        fun _ => pure ?_
      · have : cols ≠ [] := by rintro rfl; cases hn
        exact absurd (Or.inr this) h
      · simpa using FromForm.using hf hj hx hr hn hd
    · refine ite (fun hx => ite (fun _ => error) fun _ => pure ?_) fun hx => ite (fun _ => error)
        fun h => absurd (Or.inr ⟨rfl, rfl⟩) h
      subst hx
      simpa using FromForm.cross hf hj hr

end ParsersSound

theorem parsersSound (env : ParseEnv) : ∀ n, ParsersSound env (parsers env n)
  | 0 => ⟨Sound.stuck, Sound.stuck, Sound.stuck⟩
  | n + 1 =>
    have hp := parsersSound env n
    ⟨hp.stepSubExpr, hp.stepQuery, hp.stepFromItem⟩

end Maho
