import Verif.Lemmas.Complete
import Verif.Lemmas.SoundParse
/-
Helper lemmas for C76: what is written as the grammar says is accepted. Statements.
-/
namespace Maho
open P Maho.Spec

section

variable {env : ParseEnv} {rest : List Token}

theorem queryEnd_exprEnd {t : Token} (h : queryEnd t = true) : exprEnd t = true :=
  exprEnd_tailEnd (l := []) (by simp) (tailEnd_queryEnd h)

theorem orDefault_form {n : Nat} {o : Option Expr} {ts : List Token}
    (h : OrDefault (Written env.words) o ts) (hn : ts.length < n) (hr : Ends exprEnd rest) :
    (parsers env n).exprOrDefault (ts ++ rest) = .ok o rest := by
  cases h with
  | default =>
    unfold Parsers.exprOrDefault
    rw [List.cons_append, bind_ok (optionalReserved_hit (by simp))]
    rfl
  | expr h => exact exprOrDefault_run ⟨_, rfl, h⟩ hn hr

theorem insertRow_form {n : Nat} {row : List (Option Expr)} {ts : List Token}
    (h : InsertForm (Written env.words) row ts) (hn : ts.length < n) :
    (do let _ ← expectTokens [Tok.lparen]; closedList (parsers env n).exprOrDefault :
      P (List (Option Expr))) (ts ++ rest) = .ok row rest := by
  obtain ⟨h⟩ := h
  simp only [inParens, List.length_cons, List.length_append, List.length_nil] at hn
  unfold inParens
  simp only [List.cons_append, List.append_assoc, List.nil_append]
  rw [bind_ok (expectTokens_hit (by simp) (by simp))]
  obtain ⟨as, h1, h2⟩ := closedList_run (S := Eq) (n := n) (f := exprEnd) (rest := rest)
    (item := (parsers env n).exprOrDefault) rfl rfl
    (fun b us hb hn rest hr => ⟨b, orDefault_form hb hn hr, rfl⟩) h (by omega)
  obtain rfl := Pairwise2.eq h1
  exact h2

theorem setting_form {n : Nat} {value : Bytes} {ts : List Token}
    (h : SettingForm env (Written env.words) value ts) (hn : ts.length < n)
    (hr : Ends queryEnd rest) : (parsers env n).settingValue env (ts ++ rest) = .ok value rest := by
  have hr' : Ends exprEnd rest := hr.mono fun _ => queryEnd_exprEnd
  unfold Parsers.settingValue
  cases h with
  | string h =>
    rw [bind_ok ((grammar_ok env n).1.expr h hn hr')]
    rfl
  | @other v _ hv h =>
    rw [bind_ok ((grammar_ok env n).1.expr h hn hr')]
    cases v with
    | str s => exact absurd rfl (hv s)
    | _ => rfl

theorem columns_form {cols : List Identifier} {cs : List Token} {w : Identifier}
    (h : DistinctColumns cols cs) :
    parseColumns (cs ++ .reserved w :: rest) = .ok cols (.reserved w :: rest) := by
  obtain ⟨h, hd⟩ := h
  cases h with
  | none =>
    unfold parseColumns
    rw [List.nil_append, bind_ok (maybeToken_miss (f := isWord) (.cons rfl) fair_isWord rfl (by simp))]
    rfl
  | some h => exact columns_in_parens h hd

theorem columns_starts {cols : List Identifier} {cs : List Token} {w : Identifier}
    (h : DistinctColumns cols cs) :
    Ends (fun t => t == Tok.lparen || isWord t) (cs ++ .reserved w :: rest) := by
  obtain ⟨h, hd⟩ := h
  cases h with
  | none => exact .cons rfl
  | some h => exact .cons rfl

theorem alter_form {a : AlterAction} {ts : List Token} (h : AlterForm a ts) (hr : Ends defEnd rest) :
    parseAlterAction (ts ++ rest) = .ok a rest := by
  have col : ∀ {cs : List Token} {c : Identifier} {us : List Token},
      cs = [] ∨ cs = [.reserved Kw.COLUMN] → ∀ {β : Type} {k : Bool → P β} {r : PRes β},
      (∀ b, k b (.identifier c :: us) = r) →
      (optionalReserved [Kw.COLUMN] >>= k) (cs ++ .identifier c :: us) = r := by
    intro cs c us h β k r hk
    rcases h with rfl | rfl
    · rw [List.nil_append, bind_ok (optionalReserved_miss (f := isName) (.cons rfl) fair_isName (fun _ _ => rfl))]
      exact hk _
    · rw [List.cons_append, bind_ok (optionalReserved_hit (by simp))]
      exact hk _
  unfold parseAlterAction
  cases h with
  | add hn hf =>
    simp only [List.cons_append, List.append_assoc]
    rw [bind_ok (expectReserved_hit (by decide)), if_pos rfl,
      bind_ok (name_form (f := fun t => t == Token.reserved Kw.FOREIGN) hn (.cons (by simp)) ⟨rfl, rfl⟩ rfl),
      bind_ok (expectReserved_hit (by decide)), bind_ok (expectReserved_hit (by decide)),
      bind_ok (foreignKey_form hf (hr.mono fun t ht => by simp [actionEnd, ht]))]
    rfl
  | drop n he =>
    simp only [List.cons_append, List.append_assoc, List.nil_append]
    rw [bind_ok (expectReserved_hit (by decide)), if_neg (by decide), if_pos rfl,
      bind_ok (expectReserved_hit (by decide)), bind_ok (ifExists_form he (.cons rfl)),
      bind_ok expectIdentifier_hit]
    rfl
  | dropDefault c hc =>
    simp only [List.cons_append, List.append_assoc, List.nil_append]
    rw [bind_ok (expectReserved_hit (by decide)), if_neg (by decide), if_neg (by decide)]
    refine col hc fun b => ?_
    rw [bind_ok expectIdentifier_hit,
      bind_ok (expectReserved_hit (by decide)), bind_ok (expectReserved_hit (by decide)), if_pos rfl]
    rfl
  | dropNotNull c hc =>
    simp only [List.cons_append, List.append_assoc, List.nil_append]
    rw [bind_ok (expectReserved_hit (by decide)), if_neg (by decide), if_neg (by decide)]
    refine col hc fun b => ?_
    rw [bind_ok expectIdentifier_hit,
      bind_ok (expectReserved_hit (by decide)), bind_ok (expectReserved_hit (by decide)),
      if_neg (by decide), bind_ok (expectReserved_hit (by decide))]
    rfl

theorem alters_starts {l : List AlterAction} {ts : List Token} (h : Separated AlterForm l ts) :
    Ends isWord (ts ++ rest) := by
  cases h with
  | one h => cases h <;> exact .cons rfl
  | cons h _ => cases h <;> exact .cons rfl

/-- A query after its first word. -/
theorem stmtQuery_form {q : Query} {ts : List Token} (h : QueryText env.words q ts)
    (ht : ts.head? ≠ some (.reserved Kw.TABLE)) : StmtRun env (.query q) ts := by
  exact query_run h ht

theorem selectQuery_form {q : Query} {us ts : List Token} (h : QueryText env.words q us)
    (hu : us = .reserved Kw.SELECT :: ts) {n : Nat} (hn : ts.length < n) (hr : Ends queryEnd rest) :
    (parsers env n).select (ts ++ rest) = .ok q rest := by
  have hg := grammar_ok env n
  cases h with
  | select h1 h2 h3 h4 h5 h6 =>
    obtain rfl := (List.cons.inj hu).2
    simp only [List.length_append] at hn
    simp only [List.append_assoc]
    exact select_run hg.1 hg.2.2 h1 h2 h3 h4 h5 h6 (by omega) hr
  | values _ _ _ => exact absurd (List.cons.inj hu).1 (by decide)
  | table _ => exact absurd (List.cons.inj hu).1 (by decide)
  | showReserved _ _ => exact absurd (List.cons.inj hu).1 (by decide)
  | showVariable _ _ => exact absurd (List.cons.inj hu).1 (by decide)
  | shows h => exact absurd (List.cons.inj hu).1 (by decide)

theorem stmt_form {s : Stmt} {us : List Token}
    (h : StmtForm env (Written env.words) (QueryText env.words) s us) : StmtRun env s us := by
  cases h with
  | begin => exact fun n _ rest _ => stmt_hit (by decide)
  | start =>
    intro n _ rest _
    rw [List.cons_append, stmt_hit (by decide)]
    show (expectReserved [Kw.TRANSACTION] >>= _) _ = _
    rw [List.cons_append, bind_ok (expectReserved_hit (by decide))]
    rfl
  | commit => exact fun n _ rest _ => stmt_hit (by decide)
  | rollback => exact fun n _ rest _ => stmt_hit (by decide)
  | @query q ts w hw hq =>
    refine stmtQuery_form hq ?_
    rintro he
    simp only [List.head?_cons, Option.some.injEq, Token.reserved.injEq] at he
    subst he
    revert hw
    decide
  | @explain q ts vs verbose hv hq =>
    intro n hn rest hr
    simp only [List.length_append, List.length_cons] at hn
    simp only [List.cons_append, List.append_assoc]
    rw [stmt_hit (by decide)]
    refine map_ok (a := Stmt.explain q verbose) ?_
    unfold Parsers.explain
    have hs := selectQuery_form hq rfl (n := n) (by omega) hr
    subst hv
    cases verbose with
    | true =>
      simp only [if_true, List.cons_append, List.nil_append]
      rw [bind_ok (optionalReserved_hit (by simp)), bind_ok (expectReserved_hit (by simp)), bind_ok hs]
      rfl
    | false =>
      simp only [Bool.false_eq_true, if_false, List.nil_append]
      rw [bind_ok (optionalReserved_miss (f := fun t => t == .reserved Kw.SELECT) (.cons (by simp))
        ⟨rfl, rfl⟩ (by decide)), bind_ok (expectReserved_hit (by simp)), bind_ok hs]
      rfl
  | @set var value t t' ts ht ht' hv =>
    intro n hn rest hr
    simp only [List.length_cons] at hn
    simp only [List.cons_append]
    rw [stmt_hit (by decide)]
    refine map_ok (a := Stmt.set var value) ?_
    unfold Parsers.set
    have h7 := setting_form hv (n := n) (by omega) hr
    have h9 : (do
        let equal ← maybeToken Tok.equal
        let _ ← if equal then pure 0 else expectReserved [Kw.TO]
        let value ← (parsers env n).settingValue env
        pure (Stmt.set var value) : P Stmt) (t' :: (ts ++ rest)) = .ok (.set var value) rest := by
      rcases ht' with rfl | rfl
      · rw [bind_ok (maybeToken_hit (by simp)), if_pos rfl]
        exact (bind_ok (m := (pure 0 : P Identifier)) rfl).trans ((bind_ok h7).trans rfl)
      · have h8 : maybeToken Tok.equal (.reserved Kw.TO :: (ts ++ rest)) =
            .ok false (.reserved Kw.TO :: (ts ++ rest)) :=
          maybeToken_miss (f := isWord) (.cons rfl) fair_isWord rfl (by simp)
        rw [bind_ok h8, if_neg (by simp), bind_ok (expectReserved_hit (by simp))]
        exact (bind_ok h7).trans rfl
    rcases ht with rfl | ⟨hvar, rfl⟩
    · rw [bind_ok (optionalReservedId_miss (f := isName) (.cons rfl) fair_isName (fun _ _ => rfl))]
      exact h9
    · rw [bind_ok (optionalReservedId_hit hvar)]
      exact h9
  | @use value ts hv =>
    intro n hn rest hr
    simp only [List.length_cons] at hn
    rw [List.cons_append, stmt_hit (by decide)]
    refine map_ok (a := Stmt.set Kw.DATABASE value) ?_
    unfold Parsers.use
    rw [bind_ok (setting_form hv (by omega) hr)]
    rfl
  | @createTable ine tn s es ts us he ht hc =>
    intro n hn rest hr
    unfold inParens at hn ⊢
    simp only [List.length_append, List.length_cons, List.length_nil] at hn
    simp only [List.cons_append, List.nil_append, List.append_assoc]
    rw [stmt_hit (by decide)]
    refine map_ok (a := Stmt.createTable s) ?_
    unfold Parsers.create
    rw [bind_ok (expectReserved_hit (by decide)), if_neg (by decide), if_neg (by decide),
      if_neg (by decide), if_pos rfl]
    refine (bind_ok (rest := rest) (a := s) ?_).trans rfl
    unfold Parsers.createTable
    rw [bind_ok (ifNotExists_form he (table_ends ht)),
      bind_ok (tableName_run (f := fun t => t == Tok.lparen) ht (.cons (by simp)) ⟨rfl, rfl⟩ rfl),
      bind_ok (expectTokens_hit (by simp) (by simp))]
    exact closed_run (n := n) (fun s ts s' hs hn rest hr => (element_form hs.2 hs.1 hn hr).1)
      (elements_form (n := n) hc (fun _ h => absurd h (by simp)) (by omega)) (by omega)
  | @createIndex index tn key ine unique vs es ts us ks hv he ht hu hk =>
    intro n hn rest hr
    simp only [List.cons_append, List.append_assoc]
    have h7 : parseCreateIndex unique (es ++ (.identifier index ::
        .reserved Kw.ON :: (ts ++ (us ++ (ks ++ rest))))) = .ok (.createIndex index tn key ine) rest := by
      unfold parseCreateIndex
      have hp := key_form_starts hk (rest := rest)
      rw [bind_ok (ifNotExists_form he (.cons rfl)), bind_ok expectIdentifier_hit,
        bind_ok (expectReserved_hit (by simp))]
      rcases hu with rfl | rfl
      · rw [List.nil_append, bind_ok (tableName_run ht hp ⟨rfl, rfl⟩ rfl),
          bind_ok (clause_miss hp ⟨rfl, rfl⟩ rfl), if_neg (by simp), bind_ok (key_form hk)]
        rfl
      · simp only [List.cons_append, List.nil_append]
        rw [bind_ok (tableName_run (f := isWord) ht (.cons rfl) fair_isWord rfl),
          bind_ok (clause_hit expectIdentifier_hit), if_neg (by simp), bind_ok (key_form hk)]
        rfl
    rw [stmt_hit (by decide)]
    refine map_ok (a := Stmt.createIndex index tn key ine) ?_
    unfold Parsers.create
    subst hv
    cases unique with
    | true =>
      simp only [if_true, List.cons_append, List.nil_append]
      rw [bind_ok (expectReserved_hit (by decide)), if_neg (by decide), if_neg (by decide),
        if_neg (by decide), if_neg (by decide), bind_ok (expectReserved_hit (by decide))]
      exact h7
    | false =>
      simp only [Bool.false_eq_true, if_false, List.nil_append]
      rw [bind_ok (expectReserved_hit (by decide)), if_neg (by decide), if_pos (by decide)]
      exact h7
  | @createDatabase d o ts ho =>
    intro n hn rest hr
    simp only [List.cons_append]
    rw [stmt_hit (by decide)]
    refine map_ok (a := Stmt.createDatabase d (o.getD [])) ?_
    unfold Parsers.create
    rw [bind_ok (expectReserved_hit (by decide)), if_pos rfl]
    unfold parseCreateDatabase
    rw [bind_ok expectIdentifier_hit]
    cases ho with
    | none =>
      rw [List.nil_append, bind_ok (clause_miss hr fair_queryEnd rfl)]
      rfl
    | some h =>
      rw [List.cons_append, bind_ok (clause_hit (parseOptions_form h hr))]
      rfl
  | @createSchema sn ts h =>
    intro n hn rest hr
    simp only [List.cons_append]
    rw [stmt_hit (by decide)]
    refine map_ok (a := Stmt.createSchema sn) ?_
    unfold Parsers.create
    rw [bind_ok (expectReserved_hit (by decide)), if_neg (by decide), if_neg (by decide), if_pos rfl,
      bind_ok (schemaName_run h hr fair_queryEnd rfl)]
    rfl
  | @alterTable tn l ts us ht hl =>
    intro n hn rest hr
    simp only [List.cons_append, List.append_assoc]
    rw [stmt_hit (by decide)]
    show (expectReserved [Kw.TABLE] >>= fun _ => some <$> parseAlterTable) _ = _
    rw [bind_ok (expectReserved_hit (by decide))]
    refine map_ok (a := Stmt.alterTable tn l) ?_
    unfold parseAlterTable
    rw [bind_ok (tableName_run ht (alters_starts hl) fair_isWord rfl)]
    obtain ⟨as, k1, k2⟩ := separatedList_run (S := Eq) (n := us.length + 1) (rest := rest)
      (item := parseAlterAction) (f := defEnd) (g := queryEnd) rfl (fun t ht => by simp [defEnd, ht])
      fair_queryEnd rfl hr (fun b us hb _ rest hr => ⟨b, alter_form hb hr, rfl⟩) hl (by omega)
    obtain rfl := Pairwise2.eq k1
    rw [bind_ok k2]
    rfl
  | @dropTable ie cascade l es ts cs he hl hc =>
    intro n hn rest hr
    simp only [List.cons_append, List.append_assoc]
    rw [stmt_hit (by decide)]
    refine map_ok (a := Stmt.dropTable ie cascade l) ?_
    unfold parseDrop
    rw [bind_ok (expectReserved_hit (by decide)), if_neg (by decide), if_neg (by decide),
      if_neg (by decide)]
    unfold parseDropTable
    rw [bind_ok (ifExists_form he (tables_ends hl))]
    have h5 : Ends (tailEnd [Kw.CASCADE, Kw.RESTRICT]) (cs ++ rest) := by
      cases cascade with
      | true =>
        obtain rfl : cs = [.reserved Kw.CASCADE] := by simpa using hc
        exact .cons rfl
      | false =>
        rcases (by simpa using hc : cs = [] ∨ cs = [.reserved Kw.RESTRICT]) with rfl | rfl
        · exact hr.mono fun t ht => tailEnd_cons _ (tailEnd_cons _ (tailEnd_queryEnd ht))
        · exact .cons rfl
    obtain ⟨as, h6, h7⟩ := separatedList_run (S := Eq) (n := ts.length + 1) (item := parseTableName)
      (f := fun t => t == Tok.comma || tailEnd [Kw.CASCADE, Kw.RESTRICT] t)
      (g := tailEnd [Kw.CASCADE, Kw.RESTRICT]) (rest := cs ++ rest) rfl
      (fun t ht => by simp [ht]) (fair_tailEnd _) rfl h5
      (fun b us hb _ rest hr => ⟨b, tableName_run hb hr ⟨rfl, rfl⟩ rfl, rfl⟩) hl (by omega)
    obtain rfl := Pairwise2.eq h6
    rw [bind_ok h7]
    cases cascade with
    | true =>
      obtain rfl : cs = [.reserved Kw.CASCADE] := by simpa using hc
      simp only [List.cons_append, List.nil_append]
      rw [bind_ok (optionalReserved_hit (by simp))]
      rfl
    | false =>
      rcases (by simpa using hc : cs = [] ∨ cs = [.reserved Kw.RESTRICT]) with rfl | rfl
      · rw [List.nil_append, bind_ok (optionalReserved_miss hr fair_queryEnd (fun _ _ => rfl)),
          if_neg (by simp), bind_ok (optionalReserved_miss hr fair_queryEnd (fun _ _ => rfl))]
        rfl
      · simp only [List.cons_append, List.nil_append]
        rw [bind_ok (optionalReserved_miss (f := fun t => t == .reserved Kw.RESTRICT) (.cons (by simp))
          ⟨rfl, rfl⟩ (by decide)), if_neg (by simp), bind_ok (optionalReserved_hit (by simp))]
        rfl
  | @dropIndex ie index tn es ts he ht =>
    intro n hn rest hr
    simp only [List.cons_append, List.append_assoc]
    rw [stmt_hit (by decide)]
    refine map_ok (a := Stmt.dropIndex tn index ie) ?_
    unfold parseDrop
    rw [bind_ok (expectReserved_hit (by decide)), if_neg (by decide), if_pos (by decide)]
    unfold parseDropIndex
    rw [bind_ok (ifExists_form he (.cons rfl)), bind_ok expectIdentifier_hit,
      bind_ok (expectReserved_hit (by decide)), bind_ok (tableName_run ht hr fair_queryEnd rfl)]
    rfl
  | @dropDatabase ie es d he =>
    intro n hn rest hr
    simp only [List.cons_append, List.append_assoc, List.nil_append]
    rw [stmt_hit (by decide)]
    refine map_ok (a := Stmt.dropDatabase ie d) ?_
    unfold parseDrop
    rw [bind_ok (expectReserved_hit (by decide)), if_pos (by decide)]
    unfold parseDropDatabase
    rw [bind_ok (ifExists_form he (.cons rfl)), bind_ok expectIdentifier_hit]
    rfl
  | @dropSchema ie sn es ts he hs =>
    intro n hn rest hr
    simp only [List.cons_append, List.append_assoc]
    rw [stmt_hit (by decide)]
    refine map_ok (a := Stmt.dropSchema ie sn) ?_
    unfold parseDrop
    rw [bind_ok (expectReserved_hit (by decide)), if_neg (by decide), if_neg (by decide),
      if_pos (by decide)]
    unfold parseDropSchema
    rw [bind_ok (ifExists_form he (schema_ends hs)),
      bind_ok (schemaName_run hs hr fair_queryEnd rfl)]
    rfl
  | @copy tn cols d ts cs ds ht hc hd =>
    intro n hn rest hr
    simp only [List.cons_append, List.append_assoc]
    rw [stmt_hit (by decide)]
    refine map_ok (a := Stmt.copy tn cols [] (d.getD 9)) ?_
    unfold parseCopy
    rw [bind_ok (tableName_run ht (columns_starts hc) ⟨rfl, rfl⟩ rfl), bind_ok (columns_form hc),
      bind_ok (expectReserved_hit (by simp)), bind_ok expectIdentifier_hit, if_neg (by simp)]
    cases hd with
    | none =>
      rw [List.nil_append, bind_ok (clause_miss hr fair_queryEnd rfl)]
      rfl
    | some h =>
      obtain ⟨b⟩ := h
      simp only [List.cons_append, List.nil_append]
      rw [bind_ok (clause_hit (a := b.toNat) (rest := rest) (by
        rw [bind_ok (next_hit (by simp))]
        rfl))]
      rfl
  | @delete tn cond ts ws ht hc =>
    intro n hn rest hr
    simp only [List.length_append, List.length_cons] at hn
    simp only [List.cons_append, List.append_assoc]
    rw [stmt_hit (by decide)]
    have h5 : Ends (tailEnd []) rest := hr.mono fun t => tailEnd_queryEnd
    show (expectReserved [Kw.FROM] >>= fun _ => some <$> (parsers env n).delete) _ = _
    rw [bind_ok (expectReserved_hit (by decide))]
    refine map_ok ?_
    unfold Parsers.delete
    rw [bind_ok (tableName_run ht (optExpr_ends (optional_expr hc) h5) (fair_tailEnd _) rfl),
      bind_ok (optExpr_run (grammar_ok env n).1 (optional_expr hc) (by omega) (by simp) (by simp) h5)]
    rfl
  | @insert tn cols rows ts cs rs ht hc hrows =>
    intro n hn rest hr
    simp only [List.length_append, List.length_cons] at hn
    simp only [List.cons_append, List.append_assoc]
    rw [stmt_hit (by decide)]
    show (expectReserved [Kw.INTO] >>= fun _ => some <$> (parsers env n).insert) _ = _
    rw [bind_ok (expectReserved_hit (by decide))]
    refine map_ok (a := Stmt.insert tn cols rows) ?_
    unfold Parsers.insert
    rw [bind_ok (tableName_run ht (columns_starts hc) ⟨rfl, rfl⟩ rfl), bind_ok (columns_form hc),
      bind_ok (expectReserved_hit (by simp))]
    obtain ⟨as, k1, k2⟩ := separatedList_run (S := Eq) (n := n) (rest := rest)
      (item := (do let _ ← expectTokens [Tok.lparen]; closedList (parsers env n).exprOrDefault))
      (f := fun t => t == Tok.comma || queryEnd t) (g := queryEnd) rfl (fun t ht => by simp [ht])
      fair_queryEnd rfl hr (fun b us hb hn rest hr => ⟨b, insertRow_form hb hn, rfl⟩) hrows (by omega)
    obtain rfl := Pairwise2.eq k1
    rw [bind_ok k2]
    rfl
  | @update tn l cond ts us ws ht hl hc =>
    intro n hn rest hr
    simp only [List.length_append, List.length_cons] at hn
    simp only [List.cons_append, List.append_assoc]
    rw [stmt_hit (by decide)]
    have h7 : Ends (tailEnd []) rest := hr.mono fun t => tailEnd_queryEnd
    have h8 := optExpr_ends (optional_expr hc) h7
    refine map_ok ?_
    unfold Parsers.update
    rw [bind_ok (tableName_run (f := isWord) ht (.cons rfl) fair_isWord rfl),
      bind_ok (expectReserved_hit (by simp))]
    obtain ⟨as, k1, k2⟩ := separatedList_run (S := Eq) (n := n) (rest := ws ++ rest)
      (item := (do
        let column ← expectIdentifier
        let _ ← expectTokens [Tok.equal]
        let e ← (parsers env n).exprOrDefault
        pure (column, e)))
      (f := exprEnd) (g := tailEnd [Kw.WHERE]) rfl
      (fun t ht => exprEnd_tailEnd (by decide) ht) (fair_tailEnd _) rfl h8
      (fun b us hb hn rest hr => by
        cases hb with
        | @mk o ts c hb =>
          simp only [List.length_cons] at hn
          refine ⟨(c, o), ?_, rfl⟩
          simp only [List.cons_append]
          rw [bind_ok expectIdentifier_hit, bind_ok (expectTokens_hit (by simp) (by simp)),
            bind_ok (orDefault_form hb (by omega) hr)]
          rfl) hl (by omega)
    obtain rfl := Pairwise2.eq k1
    rw [bind_ok k2, bind_ok (optExpr_run (grammar_ok env n).1 (optional_expr hc) (by omega)
      (by simp) (by simp) h7)]
    rfl

/-- A statement starts with a word. -/
theorem stmt_form_word {s : Stmt} {us : List Token} {E : Expr → List Token → Prop}
    {Q : Query → List Token → Prop} (h : StmtForm env E Q s us) : ∃ id ts, us = .reserved id :: ts := by
  cases h <;> exact ⟨_, _, rfl⟩

/-- What one call returns, with the nil statement. -/
def Accepts (env : ParseEnv) (o : Option Stmt) (us : List Token) : Prop :=
  ∀ n, us.length < n → ∀ rest, Ends queryEnd rest →
    (parsers env n).stmt env (us ++ rest) = .ok o rest

theorem nil_form {us : List Token} (h : us = [.endOfStatement] ∨
    ∃ w ∈ [Kw.DETACH, Kw.EXECUTE, Kw.PREPARE], us = [.reserved w]) : Accepts env none us := by
  intro n hn rest hr
  rcases h with rfl | ⟨w, hw, rfl⟩
  · rfl
  · have : w ∈ stmtKeywords := by
      revert hw
      simp only [List.mem_cons, List.not_mem_nil, or_false]
      rintro (rfl | rfl | rfl) <;> decide
    rw [List.cons_append, stmt_hit this]
    simp only [List.mem_cons, List.not_mem_nil, or_false] at hw
    rcases hw with rfl | rfl | rfl <;> rfl

theorem skipStatement_skips : ∀ {m rest : List Token}, Token.endOfStatement ∉ m → Token.eof ∉ m →
    Token.error false ∉ m → skipStatement (m ++ .endOfStatement :: rest) = (none, rest)
  | [], _, _, _, _ => rfl
  | t :: m, rest, h1, h2, h3 => by
    simp only [List.mem_cons, not_or] at h1 h2 h3
    have ih := skipStatement_skips (rest := rest) h1.2 h2.2 h3.2
    cases t with
    | eof => simp at h2
    | endOfStatement => simp at h1
    | error b =>
      cases b with
      | false => simp at h3
      | true => exact ih
    | _ => exact ih

theorem parseRecover_run {o : Option Stmt} {us : List Token} (h : Accepts env o us) :
    parseRecover env us = (.stmt o, false, []) ∧
      ∀ rest, parseRecover env (us ++ .endOfStatement :: rest) = (.stmt o, false, rest) := by
  constructor
  · have h1 := h _ (Nat.lt_succ_self _) [] .nil
    rw [List.append_nil] at h1
    have : parseStmtEnd env us = .ok o [] := by
      unfold parseStmtEnd Parsers.stmtEnd
      rw [bind_ok h1]
      rfl
    unfold parseRecover
    rw [this]
  · intro rest
    have h1 := h ((us ++ .endOfStatement :: rest : List Token).length + 1)
      (by simp; omega) (.endOfStatement :: rest) (.cons rfl)
    have : parseStmtEnd env (us ++ .endOfStatement :: rest) = .ok o rest := by
      unfold parseStmtEnd Parsers.stmtEnd
      rw [bind_ok h1]
      rfl
    unfold parseRecover
    rw [this]

/-- One call of `Parse`. -/
theorem parse_complete {o : Option Stmt} {skipped us : List Token} {failed : Bool}
    (h : match o with
      | some s => StmtForm env (Written env.words) (QueryText env.words) s us
      | none => us = [.endOfStatement] ∨
        ∃ w ∈ [Kw.DETACH, Kw.EXECUTE, Kw.PREPARE], us = [.reserved w])
    (hs : if failed then ∃ m, Token.endOfStatement ∉ m ∧ Token.eof ∉ m ∧ Token.error false ∉ m ∧
        skipped = m ++ [.endOfStatement]
      else skipped = []) :
    parse env failed (skipped ++ us) = (.stmt o, false, []) ∧
      ∀ rest, parse env failed (skipped ++ us ++ .endOfStatement :: rest) = (.stmt o, false, rest) := by
  have ha : Accepts env o us ∧ ∃ t ts, us = t :: ts ∧ ((∃ id, t = .reserved id) ∨ t = .endOfStatement) := by
    cases o with
    | some s =>
      obtain ⟨id, ts, rfl⟩ := stmt_form_word h
      exact ⟨stmt_form h, _, _, rfl, .inl ⟨_, rfl⟩⟩
    | none =>
      refine ⟨nil_form h, ?_⟩
      rcases h with rfl | ⟨w, hw, rfl⟩
      · exact ⟨_, _, rfl, .inr rfl⟩
      · exact ⟨_, _, rfl, .inl ⟨_, rfl⟩⟩
  obtain ⟨ha, t, ts, rfl, ht⟩ := ha
  have h2 := parseRecover_run ha
  cases failed with
  | false =>
    obtain rfl : skipped = [] := by simpa using hs
    rcases ht with ⟨id, rfl⟩ | rfl
    · exact h2
    · exact h2
  | true =>
    obtain ⟨m, m1, m2, m3, rfl⟩ : ∃ m, Token.endOfStatement ∉ m ∧ Token.eof ∉ m ∧
      Token.error false ∉ m ∧ skipped = m ++ [.endOfStatement] := by simpa using hs
    have key : ∀ l, parse env true (m ++ .endOfStatement :: l) = parseRecover env l := by
      intro l
      have hk := skipStatement_skips (rest := l) m1 m2 m3
      have : parse env true (m ++ .endOfStatement :: l) =
          (match skipStatement (m ++ .endOfStatement :: l) with
          | (some true, rest) => (.error, true, rest)
          | (some false, rest) => (.eof, true, rest)
          | (none, rest) => parseRecover env rest) := by
        cases m with
        | nil => rfl
        | cons t m =>
          cases t with
          | eof => simp at m2
          | error b =>
            cases b with
            | false => simp at m3
            | true => rfl
          | _ => rfl
      rw [this, hk]
    simp only [List.append_assoc, List.cons_append, List.nil_append]
    exact ⟨(key _).trans h2.1, fun rest => (key _).trans (h2.2 rest)⟩

end

end Maho
