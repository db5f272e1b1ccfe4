import Verif.Lemmas.GrammarQuery
/-
Helper lemmas for C61 to C63: `SELECT` and the other queries, and the induction over the length of
the text.
-/
namespace Maho
open P Maho.Spec

/-- What can follow a part of `SELECT`: one of the words `l`, or the end of the query. -/
def tailEnd (l : List Identifier) : Token → Bool
  | .endOfStatement => true
  | .rune r => r == 41
  | .reserved id => id ∈ l
  | _ => false

theorem fair_tailEnd (l : List Identifier) : IsFair (tailEnd l) := ⟨rfl, rfl⟩

theorem tailEnd_cons {l : List Identifier} (w : Identifier) {t : Token} (h : tailEnd l t = true) :
    tailEnd (w :: l) t = true := by
  cases t with
  | reserved id =>
    have h : id ∈ l := of_decide_eq_true h
    exact decide_eq_true (List.mem_cons_of_mem _ h)
  | _ => exact h

theorem tailEnd_word (w : Identifier) (l : List Identifier) :
    tailEnd (w :: l) (.reserved w) = true := decide_eq_true (List.mem_cons_self ..)

theorem tailEnd_queryEnd {t : Token} (h : queryEnd t = true) : tailEnd [] t = true := by
  cases t <;> simp_all [queryEnd, tailEnd]

/-- The words that go on with a part of `SELECT`. -/
abbrev tailWords : List Identifier := [Kw.FROM, Kw.WHERE, Kw.GROUP, Kw.HAVING, Kw.ORDER]

theorem resultEnd_tailEnd {l : List Identifier} (hl : ∀ id ∈ l, id ∈ tailWords) {t : Token}
    (h : tailEnd l t = true) : resultEnd t = true := by
  cases t with
  | reserved id =>
    have h : id ∈ l := of_decide_eq_true h
    exact decide_eq_true (hl id h)
  | endOfStatement => rfl
  | rune r =>
    have h : (r == 41) = true := h
    simp only [beq_iff_eq] at h
    subst h
    rfl
  | _ => cases h

theorem exprEnd_tailEnd {l : List Identifier} (hl : ∀ id ∈ l, id ∈ tailWords) {t : Token}
    (h : tailEnd l t = true) : exprEnd t = true := exprEnd_resultEnd (resultEnd_tailEnd hl h)

theorem listEnd_tailEnd {t : Token} (h : tailEnd [Kw.WHERE, Kw.GROUP, Kw.HAVING, Kw.ORDER] t = true) :
    listEnd t = true := by
  cases t <;> exact h

section

variable {words : Words} {l : List Identifier} {ts rest : List Token}

theorem optExpr_ends {w : Identifier} {o : Option Expr} (h : OptExpr words w o ts)
    (hr : Ends (tailEnd l) rest) : Ends (tailEnd (w :: l)) (ts ++ rest) := by
  cases h with
  | none => exact hr.mono fun t => tailEnd_cons w
  | some _ _ => exact .cons (tailEnd_word w l)

theorem optGroup_ends {es : List Expr} (h : OptGroup words es ts)
    (hr : Ends (tailEnd l) rest) : Ends (tailEnd (Kw.GROUP :: l)) (ts ++ rest) := by
  cases h with
  | none => exact hr.mono fun t => tailEnd_cons _
  | some _ => exact .cons (tailEnd_word _ l)

theorem optOrder_ends {es : List (Identifier × Bool)} (h : OptOrder es ts)
    (hr : Ends (tailEnd l) rest) : Ends (tailEnd (Kw.ORDER :: l)) (ts ++ rest) := by
  cases h with
  | none => exact hr.mono fun t => tailEnd_cons _
  | some _ => exact .cons (tailEnd_word _ l)

theorem optFrom_ends {f : Option FromItem} (h : OptFrom words f ts)
    (hr : Ends (tailEnd l) rest) : Ends (tailEnd (Kw.FROM :: l)) (ts ++ rest) := by
  cases h with
  | none => exact hr.mono fun t => tailEnd_cons _
  | some _ => exact .cons (tailEnd_word _ l)

end

/-! ### The start of an expression -/

/-- What follows a name at the start of an operand. -/
theorem operand_name {words : Words} {e : Expr} {ts us : List Token} {i : Identifier}
    (h : Operand words e ts) (hi : ts = .identifier i :: us) :
    us = [] ∨ (∃ vs, us = Tok.lparen :: vs) ∨ ∃ j vs, us = Tok.dot :: .identifier j :: vs := by
  cases h with
  | ref id ids =>
    simp only [List.cons.injEq] at hi
    cases ids with
    | nil => exact Or.inl hi.2.symm
    | cons j ids => exact Or.inr (Or.inr ⟨j, _, hi.2.symm⟩)
  | callEmpty id =>
    simp only [List.cons.injEq] at hi
    exact Or.inr (Or.inl ⟨_, hi.2.symm⟩)
  | countAll =>
    simp only [List.cons.injEq] at hi
    exact Or.inr (Or.inl ⟨_, hi.2.symm⟩)
  | call id _ =>
    simp only [List.cons.injEq] at hi
    exact Or.inr (Or.inl ⟨_, hi.2.symm⟩)
  | _ => first | cases hi | exact absurd hi (by simp [inParens])

/-- What follows a name at the start of an expression. -/
def AfterName (us : List Token) : Prop :=
  us = [] ∨ (∃ t vs, us = t :: vs ∧ operandEnd t = true) ∨ (∃ vs, us = Tok.lparen :: vs) ∨
    ∃ j vs, us = Tok.dot :: .identifier j :: vs

theorem operand_more {words : Words} {e : Expr} {ts us : List Token} {i : Identifier} {t : Token}
    {vs : List Token} (h : Operand words e ts) (hi : ts ++ t :: vs = .identifier i :: us)
    (ht : operandEnd t = true) : AfterName us := by
  obtain ⟨t', us', rfl, -⟩ := operand_start h
  simp only [List.cons_append, List.cons.injEq] at hi
  obtain ⟨rfl, rfl⟩ := hi
  rcases operand_name h rfl with rfl | ⟨vs, rfl⟩ | ⟨j, vs, rfl⟩
  · exact Or.inr (Or.inl ⟨t, vs, rfl, ht⟩)
  · exact Or.inr (Or.inr (Or.inl ⟨_, rfl⟩))
  · exact Or.inr (Or.inr (Or.inr ⟨j, _, rfl⟩))

theorem written_name {words : Words} {e : Expr} {ts us : List Token} {i : Identifier}
    (h : Written words e ts) (hi : ts = .identifier i :: us) : AfterName us := by
  cases h with
  | mk _ h =>
    revert h
    generalize pieces e = its
    intro h
    cases h with
    | one h =>
      rcases operand_name h hi with h | h | h
      · exact Or.inl h
      · exact Or.inr (Or.inr (Or.inl h))
      · exact Or.inr (Or.inr (Or.inr h))
    | pre ht _ =>
      simp only [prefixTokens, List.mem_cons, List.not_mem_nil, or_false, Prod.mk.injEq] at ht
      simp only [List.cons.injEq] at hi
      rcases ht with ⟨rfl, -⟩ | ⟨rfl, -⟩ <;> cases hi.1
    | «infix» h ht _ => exact operand_more h hi (operandEnd_infix ht)
    | isNull h => exact operand_more h hi rfl
    | isNotNull h => exact operand_more h hi rfl
    | inQuery h _ _ => exact operand_more h hi rfl
    | notIn h _ _ => exact operand_more h hi rfl
    | any h _ ht _ _ _ => exact operand_more h hi (operandEnd_infix ht)
    | all h _ ht _ _ => exact operand_more h hi (operandEnd_infix ht)

/-! ### SELECT -/

section

variable {env : ParseEnv} {n : Nat} {rest : List Token}

/-- What can follow an expression in the results: an alias or the end. -/
def aliasEnd : Token → Bool
  | .identifier _ => true
  | .reserved id => id == Kw.AS || resultEnd (.reserved id)
  | t => resultEnd t

theorem aliasEnd_resultEnd {t : Token} (h : resultEnd t = true) : aliasEnd t = true := by
  cases t with
  | reserved id => show (_ || _) = true; rw [h]; simp
  | identifier _ => rfl
  | _ => exact h

theorem exprEnd_aliasEnd {t : Token} (h : aliasEnd t = true) : exprEnd t = true := by
  cases t with
  | identifier _ => rfl
  | reserved id =>
    have h : (id == Kw.AS || resultEnd (.reserved id)) = true := h
    rw [Bool.or_eq_true, beq_iff_eq] at h
    rcases h with rfl | h
    · decide
    · exact exprEnd_resultEnd h
  | _ => exact exprEnd_resultEnd h

theorem result_run (hS : SubOk env n) {r : SelectResult} {ts : List Token}
    (h : ResultText env.words r ts) (hn : ts.length < n) (hr : Ends resultEnd rest) :
    (parsers env n).result (ts ++ rest) = .ok r rest := by
  cases h with
  | table t =>
    unfold Parsers.result
    simp only [List.cons_append, List.nil_append]
    rw [bind_ok (next_hit (by simp))]
    simp only
    rw [bind_ok (maybeToken_hit (by simp)), if_pos rfl, bind_ok (maybeToken_hit (by simp)),
      if_pos rfl]
    rfl
  | @expr e a ts us h ha =>
    simp only [List.length_append] at hn
    have he : Ends aliasEnd (us ++ rest) :=
      optAlias_ends ha (hr.mono fun t => aliasEnd_resultEnd) rfl (fun _ => rfl)
    have hk : (do
        let e ← (parsers env n).expr
        let alias ← parseAlias false
        pure (.expr e alias) : P SelectResult) (ts ++ (us ++ rest)) = .ok (.expr e a) rest := by
      rw [bind_ok (hS.expr h (by omega) (he.mono fun t => exprEnd_aliasEnd)),
        bind_ok (optAlias_run ha hr fair_resultEnd rfl (fun _ => rfl))]
      rfl
    rw [List.append_assoc]
    obtain ⟨t, ts', hts, ht⟩ := written_start h
    unfold Parsers.result
    have hne : t ≠ .error false ∧ t ≠ .eof := by
      constructor <;> (rintro rfl; cases ht)
    rw [hts, List.cons_append, bind_ok (next_hit hne.1)]
    cases t with
    | identifier i =>
      simp only
      have hname := written_name h hts
      by_cases hd : ∃ j vs, ts' = Tok.dot :: .identifier j :: vs
      · obtain ⟨j, vs, rfl⟩ := hd
        simp only [List.cons_append]
        rw [bind_ok (maybeToken_hit (by simp)), if_pos rfl,
          bind_ok (maybeToken_miss (f := fun t => t == .identifier j) (.cons (by simp)) ⟨rfl, rfl⟩
            (by simp) (by simp)), if_neg (by simp), bind_ok (unscan_cons (by simp)),
          bind_ok (unscan_cons (by simp))]
        rw [hts] at hk
        exact hk
      · have hm : Ends (fun t => t != Tok.dot && t != .error false && t != .eof)
            (ts' ++ (us ++ rest)) := by
          have key : ∀ t, operandEnd t = true →
              (t != Tok.dot && t != .error false && t != .eof) = true := by
            intro t ht
            cases t <;> simp_all [operandEnd]
          rcases hname with rfl | ⟨t, vs, rfl, ht⟩ | ⟨vs, rfl⟩ | h
          · exact he.mono fun t ht => key t (operandEnd_exprEnd (exprEnd_aliasEnd ht))
          · exact .cons (key t ht)
          · exact .cons rfl
          · exact absurd h hd
        rw [bind_ok (maybeToken_miss hm ⟨rfl, rfl⟩ rfl (by simp)), if_neg (by simp),
          bind_ok (unscan_cons hne.2)]
        rw [hts] at hk
        exact hk
    | _ =>
      simp only
      rw [bind_ok (unscan_cons hne.2)]
      rw [hts] at hk
      exact hk

theorem exprs_run (hS : SubOk env n) {es : List Expr} {ts : List Token} {l : List Identifier}
    (h : Separated (Written env.words) es ts) (hn : ts.length < n)
    (hl : ∀ id ∈ l, id ∈ tailWords) (hr : Ends (tailEnd l) rest) :
    separatedList (parsers env n).expr (ts ++ rest) = .ok es rest := by
  obtain ⟨as, h1, h2⟩ := separatedList_run (S := fun a b => a = b) (item := (parsers env n).expr)
    (f := exprEnd) (g := tailEnd l) (rest := rest) (n := n) rfl (fun t => exprEnd_tailEnd hl)
    (fair_tailEnd l) rfl hr
    (fun b ts hb hts rest hr => ⟨b, hS.expr hb hts hr, rfl⟩) h hn
  rw [h2, h1.eq]

theorem results_run (hS : SubOk env n) {rs : List SelectResult} {ts : List Token}
    (h : Separated (ResultText env.words) rs ts) (hn : ts.length < n)
    (hr : Ends (tailEnd tailWords) rest) :
    separatedList (parsers env n).result (ts ++ rest) = .ok rs rest := by
  obtain ⟨as, h1, h2⟩ := separatedList_run (S := fun a b => a = b) (item := (parsers env n).result)
    (f := resultEnd) (g := tailEnd tailWords) (rest := rest) (n := n) rfl
    (fun t => resultEnd_tailEnd (fun _ h => h))
    (fair_tailEnd _) rfl hr
    (fun b ts hb hts rest hr => ⟨b, result_run hS hb hts hr, rfl⟩) h hn
  rw [h2, h1.eq]

/-- What can follow a column of `ORDER BY`. -/
def orderEnd (t : Token) : Bool := t == Tok.comma || tailEnd [] t

theorem orderBy_run {o : Identifier × Bool} {ts : List Token} (h : OrderText o ts)
    (hr : Ends orderEnd rest) : parseOrderBy (ts ++ rest) = .ok o rest := by
  unfold parseOrderBy
  have hm : ∀ w, Ends orderEnd rest → optionalReserved [w] rest = .ok false rest := fun w h =>
    optionalReserved_miss h ⟨rfl, rfl⟩ (fun _ _ => rfl)
  cases h with
  | plain id =>
    simp only [List.cons_append, List.nil_append]
    rw [bind_ok expectIdentifier_hit, bind_ok (hm _ hr), if_neg (by simp), bind_ok (hm _ hr)]
    rfl
  | asc id => rfl
  | desc id => rfl

theorem orders_run {l : List (Identifier × Bool)} {ts : List Token} (h : Separated OrderText l ts)
    (hr : Ends (tailEnd []) rest) : separatedList parseOrderBy (ts ++ rest) = .ok l rest := by
  obtain ⟨as, h1, h2⟩ := separatedList_run (S := fun a b => a = b) (item := parseOrderBy)
    (f := orderEnd) (g := tailEnd []) (rest := rest) (n := ts.length + 1) rfl
    (fun t ht => by unfold orderEnd; rw [ht]; simp)
    (fair_tailEnd _) rfl hr
    (fun b ts hb _ rest hr => ⟨b, orderBy_run hb hr, rfl⟩) h (Nat.lt_succ_self _)
  rw [h2, h1.eq]

theorem optExpr_run (hS : SubOk env n) {w : Identifier} {o : Option Expr} {ts : List Token}
    {l : List Identifier} (h : OptExpr env.words w o ts) (hn : ts.length < n)
    (hl : ∀ id ∈ l, id ∈ tailWords) (hw : w ∉ l) (hr : Ends (tailEnd l) rest) :
    clause w (parsers env n).expr (ts ++ rest) = .ok o rest := by
  cases h with
  | none => exact clause_miss hr (fair_tailEnd l) (decide_eq_false hw)
  | some _ h =>
    simp only [List.length_cons] at hn
    exact clause_hit (hS.expr h (by omega) (hr.mono fun t => exprEnd_tailEnd hl))

theorem optGroup_run (hS : SubOk env n) {es : List Expr} {ts : List Token}
    {l : List Identifier} (h : OptGroup env.words es ts) (hn : ts.length < n)
    (hl : ∀ id ∈ l, id ∈ tailWords) (hw : Kw.GROUP ∉ l) (hr : Ends (tailEnd l) rest) :
    ∃ o, clause Kw.GROUP (do
      let _ ← expectReserved [Kw.BY]
      separatedList (parsers env n).expr) (ts ++ rest) = .ok o rest ∧ o.getD [] = es := by
  cases h with
  | none => exact ⟨none, clause_miss hr (fair_tailEnd l) (decide_eq_false hw), rfl⟩
  | some h =>
    simp only [List.length_cons] at hn
    refine ⟨some es, clause_hit ?_, rfl⟩
    show (expectReserved [Kw.BY] >>= _) (.reserved Kw.BY :: (_ ++ rest)) = _
    rw [bind_ok (expectReserved_hit (by simp))]
    exact exprs_run hS h (by omega) hl hr

theorem optOrder_run {os : List (Identifier × Bool)} {ts : List Token} (h : OptOrder os ts)
    (hr : Ends (tailEnd []) rest) :
    ∃ o, clause Kw.ORDER (do
      let _ ← expectReserved [Kw.BY]
      separatedList parseOrderBy) (ts ++ rest) = .ok o rest ∧ o.getD [] = os := by
  cases h with
  | none => exact ⟨none, clause_miss hr (fair_tailEnd []) rfl, rfl⟩
  | some h =>
    refine ⟨some os, clause_hit ?_, rfl⟩
    show (expectReserved [Kw.BY] >>= _) (.reserved Kw.BY :: (_ ++ rest)) = _
    rw [bind_ok (expectReserved_hit (by simp))]
    exact orders_run h hr

theorem optFrom_run (hF : FromOk env n) {f : Option FromItem} {ts : List Token}
    (h : OptFrom env.words f ts) (hn : ts.length < n)
    (hr : Ends (tailEnd [Kw.WHERE, Kw.GROUP, Kw.HAVING, Kw.ORDER]) rest) :
    clause Kw.FROM (parsers env n).fromList (ts ++ rest) = .ok f rest := by
  cases h with
  | none => exact clause_miss hr (fair_tailEnd _) (by decide)
  | some h =>
    simp only [List.length_cons] at hn
    exact clause_hit (fromList_run hF h (by omega) (hr.mono fun t => listEnd_tailEnd))

/-! ### VALUES -/

theorem row_run (hS : SubOk env n) {row : List Expr} {ts : List Token}
    (h : RowText env.words row ts) (hn : ts.length < n) :
    (do let _ ← expectTokens [Tok.lparen]; closedList (parsers env n).expr : P (List Expr))
      (ts ++ rest) = .ok row rest := by
  cases h with
  | mk h =>
    simp only [inParens, List.length_cons, List.length_append] at hn
    simp only [inParens, List.cons_append, List.append_assoc, List.nil_append]
    rw [bind_ok (expectTokens_hit (by simp) (by simp))]
    obtain ⟨as, h1, h2⟩ := closedList_run (S := fun a b => a = b) (item := (parsers env n).expr)
      (f := exprEnd) (rest := rest) (n := n) rfl rfl
      (fun b ts hb hts rest hr => ⟨b, hS.expr hb hts hr, rfl⟩) h (by omega)
    rw [h2, h1.eq]

/-- One step of the loop of `VALUES`. -/
abbrev valuesStep (p : Parsers) (rows : List (List Expr)) : P (List (List Expr)) := do
  let _ ← expectTokens [Tok.lparen]
  let row ← closedList p.expr
  match rows with
  | [] => pure [row]
  | row0 :: _ =>
    if row0.length ≠ row.length then P.error else pure (rows ++ [row])

theorem valuesStep_run (hS : SubOk env n) {m : Nat} {row : List Expr} {ts : List Token}
    {acc : List (List Expr)} (ha : ∀ r ∈ acc, r.length = m) (hm : row.length = m)
    (h : RowText env.words row ts) (hn : ts.length < n) :
    valuesStep (parsers env n) acc (ts ++ rest) = .ok (acc ++ [row]) rest := by
  cases h with
  | @mk _ ts h =>
    have h1 := row_run (rest := rest) hS (.mk h) hn
    unfold valuesStep
    simp only [inParens, List.cons_append, List.append_assoc, List.nil_append] at h1 ⊢
    rw [bind_ok (expectTokens_hit (by simp) (by simp))] at h1 ⊢
    rw [bind_ok h1]
    cases acc with
    | nil => rfl
    | cons r acc =>
      simp only
      rw [if_neg (by rw [ha r (List.mem_cons_self ..), hm]; simp)]
      rfl

theorem values_loop (hS : SubOk env n) {m : Nat} (hr : Ends queryEnd rest) :
    ∀ {rows : List (List Expr)} {ts : List Token}, Separated (RowText env.words) rows ts →
      (∀ r ∈ rows, r.length = m) → ts.length < n →
      ∀ (k : Nat) (acc : List (List Expr)), (∀ r ∈ acc, r.length = m) → ts.length < k →
        loopFuel (fun s => do
          let s ← valuesStep (parsers env n) s
          let again ← maybeToken Tok.comma
          pure (s, again)) k acc (ts ++ rest) = .ok (acc ++ rows) rest
  | _, _, .one (a := row) (ts := ts) h, hm, hn, k, acc, ha, hk => by
    obtain ⟨j, rfl⟩ : ∃ j, k = j + 1 := ⟨k - 1, by omega⟩
    unfold loopFuel
    have hs : (do
        let s ← valuesStep (parsers env n) acc
        let again ← maybeToken Tok.comma
        pure (s, again) : P (List (List Expr) × Bool)) (ts ++ rest) =
        .ok (acc ++ [row], false) rest := by
      rw [bind_ok (valuesStep_run hS ha (hm row (by simp)) h hn),
        bind_ok (maybeToken_miss hr fair_queryEnd rfl (by simp))]
      rfl
    rw [bind_ok hs]
    rfl
  | _, _, .cons (a := row) (l := rows) (ts := ts) (us := us) h h', hm, hn, k, acc, ha, hk => by
    obtain ⟨j, rfl⟩ : ∃ j, k = j + 1 := ⟨k - 1, by omega⟩
    simp only [List.length_append, List.length_cons] at hn hk
    have ih := values_loop hS hr h' (fun r hr => hm r (List.mem_cons_of_mem _ hr)) (by omega) j
      (acc ++ [row]) (by
        intro r hr
        rw [List.mem_append, List.mem_singleton] at hr
        rcases hr with hr | rfl
        · exact ha r hr
        · exact hm r (by simp)) (by omega)
    unfold loopFuel
    have hs : (do
        let s ← valuesStep (parsers env n) acc
        let again ← maybeToken Tok.comma
        pure (s, again) : P (List (List Expr) × Bool)) (ts ++ (Tok.comma :: (us ++ rest))) =
        .ok (acc ++ [row], true) (us ++ rest) := by
      rw [bind_ok (valuesStep_run hS ha (hm row (by simp)) h (by omega)),
        bind_ok (maybeToken_hit (by simp))]
      rfl
    rw [List.append_assoc, List.cons_append, bind_ok hs]
    simp only [if_true]
    rw [ih]
    simp

theorem values_run (hS : SubOk env n) {m : Nat} {rows : List (List Expr)} {ts : List Token}
    (h : Separated (RowText env.words) rows ts) (hm : ∀ r ∈ rows, r.length = m)
    (hn : ts.length < n) (hr : Ends queryEnd rest) :
    (parsers env n).values (ts ++ rest) = .ok (.values rows) rest := by
  have := values_loop hS hr h hm hn ((ts ++ rest).length + 1) [] (by simp)
    (by rw [List.length_append]; omega)
  rw [List.nil_append] at this
  have h2 : separated (valuesStep (parsers env n)) [] (ts ++ rest) = .ok rows rest := this
  show (separated (valuesStep (parsers env n)) [] >>= fun rows => pure (Query.values rows))
    (ts ++ rest) = _
  rw [bind_ok h2]
  rfl

/-! ### Queries -/

theorem showVariable_run {v : Identifier} (h : v ∉ showQueries) :
    showVariable env v rest = .ok (.show v) rest := by
  simp only [showQueries, List.mem_cons, List.not_mem_nil, or_false, not_or] at h
  unfold showVariable
  simp only [h, if_false]
  rfl

theorem schemaName_run {f : Token → Bool} {sn : SchemaName} {ts rest : List Token}
    (h : SchemaForm sn ts) (hr : Ends f rest) (hf : IsFair f) (hd : f Tok.dot = false) :
    parseSchemaName (ts ++ rest) = .ok sn rest := by
  unfold parseSchemaName
  cases h with
  | one s =>
    simp only [List.cons_append, List.nil_append]
    rw [bind_ok expectIdentifier_hit, bind_ok (maybeToken_miss hr hf hd (by simp))]
    rfl
  | two d s =>
    simp only [List.cons_append, List.nil_append]
    rw [bind_ok expectIdentifier_hit, bind_ok (maybeToken_hit (by simp)), if_pos rfl,
      bind_ok expectIdentifier_hit]
    rfl

/-- `SHOW`. -/
theorem show_form {q : Query} {ts : List Token} (h : ShowForm env q ts) (hr : Ends queryEnd rest) :
    parseShow env (ts ++ rest) = .ok q rest := by
  have start : ∀ {v : Identifier} {ns : List Token} (us : List Token), ShowName v ns →
      parseShow env (ns ++ us) = showVariable env v us := by
    intro v ns us hn
    cases hn <;> rfl
  cases h with
  | @fromTable w tn ns ts hw hn ht =>
    rw [List.append_assoc, start _ hn, List.cons_append]
    have key : showFromTable env w (.reserved Kw.FROM :: (ts ++ rest)) = .ok (infoQuery tn.database
        Kw.METADATA w (some (.binary .and (columnIs env "table_name" (env.string tn.table))
          (schemaIs env tn.schema)))) rest := by
      unfold showFromTable
      rw [bind_ok (expectReserved_hit (by simp)), bind_ok (tableName_run ht hr fair_queryEnd rfl)]
      have : schemaTest env tn.schema = schemaIs env tn.schema := by
        unfold schemaTest schemaIs
        split <;> rfl
      rw [this]
      rfl
    simp only [List.mem_cons, List.not_mem_nil, or_false] at hw
    rcases hw with rfl | rfl
    · exact key
    · exact key
  | config hn => rw [start _ hn]; rfl
  | databases hn => rw [start _ hn]; rfl
  | @schemas ns fs d hn hf =>
    rw [List.append_assoc, start _ hn]
    show (clause Kw.FROM expectIdentifier >>= _) _ = _
    cases hf with
    | none =>
      rw [List.nil_append, bind_ok (clause_miss hr fair_queryEnd rfl)]
      rfl
    | some h =>
      cases h
      simp only [List.cons_append, List.nil_append]
      rw [bind_ok (clause_hit expectIdentifier_hit)]
      rfl
  | tables hn =>
    rw [start _ hn]
    show (clause Kw.FROM parseSchemaName >>= _) _ = _
    rw [bind_ok (clause_miss hr fair_queryEnd rfl)]
    rfl
  | @tablesFrom ns ts sn hn hs =>
    rw [List.append_assoc, start _ hn, List.cons_append]
    show (clause Kw.FROM parseSchemaName >>= _) _ = _
    rw [bind_ok (clause_hit (schemaName_run hs hr fair_queryEnd rfl))]
    rfl
  | «variable» hv hn =>
    rw [start _ hn]
    exact showVariable_run hv

theorem select_run (hS : SubOk env n) (hF : FromOk env n)
    {results : List SelectResult} {fromItem : Option FromItem} {cond : Option Expr}
    {group : List Expr} {having : Option Expr} {order : List (Identifier × Bool)}
    {ts fs ws gs hs os : List Token} (h1 : ResultsText env.words results ts)
    (h2 : OptFrom env.words fromItem fs) (h3 : OptExpr env.words Kw.WHERE cond ws)
    (h4 : OptGroup env.words group gs) (h5 : OptExpr env.words Kw.HAVING having hs)
    (h6 : OptOrder order os)
    (hn : ts.length + fs.length + ws.length + gs.length + hs.length < n)
    (hr : Ends queryEnd rest) :
    (parsers env n).select (ts ++ (fs ++ (ws ++ (gs ++ (hs ++ (os ++ rest)))))) =
      .ok (.select results fromItem cond group having order) rest := by
  have e6 : Ends (tailEnd []) rest := hr.mono fun t => tailEnd_queryEnd
  have e5 := optOrder_ends h6 e6
  have e4 := optExpr_ends h5 e5
  have e3 := optGroup_ends h4 e4
  have e2 := optExpr_ends h3 e3
  have e1 := optFrom_ends h2 e2
  have r2 := optFrom_run hF h2 (by omega) e2
  have r3 := optExpr_run hS h3 (by omega) (by decide) (by decide) e3
  obtain ⟨g, r4, rfl⟩ := optGroup_run hS h4 (by omega) (by decide) (by decide) e4
  have r5 := optExpr_run hS h5 (by omega) (by decide) (by decide) e5
  obtain ⟨o, r6, rfl⟩ := optOrder_run h6 e6
  unfold Parsers.select
  cases h1 with
  | star =>
    simp only [List.cons_append, List.nil_append]
    rw [bind_ok (maybeToken_hit (by simp)), if_pos rfl, bind_ok pure_ok, bind_ok r2, bind_ok r3,
      bind_ok r4, bind_ok r5, bind_ok r6]
    rfl
  | list h =>
    have hst : Ends exprStart (ts ++ (fs ++ (ws ++ (gs ++ (hs ++ (os ++ rest)))))) := by
      have key : ∀ {r : SelectResult} {us vs : List Token}, ResultText env.words r us →
          Ends exprStart (us ++ vs) := by
        intro r us vs h
        cases h with
        | table t => exact .cons rfl
        | expr h _ =>
          rw [List.append_assoc]
          exact written_ends h
      cases h with
      | one h => exact key h
      | cons h _ =>
        rw [List.append_assoc]
        exact key h
    rw [bind_ok (maybeToken_miss hst fair_exprStart rfl (by simp)), if_neg (by simp),
      bind_ok (results_run hS h (by omega) e1)]
    show (clause Kw.FROM (parsers env n).fromList >>= _) _ = _
    rw [bind_ok r2, bind_ok r3, bind_ok r4, bind_ok r5, bind_ok r6]
    rfl

theorem query_step (hS : SubOk env n) (hF : FromOk env n) : QueryOk env (n + 1) := by
  intro q ts h hn rest hr
  show (parsers env n).stepQuery env (ts ++ rest) = _
  cases h with
  | select h1 h2 h3 h4 h5 h6 =>
    simp only [List.length_cons, List.length_append] at hn
    unfold Parsers.stepQuery
    simp only [List.cons_append, List.append_assoc]
    rw [bind_ok (optionalReserved_hit (by simp)), if_pos rfl,
      bind_ok (select_run hS hF h1 h2 h3 h4 h5 h6 (by omega) hr)]
    rfl
  | @values rows ts m hm h =>
    simp only [List.length_cons] at hn
    show ((parsers env n).values >>= _) (ts ++ rest) = _
    rw [bind_ok (values_run hS h hm (by omega) hr)]
    rfl
  | @table tn ts h =>
    show (parseTableName >>= _) (ts ++ rest) = _
    rw [bind_ok (tableName_run h hr fair_queryEnd rfl)]
    rfl
  | showReserved v h =>
    show (showVariable env v >>= _) rest = _
    rw [bind_ok (showVariable_run h)]
    rfl
  | showVariable v h =>
    show (Maho.showVariable env v >>= _) rest = _
    rw [bind_ok (showVariable_run h)]
    rfl
  | @shows q ts h =>
    show (parseShow env >>= _) (ts ++ rest) = _
    rw [bind_ok (show_form h hr)]
    rfl

/-- The parser reads what the grammar describes. -/
theorem grammar_ok (env : ParseEnv) : ∀ n, SubOk env n ∧ QueryOk env n ∧ FromOk env n
  | 0 => ⟨fun _ _ _ h => absurd h (by omega), fun _ _ _ h => absurd h (by omega),
      fun _ _ _ _ h => absurd h (by omega)⟩
  | n + 1 =>
    have ⟨h1, h2, h3⟩ := grammar_ok env n
    ⟨subExpr_step h1 h2, query_step h1 h3, fromItem_step h1 h2 h3⟩

end

theorem ends_stops {rest : List Token} (h : Stops rest) : Ends exprEnd rest := by
  cases rest with
  | nil => exact .nil
  | cons t l =>
    refine .cons ?_
    cases t with
    | identifier _ => rfl
    | reserved id => exact decide_eq_true h
    | endOfStatement => rfl
    | rune r =>
      simp only [Stops, List.mem_cons, List.not_mem_nil, or_false, reduceCtorEq, false_or,
        Token.rune.injEq] at h
      rcases h with rfl | rfl <;> rfl
    | _ => simp [Stops] at h

theorem ends_queryStops {rest : List Token} (h : QueryStops rest) : Ends queryEnd rest := by
  cases rest with
  | nil => exact .nil
  | cons t l =>
    refine .cons ?_
    rcases h with rfl | rfl <;> rfl

/-- An expression and nothing else. -/
theorem parseExpr_run {env : ParseEnv} {its : List Part} {ts rest : List Token}
    (h : PiecesText env.words its ts) (hr : Stops rest) :
    parseExpr env (ts ++ rest) = .ok (build its) rest := by
  have hs := pieces_sequence h
  have hb := build_spec hs
  refine (grammar_ok env ((ts ++ rest).length + 1)).1.expr (e := build its) ⟨hb.1, ?_⟩ ?_
    (ends_stops hr)
  · rw [hb.2]
    exact h
  · rw [List.length_append]
    omega

end Maho
