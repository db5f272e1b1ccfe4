import Verif.Spec.Statement
import Verif.Lemmas.PrintTable
/-
Helper lemmas for C76: what is written as the grammar says is accepted. Parts of statements.
-/
namespace Maho
open P Maho.Spec

section

variable {env : ParseEnv} {rest : List Token}

theorem ifExists_form {b : Bool} {ts : List Token} (h : IfExists b ts) (hr : Ends isName rest) :
    parseIfExists (ts ++ rest) = .ok b rest := by
  cases h with
  | no => exact ifExists_run (b := false) hr
  | yes => exact ifExists_run (b := true) hr

theorem ifNotExists_form {b : Bool} {ts : List Token} (h : IfNotExists b ts) (hr : Ends isName rest) :
    parseIfNotExists (ts ++ rest) = .ok b rest := by
  cases h with
  | no => exact ifNotExists_run (b := false) hr
  | yes => exact ifNotExists_run (b := true) hr

theorem optional_expr {w : Identifier} {o : Option Expr} {ts : List Token}
    (h : Optional w (Written env.words) o ts) : OptExpr env.words w o ts := by
  cases h with
  | none => exact .none w
  | some h => exact .some w h

/-! ### Definitions -/

theorem typeNames_lookup {w : Identifier} {ct : ColumnType} (h : (w, ct) ∈ typeNames) :
    columnTypes.lookup w = some ct := by
  have : ∀ p ∈ typeNames, columnTypes.lookup p.1 = some p.2 := by decide
  exact this _ h

/-- What can follow a part of a column. -/
def columnEnd : Token → Bool
  | .rune r => r == 44 || r == 41
  | .reserved id => id ∈ [Kw.CONSTRAINT, Kw.DEFAULT, Kw.NOT, Kw.PRIMARY, Kw.UNIQUE, Kw.CHECK,
    Kw.REFERENCES]
  | _ => false

theorem fair_columnEnd : IsFair columnEnd := ⟨rfl, rfl⟩

theorem columnEnd_closeEnd {t : Token} (h : closeEnd t = true) : columnEnd t = true := by
  unfold closeEnd at h
  rcases Bool.or_eq_true_iff.1 h with h | h <;> obtain rfl := beq_iff_eq.1 h <;> rfl

theorem type_form {ct : ColumnType} {ts : List Token} (h : TypeForm ct ts)
    (hr : Ends columnEnd rest) : parseColumnType (ts ++ rest) = .ok ct rest := by
  have hr' : ∀ t, rest.head? = some t →
      t ≠ .rune 40 ∧ t ≠ .identifier 34 ∧ t ≠ .error false ∧ t ≠ .eof := by
    intro t ht
    have := hr t ht
    refine ⟨?_, ?_, ?_, ?_⟩ <;> rintro rfl <;> cases this
  cases h with
  | name h => exact parseColumnType_plain (typeNames_lookup h) hr'
  | @sized w ct i h ht h0 h1 =>
    unfold inParens parseColumnType
    simp only [List.cons_append, List.nil_append]
    have hw : w ≠ Kw.DOUBLE := by
      rintro rfl
      have h2 : ∀ p ∈ typeNames, p.1 = Kw.DOUBLE → p.2.type ≠ .string ∧ p.2.type ≠ .bytes := by decide
      have := h2 _ h rfl
      rcases ht with ht | ht
      · exact this.1 ht
      · exact this.2 ht
    have hi : expectInteger 0 maxColumnSize (.integer i :: Tok.rparen :: rest) =
        .ok i (Tok.rparen :: rest) := by
      unfold expectInteger
      rw [bind_ok (next_hit (by simp))]
      simp only
      rw [if_neg (by unfold maxColumnSize; omega)]
      rfl
    rw [bind_ok expectIdentifier_hit]
    simp only [typeNames_lookup h]
    rw [if_neg hw]
    refine (bind_ok (m := (pure false : P Bool)) rfl).trans ?_
    rw [if_pos ht, bind_ok (maybeToken_hit (by simp)), if_pos rfl, bind_ok hi,
      bind_ok (expectTokens_hit (by simp) (by simp))]
    rfl
  | double =>
    unfold parseColumnType
    simp only [List.cons_append, List.nil_append]
    rw [bind_ok expectIdentifier_hit]
    rfl

theorem key_form {unique : Bool} {key : IndexKey} {ts : List Token} (h : KeyForm unique key ts) :
    parseKey unique (ts ++ rest) = .ok key rest := by
  obtain ⟨h2, hd⟩ := h
  have h3 := key_chain (unique := unique) h2 [] [] (by simpa using hd)
  rw [List.nil_append, List.nil_append] at h3
  unfold parseKey inParens
  simp only [List.cons_append, List.append_assoc, List.nil_append]
  rw [bind_ok (expectTokens_hit (by simp) (by simp))]
  refine closed_run (n := _ + 1) ?_ h3 (Nat.lt_succ_self _)
  rintro k us k' ⟨o, ho, hc, rfl⟩ _ rest hr
  cases ho with
  | _ =>
    simp only [List.cons_append, List.nil_append]
    rw [bind_ok expectIdentifier_hit, if_neg hc]
    first
      | rw [bind_ok (optionalReserved_hit (by simp)), if_pos rfl]
        rfl
      | rw [bind_ok (optionalReserved_miss (f := fun t => t == .reserved Kw.DESC) (.cons (by simp)) ⟨rfl, rfl⟩ (by decide)),
          if_neg (by simp), bind_ok (optionalReserved_hit (by simp))]
        rfl
      | rw [bind_ok (optionalReserved_miss hr fair_closeEnd (fun _ _ => rfl)),
          if_neg (by simp), bind_ok (optionalReserved_miss hr fair_closeEnd (fun _ _ => rfl))]
        rfl

theorem key_form_lengths {unique : Bool} {key : IndexKey} {ts : List Token}
    (h : KeyForm unique key ts) : key.reverse.length = key.columns.length := by
  obtain ⟨_, _⟩ := h
  simp

theorem key_form_starts {unique : Bool} {key : IndexKey} {ts : List Token}
    (h : KeyForm unique key ts) : Ends (fun t => t == Tok.lparen) (ts ++ rest) := by
  obtain ⟨_, _⟩ := h
  exact .cons rfl

theorem action_form {a : RefAction} {ts : List Token} (h : ActionForm a ts) :
    parseRefAction (ts ++ rest) = .ok a rest := by
  cases h <;> rfl

/-- A repetition that ends where it says that it does. -/
theorem repeated_loop {σ : Type} {R : σ → List Token → σ → Prop} {step : σ → P (σ × Bool)}
    {G : List Token → Prop} {Inv : σ → Prop} {n : Nat}
    (more : ∀ s ts s', R s ts s' → Inv s → ts.length < n → ∀ rest, G rest →
      step s (ts ++ rest) = .ok (s', true) rest ∧ Inv s' ∧ ts ≠ [])
    (start : ∀ s ts s' rest, R s ts s' → G rest → G (ts ++ rest))
    (stop : ∀ s, step s rest = .ok (s, false) rest) (hG : G rest) :
    ∀ {s s' : σ} {ts : List Token}, Repeated R s ts s' → Inv s → ts.length < n →
      (G (ts ++ rest) ∧ Inv s') ∧ ∀ k, ts.length < k → loopFuel step k s (ts ++ rest) = .ok s' rest
  | _, _, _, .nil s, hI, _ => ⟨⟨hG, hI⟩, fun k hk => by
      obtain ⟨j, rfl⟩ : ∃ j, k = j + 1 := ⟨k - 1, by simp at hk; omega⟩
      exact loop_stop (stop s)⟩
  | _, _, _, .cons (s := s) (s' := s') (ts := ts) (us := us) h h2, hI, hn => by
    simp only [List.length_append] at hn
    have hgen : G (us ++ rest) := (repeated_ends start hG h2)
    obtain ⟨e1, hI', hne⟩ := more s ts s' h hI (by omega) (us ++ rest) hgen
    have ih := repeated_loop more start stop hG h2 hI' (by omega)
    refine ⟨⟨by rw [List.append_assoc]; exact start _ _ _ _ h hgen, ih.1.2⟩, fun k hk => ?_⟩
    have hpos : 0 < ts.length := List.length_pos_iff.2 hne
    simp only [List.length_append] at hk
    obtain ⟨j, rfl⟩ : ∃ j, k = j + 1 := ⟨k - 1, by omega⟩
    rw [List.append_assoc, loop_more e1]
    exact ih.2 j (by omega)
where
  repeated_ends {σ : Type} {R : σ → List Token → σ → Prop} {G : List Token → Prop} {rest : List Token}
    (start : ∀ s ts s' rest, R s ts s' → G rest → G (ts ++ rest)) (hG : G rest) :
    ∀ {s s' : σ} {ts : List Token}, Repeated R s ts s' → G (ts ++ rest)
  | _, _, _, .nil _ => hG
  | _, _, _, .cons h h2 => by
    rw [List.append_assoc]
    exact start _ _ _ _ h (repeated_ends start hG h2)

/-- What can follow the actions of a foreign key. -/
def actionEnd (t : Token) : Bool := defEnd t || columnEnd t

theorem fair_actionEnd : IsFair actionEnd := ⟨rfl, rfl⟩

theorem actions_form {d u : RefAction} {ts : List Token} (h : ActionsForm d u ts)
    (hr : Ends actionEnd rest) : ∃ o, parseOnActions (ts ++ rest) = .ok o rest ∧
      o.1.getD .noAction = d ∧ o.2.getD .noAction = u := by
  cases h with
  | @mk d u ts h =>
    refine ⟨(d, u), ?_, rfl, rfl⟩
    have := repeated_loop (rest := rest) (R := OnForm) (G := fun _ => True) (Inv := fun _ => True)
      (n := ts.length + 1) (step := fun s : Option RefAction × Option RefAction => do
        let on ← optionalReserved [Kw.ON]
        if on then do
          let id ← expectReserved [Kw.DELETE, Kw.UPDATE]
          if id = Kw.DELETE then
            if s.1.isSome then P.error
            else do
              let a ← parseRefAction
              pure ((some a, s.2), true)
          else
            if s.2.isSome then P.error
            else do
              let a ← parseRefAction
              pure ((s.1, some a), true)
        else pure (s, false))
      (by
        intro s ts s' hs _ _ rest _
        cases hs with
        | delete ha =>
          refine ⟨?_, trivial, by simp⟩
          simp only [List.cons_append]
          rw [bind_ok (optionalReserved_hit (by simp)), if_pos rfl, bind_ok (expectReserved_hit (by simp)),
            if_pos rfl, if_neg (by simp), bind_ok (action_form ha)]
          rfl
        | update ha =>
          refine ⟨?_, trivial, by simp⟩
          simp only [List.cons_append]
          rw [bind_ok (optionalReserved_hit (by simp)), if_pos rfl, bind_ok (expectReserved_hit (by simp)),
            if_neg (by decide), if_neg (by simp), bind_ok (action_form ha)]
          rfl)
      (fun _ _ _ _ _ _ => trivial)
      (fun s => by
        rw [bind_ok (optionalReserved_miss hr fair_actionEnd (by decide))]
        rfl) trivial h trivial (Nat.lt_succ_self _)
    exact this.2 _ (by simp; omega)

theorem onActions_starts {s s' : Option RefAction × Option RefAction} {ts : List Token}
    (h : Repeated OnForm s ts s') (hr : Ends actionEnd rest) :
    Ends (fun t => t == .reserved Kw.ON || actionEnd t) (ts ++ rest) := by
  cases h with
  | nil => exact hr.mono fun t ht => by simp [ht]
  | cons h _ => cases h <;> exact .cons rfl

theorem actions_starts {d u : RefAction} {ts : List Token} (h : ActionsForm d u ts)
    (hr : Ends actionEnd rest) : Ends (fun t => t == .reserved Kw.ON || actionEnd t) (ts ++ rest) := by
  obtain ⟨h⟩ := h
  exact onActions_starts h hr

theorem foreignKey_form {name : Identifier} {fk : ForeignKey} {ts : List Token}
    (h : ForeignKeyForm name fk ts) (hr : Ends actionEnd rest) :
    parseForeignKey name (ts ++ rest) = .ok fk rest := by
  cases h with
  | @mk cols refs tn d u cs ts rs as h2 h4 h7 ha =>
    have e0 := actions_starts ha hr
    have e1 : Ends (fun t => t == Tok.lparen || (t == .reserved Kw.ON || actionEnd t))
        (rs ++ (as ++ rest)) := by
      cases h7 with
      | none => exact e0.mono fun t ht => by rw [ht, Bool.or_true]
      | some _ => exact .cons rfl
    obtain ⟨o, o1, rfl, rfl⟩ := actions_form ha hr
    unfold parseForeignKey inParens
    simp only [List.cons_append, List.append_assoc, List.nil_append]
    rw [bind_ok (expectTokens_hit (by simp) (by simp)), bind_ok (names_run h2),
      bind_ok (expectReserved_hit (by simp)), bind_ok (tableName_run h4 e1 ⟨rfl, rfl⟩ rfl)]
    have e3 : ∀ {β : Type} (k : List Identifier → P β) (r : PRes β), k refs (as ++ rest) = r → (do
        let paren ← maybeToken Tok.lparen
        let refCols ← if paren then closedList expectIdentifier else pure []
        k refCols : P β) (rs ++ (as ++ rest)) = r := by
      intro β k r hk
      cases h7 with
      | none =>
        rw [List.nil_append, bind_ok (maybeToken_miss e0 ⟨rfl, rfl⟩ rfl (by simp)), if_neg (by simp)]
        exact (bind_ok (m := (pure [] : P (List Identifier))) rfl).trans hk
      | some h =>
        unfold inParens
        simp only [List.cons_append, List.append_assoc, List.nil_append]
        rw [bind_ok (maybeToken_hit (by simp)), if_pos rfl]
        exact (bind_ok (names_run h)).trans hk
    refine e3 _ _ ?_
    rw [bind_ok o1]
    rfl

/-- `CONSTRAINT` and a name, or nothing. -/
theorem name_form {f : Token → Bool} {n : Identifier} {ts : List Token} (h : NameForm n ts)
    (hr : Ends f rest) (hf : IsFair f) (hc : f (.reserved Kw.CONSTRAINT) = false) :
    parseConstraintName (ts ++ rest) = .ok n rest := by
  cases h with
  | none => exact constraintName_miss hr hf hc
  | some n => exact constraintName_hit

/-- The keys of the constraints have as many directions as columns. -/
def KeysMatch (s : CreateTable) : Prop :=
  ∀ c ∈ s.constraints, c.key.reverse.length = c.key.columns.length

theorem KeysMatch.add {s : CreateTable} {c : Constraint} (h : KeysMatch s)
    (hc : c.key.reverse.length = c.key.columns.length) : KeysMatch (withConstraint s c) := by
  intro d hd
  rcases List.mem_append.1 hd with hd | hd
  · exact h d hd
  · rw [List.mem_singleton.1 hd]
    exact hc

theorem newKey_run {s : CreateTable} {ct : ConstraintType} {name : Identifier} {key : IndexKey}
    (hs : KeysMatch s) (hk : key.reverse.length = key.columns.length) (h : NewKey s ct name key) :
    addKeyConstraint s ct name key rest = .ok (withConstraint s ⟨ct, name, -1, key, none⟩) rest := by
  unfold addKeyConstraint
  rw [if_neg, anyEqualKey_none hk hs fun d hd => (h d hd).2.2]
  · rfl
  · intro ha
    obtain ⟨d, hd, h1⟩ := List.any_eq_true.1 ha
    have := h d hd
    simp only [Bool.or_eq_true, Bool.and_eq_true, beq_iff_eq] at h1
    rcases h1 with h1 | h1
    · exact this.1 h1
    · exact this.2.1 h1

/-- The choice in the constraints on a column that can have a name. -/
theorem onColumn_run {β : Type} {s s' : CreateTable} {ct : ConstraintType} {n : Identifier}
    {ts : List Token} {k : CreateTable → P β} {r : PRes β} (h : NamedOnColumn s ct n s')
    (hk : k s' ts = r) :
    (do let s ← if n ≠ 0 then addColumnConstraint s ct n (s.columns.length - 1) else pure s
        k s) ts = r := by
  cases h with
  | unnamed =>
    rw [if_neg (by simp)]
    exact (bind_ok (m := (pure s : P CreateTable)) rfl).trans hk
  | named h0 h =>
    rw [if_pos h0]
    refine (bind_ok ?_).trans hk
    unfold addColumnConstraint
    rw [if_neg]
    · rfl
    · intro ha
      obtain ⟨d, hd, h1⟩ := List.any_eq_true.1 ha
      have := h d hd
      simp only [Bool.or_eq_true, Bool.and_eq_true, beq_iff_eq] at h1
      rcases h1 with h1 | h1
      · exact this.1 h1
      · exact this.2 h1

theorem Spec.NamedOnColumn.keys {s s' : CreateTable} {ct : ConstraintType} {n : Identifier}
    (h : NamedOnColumn s ct n s') (hs : KeysMatch s) : KeysMatch s' := by
  cases h with
  | unnamed => exact hs
  | named _ _ => exact hs.add rfl

theorem madeName_key (n : Identifier) (cols : List Identifier) (suffix : String) :
    makeKeyConstraintName env n cols suffix = madeName env n cols suffix := by
  unfold makeKeyConstraintName madeName
  by_cases h : n = 0
  · simp [h]
  · simp [h]

/-- What can follow a constraint of a column. -/
def ColumnRest (rest : List Token) : Prop := Ends columnEnd rest ∧ ExprEnds rest

theorem columnConstraint_starts {E : Expr → List Token → Prop} {col : Identifier}
    {s s' : CreateTable × ColumnType × Option Expr} {ts : List Token}
    (h : ColumnConstraintForm env E col s ts s') : ColumnRest (ts ++ rest) := by
  have key : ∀ {n : Identifier} {ns us : List Token}, NameForm n ns → ColumnRest (us ++ rest) →
      ColumnRest (ns ++ us ++ rest) := by
    intro n ns us hn hu
    cases hn with
    | none => exact hu
    | some n => exact ⟨.cons rfl, .inl (.cons rfl)⟩
  cases h with
  | default h _ _ => exact key h ⟨.cons rfl, .inl (.cons rfl)⟩
  | notNull h _ _ => exact key h ⟨.cons rfl, .inr ⟨_, rfl⟩⟩
  | primary h _ => exact key h ⟨.cons rfl, .inl (.cons rfl)⟩
  | unique h _ => exact key h ⟨.cons rfl, .inl (.cons rfl)⟩
  | check h _ => exact key h ⟨.cons rfl, .inl (.cons rfl)⟩
  | references h _ _ _ => exact key h ⟨.cons rfl, .inl (.cons rfl)⟩

/-- The start of a constraint of a column. -/
theorem columnConstraint_word {n w : Identifier}
    {ns ts : List Token} (hn : NameForm n ns)
    (hw : w ∈ [Kw.DEFAULT, Kw.NOT, Kw.PRIMARY, Kw.UNIQUE, Kw.CHECK, Kw.REFERENCES])
    {β : Type} {k : Identifier → Option Identifier → P β} {r : PRes β} (h : k n (some w) ts = r) :
    (do let cn ← parseConstraintName
        let id ← optionalReservedId
          [Kw.DEFAULT, Kw.NOT, Kw.PRIMARY, Kw.UNIQUE, Kw.CHECK, Kw.REFERENCES]
        k cn id : P β) (ns ++ Token.reserved w :: ts) = r := by
  have hw' : w ≠ Kw.CONSTRAINT := by rintro rfl; revert hw; decide
  rw [bind_ok (name_form (f := fun t => t == Token.reserved w) hn (.cons (by simp)) ⟨rfl, rfl⟩
    (by simpa using fun h => hw' h.symm)), bind_ok (optionalReservedId_hit hw)]
  exact h

theorem columnConstraint_form {n : Nat} {col : Identifier} {st st' : ColumnState} {ts : List Token}
    (h : ColumnConstraintForm env (Written env.words) col (st.s, st.ct, st.dflt) ts
      (st'.s, st'.ct, st'.dflt)) (hs : KeysMatch st.s) (hn : ts.length < n) (hr : ColumnRest rest) :
    (parsers env n).columnConstraint env col st (ts ++ rest) = .ok (st', true) rest ∧
      KeysMatch st'.s ∧ ts ≠ [] := by
  have hm : ∀ (m : Identifier) (suffix : String), (if m = 0 then
      env.id (env.string col ++ ascii "_" ++ ascii suffix) false else m) = madeName env m [col] suffix := by
    intro m suffix
    simp [madeName]
  obtain ⟨s, ct, d⟩ := st
  obtain ⟨s', ct', d'⟩ := st'
  simp only at h hs ⊢
  cases h with
  | @default _ _ _ m e ns ts hm1 hc he =>
    simp only [List.length_append, List.length_cons] at hn
    refine ⟨?_, hc.keys hs, by simp⟩
    unfold Parsers.columnConstraint
    simp only [List.append_assoc, List.cons_append]
    refine columnConstraint_word (w := Kw.DEFAULT) hm1 (by decide) ?_
    show (if Kw.DEFAULT = Kw.DEFAULT then _ else _ : P _) _ = _
    rw [if_pos rfl, if_neg (by simp)]
    refine onColumn_run hc ?_
    rw [bind_ok ((grammar_ok env n).1.expr_ends he (by omega) hr.2)]
    rfl
  | @notNull _ _ _ _ m ns hm1 h0 hc =>
    refine ⟨?_, hc.keys hs, by simp⟩
    unfold Parsers.columnConstraint
    simp only [List.append_assoc, List.cons_append, List.nil_append]
    refine columnConstraint_word (w := Kw.NOT) hm1 (by decide) ?_
    show (if Kw.NOT = Kw.DEFAULT then _ else _ : P _) _ = _
    rw [if_neg (by decide), if_pos rfl, bind_ok (expectReserved_hit (by simp)), h0, if_neg (by simp)]
    refine onColumn_run hc ?_
    rfl
  | @primary _ _ _ m ns hm1 hk =>
    refine ⟨?_, hs.add rfl, by simp⟩
    unfold Parsers.columnConstraint
    simp only [List.append_assoc, List.cons_append, List.nil_append]
    refine columnConstraint_word (w := Kw.PRIMARY) hm1 (by decide) ?_
    show (if Kw.PRIMARY = Kw.DEFAULT then _ else _ : P _) _ = _
    rw [if_neg (by decide), if_neg (by decide), if_pos rfl,
      bind_ok (expectReserved_hit (by simp))]
    have := hm m "primary"
    rw [List.append_assoc, show ascii "_" ++ ascii "primary" = ascii "_primary" from rfl] at this
    simp only [this]
    rw [bind_ok (newKey_run hs rfl hk)]
    rfl
  | @unique _ _ _ m ns hm1 hk =>
    refine ⟨?_, hs.add rfl, by simp⟩
    unfold Parsers.columnConstraint
    simp only [List.append_assoc, List.cons_append, List.nil_append]
    refine columnConstraint_word (w := Kw.UNIQUE) hm1 (by decide) ?_
    show (if Kw.UNIQUE = Kw.DEFAULT then _ else _ : P _) _ = _
    rw [if_neg (by decide), if_neg (by decide), if_neg (by decide), if_pos rfl]
    have := hm m "unique"
    rw [List.append_assoc, show ascii "_" ++ ascii "unique" = ascii "_unique" from rfl] at this
    simp only [this]
    rw [bind_ok (newKey_run hs rfl hk)]
    rfl
  | @check _ _ _ m e ns ts hm1 he =>
    unfold inParens at hn ⊢
    simp only [List.length_append, List.length_cons, List.length_nil] at hn
    refine ⟨?_, hs.add rfl, by simp⟩
    unfold Parsers.columnConstraint
    simp only [List.append_assoc, List.cons_append, List.nil_append]
    refine columnConstraint_word (w := Kw.CHECK) hm1 (by decide) ?_
    show (if Kw.CHECK = Kw.DEFAULT then _ else _ : P _) _ = _
    rw [if_neg (by decide), if_neg (by decide), if_neg (by decide), if_neg (by decide), if_pos rfl,
      bind_ok (expectTokens_hit (by simp) (by simp)),
      bind_ok ((grammar_ok env n).1.expr he (by omega) (.cons rfl)),
      bind_ok (expectTokens_hit (by simp) (by simp))]
    rfl
  | @references _ _ _ m tn rc dl up ns ts rs as hm1 ht hrs ha =>
    refine ⟨?_, hs, by simp⟩
    have hr' : Ends actionEnd rest := hr.1.mono fun t ht => by simp [actionEnd, ht]
    have e0 := actions_starts ha hr'
    have e1 : Ends (fun t => t == Tok.lparen || (t == .reserved Kw.ON || actionEnd t))
        (rs ++ (as ++ rest)) := by
      subst hrs
      cases rc with
      | none => exact e0.mono fun t ht => by rw [ht, Bool.or_true]
      | some _ => exact .cons rfl
    obtain ⟨o, o1, rfl, rfl⟩ := actions_form ha hr'
    unfold Parsers.columnConstraint
    simp only [List.append_assoc, List.cons_append]
    refine columnConstraint_word (w := Kw.REFERENCES) hm1 (by decide) ?_
    show (if Kw.REFERENCES = Kw.DEFAULT then _ else _ : P _) _ = _
    rw [if_neg (by decide), if_neg (by decide), if_neg (by decide), if_neg (by decide),
      if_neg (by decide), bind_ok (tableName_run ht e1 ⟨rfl, rfl⟩ rfl)]
    have e3 : ∀ {β : Type} (k : List Identifier → P β) (r : PRes β), k rc.toList (as ++ rest) = r → (do
        let paren ← maybeToken Tok.lparen
        let refCols ← if paren then (do
            let col ← expectIdentifier
            let _ ← expectTokens [Tok.rparen]
            pure [col])
          else pure []
        k refCols : P β) (rs ++ (as ++ rest)) = r := by
      intro β k r hk
      subst hrs
      cases rc with
      | none =>
        rw [List.nil_append, bind_ok (maybeToken_miss e0 ⟨rfl, rfl⟩ rfl (by simp)), if_neg (by simp)]
        exact (bind_ok (m := (pure [] : P (List Identifier))) rfl).trans hk
      | some c =>
        unfold inParens
        simp only [List.cons_append, List.nil_append]
        rw [bind_ok (maybeToken_hit (by simp)), if_pos rfl]
        refine (bind_ok (a := [c]) (rest := as ++ rest) ?_).trans hk
        rw [bind_ok expectIdentifier_hit, bind_ok (expectTokens_hit (by simp) (by simp))]
        rfl
    refine e3 _ _ ?_
    rw [bind_ok o1]
    rfl

/-- The constraints of a column. -/
theorem columnConstraints_form {n : Nat} {col : Identifier}
    {s s' : CreateTable × ColumnType × Option Expr} {ts : List Token}
    (h : Repeated (ColumnConstraintForm env (Written env.words) col) s ts s') (hs : KeysMatch s.1)
    (hn : ts.length < n) (hr : Ends closeEnd rest) :
    (ColumnRest (ts ++ rest) ∧ KeysMatch s'.1) ∧
      loop ((parsers env n).columnConstraint env col) ⟨s.1, s.2.1, s.2.2⟩ (ts ++ rest) =
        .ok ⟨s'.1, s'.2.1, s'.2.2⟩ rest := by
  have conv : ∀ {s s' : CreateTable × ColumnType × Option Expr} {ts : List Token},
      Repeated (ColumnConstraintForm env (Written env.words) col) s ts s' →
      Repeated (fun (st : ColumnState) ts (st' : ColumnState) =>
        ColumnConstraintForm env (Written env.words) col (st.s, st.ct, st.dflt) ts
          (st'.s, st'.ct, st'.dflt)) ⟨s.1, s.2.1, s.2.2⟩ ts ⟨s'.1, s'.2.1, s'.2.2⟩ := by
    intro s s' ts h
    induction h with
    | nil s => exact .nil _
    | cons h _ ih => exact .cons h ih
  have := repeated_loop (rest := rest) (G := ColumnRest) (Inv := fun st : ColumnState => KeysMatch st.s)
    (n := n) (step := (parsers env n).columnConstraint env col)
    (fun s ts s' h hs hn rest hr => columnConstraint_form h hs hn hr)
    (fun _ _ _ _ h _ => columnConstraint_starts h)
    (fun st => columnConstraint_stop hr)
    ⟨hr.mono fun _ => columnEnd_closeEnd, .inl (hr.mono fun _ => exprEnd_closeEnd)⟩ (conv h) hs hn
  exact ⟨this.1, this.2 _ (by simp; omega)⟩

/-- An element of the definition of a table. -/
theorem element_form {n : Nat} {s s' : CreateTable} {ts : List Token}
    (h : TableElement env (Written env.words) s ts s') (hs : KeysMatch s) (hn : ts.length < n)
    (hr : Ends closeEnd rest) :
    (parsers env n).createDetail env s (ts ++ rest) = .ok s' rest ∧ KeysMatch s' := by
  have word : ∀ {m w : Identifier} {ns ts : List Token}, NameForm m ns →
      w ∈ [Kw.PRIMARY, Kw.UNIQUE, Kw.CHECK, Kw.FOREIGN] →
      ∀ {β : Type} {k : Identifier → Option Identifier → P β} {r : PRes β}, k m (some w) ts = r →
      (do let cn ← parseConstraintName
          let id ← optionalReservedId [Kw.PRIMARY, Kw.UNIQUE, Kw.CHECK, Kw.FOREIGN]
          k cn id : P β) (ns ++ Token.reserved w :: ts) = r := by
    intro m w ns ts hn hw β k r h
    have hw' : w ≠ Kw.CONSTRAINT := by rintro rfl; revert hw; decide
    rw [bind_ok (name_form (f := fun t => t == Token.reserved w) hn (.cons (by simp)) ⟨rfl, rfl⟩
      (by simpa using fun h => hw' h.symm)), bind_ok (optionalReservedId_hit hw)]
    exact h
  cases h with
  | @primary m key ns ks hm hk hnew =>
    refine ⟨?_, hs.add (key_form_lengths hk)⟩
    unfold Parsers.createDetail
    simp only [List.append_assoc, List.cons_append]
    refine word (w := Kw.PRIMARY) hm (by decide) ?_
    show (if Kw.PRIMARY = Kw.PRIMARY then _ else _ : P _) _ = _
    rw [if_pos rfl, bind_ok (expectReserved_hit (by simp)), bind_ok (key_form hk), madeName_key]
    exact newKey_run hs (key_form_lengths hk) hnew
  | @unique m key ns ks hm hk hnew =>
    refine ⟨?_, hs.add (key_form_lengths hk)⟩
    unfold Parsers.createDetail
    simp only [List.append_assoc, List.cons_append]
    refine word (w := Kw.UNIQUE) hm (by decide) ?_
    show (if Kw.UNIQUE = Kw.PRIMARY then _ else _ : P _) _ = _
    rw [if_neg (by decide), if_pos rfl, bind_ok (key_form hk), madeName_key]
    exact newKey_run hs (key_form_lengths hk) hnew
  | @check m e ns ts hm he =>
    unfold inParens at hn ⊢
    simp only [List.length_append, List.length_cons, List.length_nil] at hn
    refine ⟨?_, hs.add rfl⟩
    unfold Parsers.createDetail
    simp only [List.append_assoc, List.cons_append, List.nil_append]
    refine word (w := Kw.CHECK) hm (by decide) ?_
    show (if Kw.CHECK = Kw.PRIMARY then _ else _ : P _) _ = _
    rw [if_neg (by decide), if_neg (by decide), if_pos rfl,
      bind_ok (expectTokens_hit (by simp) (by simp)),
      bind_ok ((grammar_ok env n).1.expr he (by omega) (.cons rfl)),
      bind_ok (expectTokens_hit (by simp) (by simp))]
    rfl
  | @foreignKey m fk ns ts hm hf =>
    refine ⟨?_, hs⟩
    unfold Parsers.createDetail
    simp only [List.append_assoc, List.cons_append]
    refine word (w := Kw.FOREIGN) hm (by decide) ?_
    show (if Kw.FOREIGN = Kw.PRIMARY then _ else _ : P _) _ = _
    rw [if_neg (by decide), if_neg (by decide), if_neg (by decide),
      bind_ok (expectReserved_hit (by simp)),
      bind_ok (foreignKey_form hf (hr.mono fun t ht => by simp [actionEnd, defEnd_closeEnd ht]))]
    rfl
  | @column s2 col ct ct' d ts us hcol ht hc =>
    simp only [List.length_append, List.length_cons] at hn
    obtain ⟨⟨h1, h2⟩, h3⟩ := columnConstraints_form hc (n := n) hs (by omega) hr
    refine ⟨?_, h2⟩
    unfold Parsers.createDetail
    simp only [List.append_assoc, List.cons_append]
    rw [bind_ok (constraintName_miss (f := isName) (.cons rfl) fair_isName rfl),
      bind_ok (optionalReservedId_miss (f := isName) (.cons rfl) fair_isName (fun _ _ => rfl))]
    show Parsers.column env (parsers env n) s _ = _
    unfold Parsers.column
    rw [bind_ok expectIdentifier_hit, if_neg hcol]
    show (parseColumnType >>= _) _ = _
    rw [bind_ok (type_form ht h1.1), bind_ok h3]
    rfl

theorem elements_form {n : Nat} : ∀ {s s' : CreateTable} {ts : List Token},
    Changes (TableElement env (Written env.words)) s ts s' → KeysMatch s → ts.length < n →
    Chain (fun s ts s' => KeysMatch s ∧ TableElement env (Written env.words) s ts s') s ts s'
  | _, _, _, .one h, hs, _ => .one ⟨hs, h⟩
  | _, _, _, .cons (ts := ts) (us := us) h h2, hs, hn => by
    simp only [List.length_append, List.length_cons] at hn
    have := (element_form (rest := []) h hs (n := n) (by omega) .nil).2
    exact .cons ⟨hs, h⟩ (elements_form (n := n) h2 this (by omega))

/-! ### Options -/

theorem option_form {l : List (Identifier × Bytes)} {o : Identifier × Bytes} {ts : List Token}
    (h : OptionForm env o ts) : optionStep env l (ts ++ rest) =
      .ok (l.filter (fun p => p.1 ≠ o.1) ++ [o], true) rest := by
  cases h with
  | @mk o v es t he ht =>
    unfold optionStep
    rw [List.cons_append, bind_ok (next_hit (by simp)), List.append_assoc]
    have h1 : ∀ {β : Type} (k : Bool → P β) (r : PRes β), (∀ b, k b (t :: rest) = r) →
        (maybeToken Tok.equal >>= k) (es ++ ([t] ++ rest)) = r := by
      intro β k r hk
      rcases he with rfl | rfl
      · have : Ends (fun t => isName t || match t with
            | .string _ => true | .bytes _ => true | .integer _ => true | .float _ => true
            | _ => false) (t :: rest) := by
          refine .cons ?_
          rcases ht with ⟨_, rfl, _⟩ | rfl | rfl | ⟨_, rfl, _⟩ | ⟨_, rfl, _⟩ <;> rfl
        rw [List.nil_append, List.cons_append, List.nil_append,
          bind_ok (maybeToken_miss this ⟨rfl, rfl⟩ rfl (by simp))]
        exact hk _
      · simp only [List.cons_append, List.nil_append]
        rw [bind_ok (maybeToken_hit (by simp))]
        exact hk _
    refine h1 _ _ fun b => ?_
    rcases ht with ⟨_, rfl, rfl⟩ | rfl | rfl | ⟨_, rfl, rfl⟩ | ⟨_, rfl, rfl⟩ <;>
      (rw [bind_ok (next_hit (by simp))]; rfl)

theorem options_form : ∀ {l : List (Identifier × Bytes)} {ts : List Token},
    OptionsForm env l ts → ∀ (rest : List Token) (k : Nat), ∃ j, k ≤ j ∧
      loopFuel (optionStep env) (ts.length + k) [] (ts ++ rest) =
        loopFuel (optionStep env) j l rest
  | _, _, .one (o := o) (ts := ts) h, rest, k => by
    have hl : 0 < ts.length := by cases h; simp
    refine ⟨ts.length + k - 1, by omega, ?_⟩
    obtain ⟨i, hi⟩ : ∃ i, ts.length + k = i + 1 := ⟨ts.length + k - 1, by omega⟩
    rw [hi, loop_more (option_form h)]
    rfl
  | _, _, .more (l := l) (o := o) (ts := ts) (us := us) h h2, rest, k => by
    have hl : 0 < us.length := by cases h2; simp
    obtain ⟨j, hj, h3⟩ := options_form h (us ++ rest) (us.length + k)
    refine ⟨j - 1, by omega, ?_⟩
    obtain ⟨i, rfl⟩ : ∃ i, j = i + 1 := ⟨j - 1, by omega⟩
    rw [List.length_append, Nat.add_assoc, List.append_assoc, h3, loop_more (option_form h2)]
    rfl

theorem options_ne {l : List (Identifier × Bytes)} {ts : List Token} (h : OptionsForm env l ts) :
    l ≠ [] := by
  cases h <;> simp

theorem parseOptions_form {l : List (Identifier × Bytes)} {ts : List Token}
    (h : OptionsForm env l ts) (hr : Ends queryEnd rest) :
    parseOptions env (ts ++ rest) = .ok l rest := by
  obtain ⟨j, hj, h1⟩ := options_form h rest (rest.length + 1)
  have h2 : loop (optionStep env) [] (ts ++ rest) = .ok l rest := by
    unfold loop
    rw [List.length_append, Nat.add_assoc, h1]
    obtain ⟨i, rfl⟩ : ∃ i, j = i + 1 := ⟨j - 1, by omega⟩
    refine loop_stop ?_
    unfold optionStep
    refine peek_miss hr fair_queryEnd ?_ ?_
    · rintro rfl
      rfl
    · rintro t m rfl ht hne
      cases t with
      | rune r => rfl
      | endOfStatement => rfl
      | _ => cases ht
  exact (bind_ok (k := fun options => if options = [] then error else pure options)
    (m := loop (optionStep env) []) h2).trans (by rw [if_neg (options_ne h)]; rfl)

end

end Maho
